import Verif.Py

/-! Specification of the standard output scripts and of what it means for a network to use them, independent of the model. -/

namespace Verif.Spec

/-- OP_DUP OP_HASH160 <20> OP_EQUALVERIFY OP_CHECKSIG. -/
def p2pkhScript (h : Bytes) : Bytes := [0x76, 0xa9, 0x14] ++ h ++ [0x88, 0xac]
/-- OP_HASH160 <20> OP_EQUAL. -/
def p2shScript (h : Bytes) : Bytes := [0xa9, 0x14] ++ h ++ [0x87]
/-- OP_0 <20>. -/
def p2wpkhScript (h : Bytes) : Bytes := [0x00, 0x14] ++ h
/-- OP_0 <32>. -/
def p2wshScript (h : Bytes) : Bytes := [0x00, 0x20] ++ h

end Verif.Spec
