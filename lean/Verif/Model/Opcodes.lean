import Verif.Model.Networks

/-! # script/opcodes.py -/

namespace Verif

/-- script/opcodes.py:31-146, the literal part of `OPCODE_LIST`. -/
def opcodeListBase : List (PyStr × UInt8) :=
  [(pystr "OP_0", 0),
   (pystr "OP_PUSHDATA1", 76),
   (pystr "OP_PUSHDATA2", 77),
   (pystr "OP_PUSHDATA4", 78),
   (pystr "OP_1NEGATE", 79),
   (pystr "OP_RESERVED", 80),
   (pystr "OP_1", 81),
   (pystr "OP_2", 82),
   (pystr "OP_3", 83),
   (pystr "OP_4", 84),
   (pystr "OP_5", 85),
   (pystr "OP_6", 86),
   (pystr "OP_7", 87),
   (pystr "OP_8", 88),
   (pystr "OP_9", 89),
   (pystr "OP_10", 90),
   (pystr "OP_11", 91),
   (pystr "OP_12", 92),
   (pystr "OP_13", 93),
   (pystr "OP_14", 94),
   (pystr "OP_15", 95),
   (pystr "OP_16", 96),
   (pystr "OP_NOP", 97),
   (pystr "OP_VER", 98),
   (pystr "OP_IF", 99),
   (pystr "OP_NOTIF", 100),
   (pystr "OP_VERIF", 101),
   (pystr "OP_VERNOTIF", 102),
   (pystr "OP_ELSE", 103),
   (pystr "OP_ENDIF", 104),
   (pystr "OP_VERIFY", 105),
   (pystr "OP_RETURN", 106),
   (pystr "OP_TOALTSTACK", 107),
   (pystr "OP_FROMALTSTACK", 108),
   (pystr "OP_2DROP", 109),
   (pystr "OP_2DUP", 110),
   (pystr "OP_3DUP", 111),
   (pystr "OP_2OVER", 112),
   (pystr "OP_2ROT", 113),
   (pystr "OP_2SWAP", 114),
   (pystr "OP_IFDUP", 115),
   (pystr "OP_DEPTH", 116),
   (pystr "OP_DROP", 117),
   (pystr "OP_DUP", 118),
   (pystr "OP_NIP", 119),
   (pystr "OP_OVER", 120),
   (pystr "OP_PICK", 121),
   (pystr "OP_ROLL", 122),
   (pystr "OP_ROT", 123),
   (pystr "OP_SWAP", 124),
   (pystr "OP_TUCK", 125),
   (pystr "OP_CAT", 126),
   (pystr "OP_SUBSTR", 127),
   (pystr "OP_LEFT", 128),
   (pystr "OP_RIGHT", 129),
   (pystr "OP_SIZE", 130),
   (pystr "OP_INVERT", 131),
   (pystr "OP_AND", 132),
   (pystr "OP_OR", 133),
   (pystr "OP_XOR", 134),
   (pystr "OP_EQUAL", 135),
   (pystr "OP_EQUALVERIFY", 136),
   (pystr "OP_RESERVED1", 137),
   (pystr "OP_RESERVED2", 138),
   (pystr "OP_1ADD", 139),
   (pystr "OP_1SUB", 140),
   (pystr "OP_2MUL", 141),
   (pystr "OP_2DIV", 142),
   (pystr "OP_NEGATE", 143),
   (pystr "OP_ABS", 144),
   (pystr "OP_NOT", 145),
   (pystr "OP_0NOTEQUAL", 146),
   (pystr "OP_ADD", 147),
   (pystr "OP_SUB", 148),
   (pystr "OP_MUL", 149),
   (pystr "OP_DIV", 150),
   (pystr "OP_MOD", 151),
   (pystr "OP_LSHIFT", 152),
   (pystr "OP_RSHIFT", 153),
   (pystr "OP_BOOLAND", 154),
   (pystr "OP_BOOLOR", 155),
   (pystr "OP_NUMEQUAL", 156),
   (pystr "OP_NUMEQUALVERIFY", 157),
   (pystr "OP_NUMNOTEQUAL", 158),
   (pystr "OP_LESSTHAN", 159),
   (pystr "OP_GREATERTHAN", 160),
   (pystr "OP_LESSTHANOREQUAL", 161),
   (pystr "OP_GREATERTHANOREQUAL", 162),
   (pystr "OP_MIN", 163),
   (pystr "OP_MAX", 164),
   (pystr "OP_WITHIN", 165),
   (pystr "OP_RIPEMD160", 166),
   (pystr "OP_SHA1", 167),
   (pystr "OP_SHA256", 168),
   (pystr "OP_HASH160", 169),
   (pystr "OP_HASH256", 170),
   (pystr "OP_CODESEPARATOR", 171),
   (pystr "OP_CHECKSIG", 172),
   (pystr "OP_CHECKSIGVERIFY", 173),
   (pystr "OP_CHECKMULTISIG", 174),
   (pystr "OP_CHECKMULTISIGVERIFY", 175),
   (pystr "OP_NOP1", 176),
   (pystr "OP_NOP2", 177),
   (pystr "OP_CHECKLOCKTIMEVERIFY", 177),
   (pystr "OP_NOP3", 178),
   (pystr "OP_CHECKSEQUENCEVERIFY", 178),
   (pystr "OP_NOP4", 179),
   (pystr "OP_NOP5", 180),
   (pystr "OP_NOP6", 181),
   (pystr "OP_NOP7", 182),
   (pystr "OP_NOP8", 183),
   (pystr "OP_NOP9", 184),
   (pystr "OP_NOP10", 185),
   (pystr "OP_INVALIDOPCODE", 255)]

/-- `"%d" % n` for a non-negative `n`. -/
def decStr (n : Nat) : PyStr := Nat.toDigits 10 n

/-- script/opcodes.py:149, `"OP_PUSH_%d" % i`; also script/serialization.py:36. -/
def opPushName (i : Nat) : PyStr := pystr "OP_PUSH_" ++ decStr i

/-- script/opcodes.py:148-149: `OPCODE_LIST` after appending `OP_PUSH_1` .. `OP_PUSH_75`. -/
def opcodeList : List (PyStr × UInt8) :=
  opcodeListBase ++ (List.range 75).map fun i => (opPushName (i + 1), UInt8.ofNat (i + 1))

/-- script/opcodes.py:151, the dict `CODE_TO_INT` as a lookup (last entry of a key wins). -/
def codeToInt (token : PyStr) : Option UInt8 := opcodeList.reverse.lookup token

/-- script/opcodes.py:152, the dict `INT_TO_CODE` as a lookup (last entry of a key wins). -/
def intToCode (b : UInt8) : Option PyStr := (opcodeList.map fun o => (o.2, o.1)).reverse.lookup b

end Verif
