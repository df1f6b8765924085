import Verif.Spec.Script

/-! # The text of scripts: Bitcoin's names of the opcodes, the words of a text and what they stand for -/

namespace Verif.Spec

/-- Bitcoin's names (`GetOpName` in script.cpp, with `OP_` and the number for the small integers) of the bytes 0x4f to 0xb9, in order. -/
def namesFrom79 : List PyStr :=
  [pystr "1NEGATE", pystr "RESERVED", pystr "1", pystr "2", pystr "3", pystr "4", pystr "5", pystr "6", pystr "7", pystr "8", pystr "9", pystr "10",
   pystr "11", pystr "12", pystr "13", pystr "14", pystr "15", pystr "16", pystr "NOP", pystr "VER", pystr "IF", pystr "NOTIF", pystr "VERIF",
   pystr "VERNOTIF", pystr "ELSE", pystr "ENDIF", pystr "VERIFY", pystr "RETURN", pystr "TOALTSTACK", pystr "FROMALTSTACK", pystr "2DROP",
   pystr "2DUP", pystr "3DUP", pystr "2OVER", pystr "2ROT", pystr "2SWAP", pystr "IFDUP", pystr "DEPTH", pystr "DROP", pystr "DUP", pystr "NIP",
   pystr "OVER", pystr "PICK", pystr "ROLL", pystr "ROT", pystr "SWAP", pystr "TUCK", pystr "CAT", pystr "SUBSTR", pystr "LEFT", pystr "RIGHT",
   pystr "SIZE", pystr "INVERT", pystr "AND", pystr "OR", pystr "XOR", pystr "EQUAL", pystr "EQUALVERIFY", pystr "RESERVED1", pystr "RESERVED2",
   pystr "1ADD", pystr "1SUB", pystr "2MUL", pystr "2DIV", pystr "NEGATE", pystr "ABS", pystr "NOT", pystr "0NOTEQUAL", pystr "ADD", pystr "SUB",
   pystr "MUL", pystr "DIV", pystr "MOD", pystr "LSHIFT", pystr "RSHIFT", pystr "BOOLAND", pystr "BOOLOR", pystr "NUMEQUAL",
   pystr "NUMEQUALVERIFY", pystr "NUMNOTEQUAL", pystr "LESSTHAN", pystr "GREATERTHAN", pystr "LESSTHANOREQUAL", pystr "GREATERTHANOREQUAL",
   pystr "MIN", pystr "MAX", pystr "WITHIN", pystr "RIPEMD160", pystr "SHA1", pystr "SHA256", pystr "HASH160", pystr "HASH256",
   pystr "CODESEPARATOR", pystr "CHECKSIG", pystr "CHECKSIGVERIFY", pystr "CHECKMULTISIG", pystr "CHECKMULTISIGVERIFY", pystr "NOP1",
   pystr "CHECKLOCKTIMEVERIFY", pystr "CHECKSEQUENCEVERIFY", pystr "NOP4", pystr "NOP5", pystr "NOP6", pystr "NOP7", pystr "NOP8", pystr "NOP9",
   pystr "NOP10"]

/-- Bitcoin's name of a byte that is not a direct push; on Decred, 0xa8 is BLAKE-256 and SHA-256 has moved to 0xc0. -/
def opcodeName (decred : Bool) (b : UInt8) : Option PyStr :=
  if b = 0 then some (pystr "OP_0")
  else if b = 76 then some (pystr "OP_PUSHDATA1")
  else if b = 77 then some (pystr "OP_PUSHDATA2")
  else if b = 78 then some (pystr "OP_PUSHDATA4")
  else if b = 255 then some (pystr "OP_INVALIDOPCODE")
  else if decred ∧ b = 0xa8 then some (pystr "OP_BLAKE256")
  else if decred ∧ b = 0xc0 then some (pystr "OP_SHA256")
  else if 79 ≤ b.toNat then namesFrom79[b.toNat - 79]?.map (pystr "OP_" ++ ·)
  else none

/-- The words that name a byte: Bitcoin's names, the older names of CHECKLOCKTIMEVERIFY and CHECKSEQUENCEVERIFY, and `OP_PUSH_1` to `OP_PUSH_75` for the
bytes of direct pushes. -/
def IsOpName (decred : Bool) (w : PyStr) (b : UInt8) : Prop :=
  opcodeName decred b = some w ∨ (b = 177 ∧ w = pystr "OP_NOP2") ∨ (b = 178 ∧ w = pystr "OP_NOP3") ∨
  (1 ≤ b.toNat ∧ b.toNat ≤ 75 ∧ w = pystr "OP_PUSH_" ++ Nat.toDigits 10 b.toNat)

instance (decred : Bool) (w : PyStr) (b : UInt8) : Decidable (IsOpName decred w b) := by unfold IsOpName; infer_instance

/-- `c` is the hex digit of value `n`, in either case. -/
def IsHexDigit (c : Char) (n : Nat) : Prop := (pystr "0123456789abcdef")[n]? = some c ∨ (pystr "0123456789ABCDEF")[n]? = some c

/-- `w` is the bytes in hexadecimal. -/
inductive HexText : PyStr → Bytes → Prop where
  | nil : HexText [] []
  | cons {c c' : Char} {n n' : Nat} {w : PyStr} {d : Bytes} : IsHexDigit c n → IsHexDigit c' n' → HexText w d →
      HexText (c :: c' :: w) (UInt8.ofNat (16 * n + n') :: d)

/-- The bytes in lower-case hexadecimal. -/
def lowerHex (d : Bytes) : PyStr :=
  d.flatMap fun x => [(pystr "0123456789abcdef").getD (x.toNat / 16) '?', (pystr "0123456789abcdef").getD (x.toNat % 16) '?']

/-- The characters between words (the code points that Python takes for white space). -/
def White (c : Char) : Prop :=
  c.toNat ∈ [9, 10, 11, 12, 13, 28, 29, 30, 31, 32, 0x85, 0xa0, 0x1680, 0x2000, 0x2001, 0x2002, 0x2003, 0x2004, 0x2005, 0x2006, 0x2007, 0x2008,
    0x2009, 0x200a, 0x2028, 0x2029, 0x202f, 0x205f, 0x3000]

/-- A word: characters other than white space, at least one. -/
def IsWord (w : PyStr) : Prop := w ≠ [] ∧ ∀ c ∈ w, ¬ White c

/-- The text consists of the words, with white space between them and possibly around them. -/
inductive WordsOf : List PyStr → PyStr → Prop where
  | blank (w : PyStr) : (∀ c ∈ w, White c) → WordsOf [] w
  | last (w t w' : PyStr) : (∀ c ∈ w, White c) → IsWord t → (∀ c ∈ w', White c) → WordsOf [t] (w ++ t ++ w')
  | cons (w t : PyStr) (c : Char) (ts : List PyStr) (s : PyStr) : (∀ c ∈ w, White c) → IsWord t → White c → WordsOf ts s →
      WordsOf (t :: ts) (w ++ t ++ c :: s)

/-- What a word stands for: the byte it names (OP_CODESEPARATOR and OP_PUSHDATA4 are not supported), or data in hexadecimal, pushed in the shortest way. -/
inductive WordMeans (decred : Bool) : PyStr → Bytes → Prop where
  | op {w : PyStr} {b : UInt8} : IsOpName decred w b → b ≠ 0xab → b ≠ 0x4e → WordMeans decred w [b]
  | data {w : PyStr} {d : Bytes} : HexText w d → d.length ≤ 1000 → WordMeans decred w (minimalPush d)

/-- The words that are refused, and how. -/
inductive WordRefused (decred : Bool) : PyStr → PyErr → Prop where
  | unsupported {w : PyStr} {b : UInt8} : IsOpName decred w b → b = 0xab ∨ b = 0x4e → WordRefused decred w .notImplementedError
  | long {w : PyStr} {d : Bytes} : HexText w d → 1000 < d.length → WordRefused decred w .notImplementedError
  | unknown {w : PyStr} : (∀ b, ¬ IsOpName decred w b) → (∀ d, ¬ HexText w d) → WordRefused decred w .valueError

/-- The words for a sequence of complete pushes and named opcodes. -/
inductive ScriptWords (decred : Bool) : Bytes → List PyStr → Prop where
  | nil : ScriptWords decred [] []
  | direct (n : Nat) (d rest : Bytes) (ws : List PyStr) : 1 ≤ n → n ≤ 75 → d.length = n → ScriptWords decred rest ws →
      ScriptWords decred (UInt8.ofNat n :: (d ++ rest)) (lowerHex d :: ws)
  | pushdata1 (l : UInt8) (d rest : Bytes) (ws : List PyStr) : d.length = l.toNat → ScriptWords decred rest ws →
      ScriptWords decred (0x4c :: l :: (d ++ rest)) (lowerHex d :: ws)
  | pushdata2 (lo hi : UInt8) (d rest : Bytes) (ws : List PyStr) : d.length = lo.toNat + 256 * hi.toNat → ScriptWords decred rest ws →
      ScriptWords decred (0x4d :: lo :: hi :: (d ++ rest)) (lowerHex d :: ws)
  | op (b : UInt8) (t : PyStr) (rest : Bytes) (ws : List PyStr) : b = 0 ∨ 79 ≤ b.toNat → b ≠ 0xab → opcodeName decred b = some t →
      ScriptWords decred rest ws → ScriptWords decred (b :: rest) (t :: ws)

/-- A final OP_PUSHDATA1 or OP_PUSHDATA2 with too little behind it, and the data that is there. -/
inductive CutPush : Bytes → Bytes → Prop where
  | one (l : UInt8) (d : Bytes) : d.length < l.toNat → CutPush (0x4c :: l :: d) d
  | length (r : Bytes) : r.length < 2 → CutPush (0x4d :: r) []
  | two (lo hi : UInt8) (d : Bytes) : d.length < lo.toNat + 256 * hi.toNat → CutPush (0x4d :: lo :: hi :: d) d

/-- The beginnings of scripts that are refused, and how. -/
inductive ScriptRefused (decred : Bool) : Bytes → PyErr → Prop where
  | unsupported (b : UInt8) (rest : Bytes) : b = 0xab ∨ b = 0x4e → ScriptRefused decred (b :: rest) .notImplementedError
  | direct (n : Nat) (d : Bytes) : 1 ≤ n → n ≤ 75 → d.length < n → ScriptRefused decred (UInt8.ofNat n :: d) .indexError
  | pushdata1 : ScriptRefused decred [0x4c] .indexError
  | unnamed (b : UInt8) (rest : Bytes) : 79 ≤ b.toNat → opcodeName decred b = none → ScriptRefused decred (b :: rest) .valueError

end Verif.Spec
