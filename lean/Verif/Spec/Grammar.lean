import Verif.Model.Json
import Verif.Spec.Utf8

/-!
# The grammar of JSON

RFC 8259, as relations between bytes and what they mean.  `Tree`, `StrTok` and `NumTok` are used as abstract syntax:
a `Tree` keeps the members of an object in order and with duplicates, a number is its sign, its integer digits and
the text of its fraction and exponent, a string is its value, and whether it was written with escapes.
-/

set_option autoImplicit false

namespace DIDComm

/-- White space. -/
def Ws (s : Str) : Prop := ∀ b ∈ s, b = 0x20 ∨ b = 0x09 ∨ b = 0x0A ∨ b = 0x0D

/-- The byte is a hexadecimal digit of this value. -/
def HexDigit (b : UInt8) (n : Nat) : Prop :=
  (n < 10 ∧ b.toNat = 48 + n) ∨ (10 ≤ n ∧ n < 16 ∧ (b.toNat = 97 + (n - 10) ∨ b.toNat = 65 + (n - 10)))

/-- The text is `\uXXXX` for the code unit `u`. -/
def UnitEsc (s : Str) (u : Nat) : Prop :=
  ∃ a b c d x y z w, s = [0x5C, 0x75, a, b, c, d] ∧ HexDigit a x ∧ HexDigit b y ∧ HexDigit c z ∧ HexDigit d w ∧
    u = x * 4096 + y * 256 + z * 16 + w

/-- The two-byte escapes: the byte after the backslash and the character meant. -/
inductive ShortEsc : UInt8 → Char → Prop
  | quote : ShortEsc 0x22 '"'
  | backslash : ShortEsc 0x5C '\\'
  | slash : ShortEsc 0x2F '/'
  | backspace : ShortEsc 0x62 '\x08'
  | formFeed : ShortEsc 0x66 '\x0C'
  | lineFeed : ShortEsc 0x6E '\n'
  | carriageReturn : ShortEsc 0x72 '\r'
  | tab : ShortEsc 0x74 '\t'

/-- A first half of a surrogate pair. -/
def HighSurrogate (u : Nat) : Prop := 0xD800 ≤ u ∧ u ≤ 0xDBFF
/-- A second half of a surrogate pair. -/
def LowSurrogate (u : Nat) : Prop := 0xDC00 ≤ u ∧ u ≤ 0xDFFF

/-- The text between the quotes of a string, and the characters it means. -/
inductive StrText : Str → List Char → Prop
  | nil : StrText [] []
  | plain {t : Str} {cs : List Char} (c : Char) (h1 : c ≠ '"') (h2 : c ≠ '\\') (h3 : 0x20 ≤ c.val) (h : StrText t cs) :
      StrText (String.utf8EncodeChar c ++ t) (c :: cs)
  | short {t : Str} {cs : List Char} {b : UInt8} {c : Char} (hb : ShortEsc b c) (h : StrText t cs) :
      StrText (0x5C :: b :: t) (c :: cs)
  | unit {t e : Str} {cs : List Char} {c : Char} (he : UnitEsc e c.val.toNat) (h : StrText t cs) : StrText (e ++ t) (c :: cs)
  | pair {t e1 e2 : Str} {cs : List Char} {c : Char} {u v : Nat} (h1 : UnitEsc e1 u) (h2 : UnitEsc e2 v) (hu : HighSurrogate u)
      (hv : LowSurrogate v) (hc : c.val.toNat = 0x10000 + (u - 0xD800) * 0x400 + (v - 0xDC00)) (h : StrText t cs) :
      StrText (e1 ++ e2 ++ t) (c :: cs)

/-- A text between quotes that is well-formed as to escapes and control characters; it may still mean nothing, because
of a surrogate without partner or bytes that are not UTF-8.  The flag says whether it has escapes. -/
inductive StrForm : Str → Bool → Prop
  | nil : StrForm [] false
  | plain {t : Str} {e : Bool} (b : UInt8) (h1 : b ≠ 0x22) (h2 : b ≠ 0x5C) (h3 : 0x20 ≤ b) (h : StrForm t e) : StrForm (b :: t) e
  | short {t : Str} {e : Bool} {b : UInt8} {c : Char} (hb : ShortEsc b c) (h : StrForm t e) : StrForm (0x5C :: b :: t) true
  | unit {t e : Str} {u : Nat} {f : Bool} (he : UnitEsc e u) (h : StrForm t f) : StrForm (e ++ t) true

/-- The text between the quotes of a string, and its token: the value is that of the characters meant, if there are any. -/
def StrSpells (k : StrTok) (s : Str) : Prop :=
  StrForm s k.esc ∧ ∀ v, k.val = some v ↔ ∃ cs, StrText s cs ∧ v = utf8 cs

/-- A decimal digit. -/
def Digit (b : UInt8) : Prop := 0x30 ≤ b ∧ b ≤ 0x39

/-- One or more digits. -/
def Digits (s : Str) : Prop := s ≠ [] ∧ ∀ b ∈ s, Digit b

/-- The integer part of a number: no leading zeros. -/
def IntText (s : Str) : Prop := Digits s ∧ (s.head? = some 0x30 → s = [0x30])

/-- The fraction of a number, if any. -/
def FracText (s : Str) : Prop := s = [] ∨ ∃ d, Digits d ∧ s = b!"." ++ d

/-- The exponent of a number, if any. -/
def ExpText (s : Str) : Prop :=
  s = [] ∨ ∃ e sign d, s = e ++ sign ++ d ∧ (e = b!"e" ∨ e = b!"E") ∧ (sign = [] ∨ sign = b!"+" ∨ sign = b!"-") ∧ Digits d

/-- A number. -/
def NumSpells (n : NumTok) (s : Str) : Prop :=
  ∃ f e, s = (if n.neg then b!"-" else []) ++ n.digits ++ f ++ e ∧ IntText n.digits ∧ FracText f ∧ ExpText e ∧ n.tail = f ++ e

mutual
/-- The text of a value, without white space around it. -/
inductive Spells : Tree → Str → Prop
  | null : Spells .null b!"null"
  | tru : Spells (.bool true) b!"true"
  | fls : Spells (.bool false) b!"false"
  | num {n : NumTok} {s : Str} (h : NumSpells n s) : Spells (.num n) s
  | str {k : StrTok} {s : Str} (h : StrSpells k s) : Spells (.str k) (b!"\"" ++ s ++ b!"\"")
  | emptyArr {w : Str} (hw : Ws w) : Spells (.arr []) (b!"[" ++ w ++ b!"]")
  | arr {l : List Tree} {s : Str} (h : SpellsElems l s) : Spells (.arr l) (b!"[" ++ s ++ b!"]")
  | emptyObj {w : Str} (hw : Ws w) : Spells (.obj []) (b!"{" ++ w ++ b!"}")
  | obj {m : List (StrTok × Tree)} {s : Str} (h : SpellsMembers m s) : Spells (.obj m) (b!"{" ++ s ++ b!"}")
/-- One or more elements, separated by commas, with white space around each. -/
inductive SpellsElems : List Tree → Str → Prop
  | one {t : Tree} {w s w' : Str} (hw : Ws w) (h : Spells t s) (hw' : Ws w') : SpellsElems [t] (w ++ s ++ w')
  | more {t : Tree} {l : List Tree} {w s w' r : Str} (hw : Ws w) (h : Spells t s) (hw' : Ws w') (hr : SpellsElems l r) :
      SpellsElems (t :: l) (w ++ s ++ w' ++ b!"," ++ r)
/-- One or more members, separated by commas, with white space around each name and value. -/
inductive SpellsMembers : List (StrTok × Tree) → Str → Prop
  | one {k : StrTok} {t : Tree} {w n w1 w2 s w' : Str} (hw : Ws w) (hk : StrSpells k n) (h1 : Ws w1) (h2 : Ws w2)
      (h : Spells t s) (hw' : Ws w') : SpellsMembers [(k, t)] (w ++ b!"\"" ++ n ++ b!"\"" ++ w1 ++ b!":" ++ w2 ++ s ++ w')
  | more {k : StrTok} {t : Tree} {m : List (StrTok × Tree)} {w n w1 w2 s w' r : Str} (hw : Ws w) (hk : StrSpells k n) (h1 : Ws w1)
      (h2 : Ws w2) (h : Spells t s) (hw' : Ws w') (hr : SpellsMembers m r) :
      SpellsMembers ((k, t) :: m) (w ++ b!"\"" ++ n ++ b!"\"" ++ w1 ++ b!":" ++ w2 ++ s ++ w' ++ b!"," ++ r)
end

/-- A JSON text: a value with white space around it. -/
def JsonText (t : Tree) (s : Str) : Prop := ∃ w u w', s = w ++ u ++ w' ∧ Ws w ∧ Spells t u ∧ Ws w'

end DIDComm
