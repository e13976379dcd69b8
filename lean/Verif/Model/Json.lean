import Verif.Model.Utf8

/-!
# serde_json: values, compact printer, parser

The parser works in two phases.  `parse` reads the whole text into a `Tree` that
keeps what the typed decoders need to know (object members in order with
duplicates, whether a string contained an escape, the text of numbers).  The typed
decoders in `Verif.Model.Serde` then mirror the derived `Deserialize`
implementations.  serde_json does both at once and reports whichever problem it meets
first; so for a text that ends too early there is `Cut`, what was read before the end, and the
typed decoders have a second half (`Early` in `Verif.Model.Serde`) that says whether they
refuse it.
-/

set_option autoImplicit false

namespace DIDComm

/-- `serde_json::Number`: an unsigned 64-bit integer, a negative 64-bit integer
(`neg n` is `-n`), or a float kept as its printed text.  Used for `body`,
/repo/src/message/message.rs L26, `json`, /repo/src/message/attachment.rs L190-198, and `epk`,
/repo/src/jwe/envelope.rs L57. -/
inductive Num
  | pos (n : Nat)
  | neg (n : Nat)
  | flt (t : Str)
  deriving DecidableEq, Repr

/-- `serde_json::Value`.  An object is a list of members; a `BTreeMap` is a list with
strictly increasing keys (`Value.WF` in `Verif.Proofs.Json`).  The same type is
used for what a derived `Serialize` emits, where members are in field order.  Used for `body`,
/repo/src/message/message.rs L26, `json`, /repo/src/message/attachment.rs L190-198, and `epk`,
/repo/src/jwe/envelope.rs L57. -/
inductive Value
  | null
  | bool (b : Bool)
  | num (n : Num)
  | str (s : Str)
  | arr (l : List Value)
  | obj (m : List (Str × Value))
  deriving Repr

/-- A JSON string token: did it contain an escape, and its value (`none` for lone
surrogates or invalid UTF-8, which serde_json rejects unless the string is
ignored).  Part of `serde_json::from_str`/`from_slice`, called at /repo/src/jwe/parse.rs L23,
/repo/src/jws/parse.rs L19, L38, L81, /repo/src/message/message.rs L89. -/
structure StrTok where
  esc : Bool
  val : Option Str
  deriving DecidableEq, Repr

/-- A number token: sign, integer digits, and the raw text of fraction and exponent
(empty for an integer).  Part of `serde_json::from_str`/`from_slice`, called at
/repo/src/jwe/parse.rs L23, /repo/src/jws/parse.rs L19, L38, L81, /repo/src/message/message.rs
L89. -/
structure NumTok where
  neg : Bool
  digits : Str
  tail : Str
  deriving DecidableEq, Repr

/-- A parsed but untyped JSON text.  Part of `serde_json::from_str`/`from_slice`, called at
/repo/src/jwe/parse.rs L23, /repo/src/jws/parse.rs L19, L38, L81, /repo/src/message/message.rs
L89. -/
inductive Tree
  | null
  | bool (b : Bool)
  | num (n : NumTok)
  | str (s : StrTok)
  | arr (l : List Tree)
  | obj (m : List (StrTok × Tree))
  deriving Repr

/-- `serde_json::error::Category` as far as /repo/src/error.rs L168-175 distinguishes
it: end of input, or anything else. `fuel` is the model's budget. -/
inductive JErr
  | eof | syn | fuel
  deriving DecidableEq, Repr

/-! ## Printer -/

/-- The decimal digits of a natural number (itoa). The first argument is fuel.  Part of
`serde_json::to_string`, called at /repo/src/message/pack_plaintext.rs L42, /repo/src/jws/sign.rs
L24, L56, /repo/src/message/unpack/mod.rs L143. -/
def decimalAux : Nat → Nat → Str
  | 0, _ => []
  | f + 1, n => if n < 10 then [UInt8.ofNat (48 + n)]
                else decimalAux f (n / 10) ++ [UInt8.ofNat (48 + n % 10)]

/-- The decimal digits of a natural number.  Part of `serde_json::to_string`, called at
/repo/src/message/pack_plaintext.rs L42, /repo/src/jws/sign.rs L24, L56,
/repo/src/message/unpack/mod.rs L143. -/
def decimal (n : Nat) : Str := decimalAux (n + 1) n

/-- A lower-case hexadecimal digit.  Part of `serde_json::to_string`, called at
/repo/src/message/pack_plaintext.rs L42, /repo/src/jws/sign.rs L24, L56,
/repo/src/message/unpack/mod.rs L143. -/
def hexDigit (n : Nat) : UInt8 := if n < 10 then UInt8.ofNat (48 + n) else UInt8.ofNat (87 + n)

/-- serde_json's escape table (`ser.rs`, `ESCAPE`): quote, backslash and control
characters are escaped, nothing else.  Part of `serde_json::to_string`, called at
/repo/src/message/pack_plaintext.rs L42, /repo/src/jws/sign.rs L24, L56,
/repo/src/message/unpack/mod.rs L143. -/
def escByte (b : UInt8) : Str :=
  if b = 0x22 then b!"\\\""
  else if b = 0x5C then b!"\\\\"
  else if b = 0x08 then b!"\\b"
  else if b = 0x09 then b!"\\t"
  else if b = 0x0A then b!"\\n"
  else if b = 0x0C then b!"\\f"
  else if b = 0x0D then b!"\\r"
  else if b < 0x20 then b!"\\u00" ++ [hexDigit (b.toNat / 16), hexDigit (b.toNat % 16)]
  else [b]

/-- Escape every byte of a string.  Part of `serde_json::to_string`, called at
/repo/src/message/pack_plaintext.rs L42, /repo/src/jws/sign.rs L24, L56,
/repo/src/message/unpack/mod.rs L143. -/
def escStr : Str → Str
  | [] => []
  | b :: r => escByte b ++ escStr r

/-- A JSON string literal.  Part of `serde_json::to_string`, called at
/repo/src/message/pack_plaintext.rs L42, /repo/src/jws/sign.rs L24, L56,
/repo/src/message/unpack/mod.rs L143. -/
def quoteStr (s : Str) : Str := 0x22 :: (escStr s ++ [0x22])

/-- A number.  Part of `serde_json::to_string`, called at /repo/src/message/pack_plaintext.rs
L42, /repo/src/jws/sign.rs L24, L56, /repo/src/message/unpack/mod.rs L143. -/
def printNum : Num → Str
  | .pos n => decimal n
  | .neg n => 0x2D :: decimal n
  | .flt t => t

mutual
/-- `serde_json::to_string` (compact).  Part of `serde_json::to_string`, called at
/repo/src/message/pack_plaintext.rs L42, /repo/src/jws/sign.rs L24, L56,
/repo/src/message/unpack/mod.rs L143. -/
def Value.print : Value → Str
  | .null => b!"null"
  | .bool true => b!"true"
  | .bool false => b!"false"
  | .num n => printNum n
  | .str s => quoteStr s
  | .arr [] => b!"[]"
  | .arr (v :: r) => 0x5B :: (v.print ++ Value.printTail r)
  | .obj [] => b!"{}"
  | .obj ((k, v) :: r) => 0x7B :: (quoteStr k ++ 0x3A :: (v.print ++ Value.printMembers r))
/-- The rest of an array after its first element, with the closing bracket.  Part of
`serde_json::to_string`, called at /repo/src/message/pack_plaintext.rs L42, /repo/src/jws/sign.rs
L24, L56, /repo/src/message/unpack/mod.rs L143. -/
def Value.printTail : List Value → Str
  | [] => [0x5D]
  | v :: r => 0x2C :: (v.print ++ Value.printTail r)
/-- The rest of an object after its first member, with the closing brace.  Part of
`serde_json::to_string`, called at /repo/src/message/pack_plaintext.rs L42, /repo/src/jws/sign.rs
L24, L56, /repo/src/message/unpack/mod.rs L143. -/
def Value.printMembers : List (Str × Value) → Str
  | [] => [0x7D]
  | (k, v) :: r => 0x2C :: (quoteStr k ++ 0x3A :: (v.print ++ Value.printMembers r))
end

/-! ## Parser -/

/-- JSON white space: space, tab, line feed, carriage return.  Part of
`serde_json::from_str`/`from_slice`, called at /repo/src/jwe/parse.rs L23, /repo/src/jws/parse.rs
L19, L38, L81, /repo/src/message/message.rs L89. -/
def isWs (b : UInt8) : Bool := b = 0x20 || b = 0x09 || b = 0x0A || b = 0x0D

/-- `parse_whitespace`.  Part of `serde_json::from_str`/`from_slice`, called at
/repo/src/jwe/parse.rs L23, /repo/src/jws/parse.rs L19, L38, L81, /repo/src/message/message.rs
L89. -/
def skipWs : Str → Str
  | [] => []
  | b :: r => if isWs b then skipWs r else b :: r

/-- An ASCII digit.  Part of `serde_json::from_str`/`from_slice`, called at
/repo/src/jwe/parse.rs L23, /repo/src/jws/parse.rs L19, L38, L81, /repo/src/message/message.rs
L89. -/
def isDigit (b : UInt8) : Bool := 0x30 ≤ b && b ≤ 0x39

/-- The longest prefix of digits, and the rest.  Part of `serde_json::from_str`/`from_slice`,
called at /repo/src/jwe/parse.rs L23, /repo/src/jws/parse.rs L19, L38, L81,
/repo/src/message/message.rs L89. -/
def spanDigits : Str → Str × Str
  | [] => ([], [])
  | b :: r => if isDigit b then ((b :: (spanDigits r).1), (spanDigits r).2) else ([], b :: r)

/-- A hexadecimal digit's value.  Part of `serde_json::from_str`/`from_slice`, called at
/repo/src/jwe/parse.rs L23, /repo/src/jws/parse.rs L19, L38, L81, /repo/src/message/message.rs
L89. -/
def hexVal (b : UInt8) : Option Nat :=
  let n := b.toNat
  if 48 ≤ n ∧ n ≤ 57 then some (n - 48)
  else if 97 ≤ n ∧ n ≤ 102 then some (n - 87)
  else if 65 ≤ n ∧ n ≤ 70 then some (n - 55)
  else none

/-- A piece of a string literal: a raw byte, or a UTF-16 code unit from `\uXXXX`.  Part of
`serde_json::from_str`/`from_slice`, called at /repo/src/jwe/parse.rs L23, /repo/src/jws/parse.rs
L19, L38, L81, /repo/src/message/message.rs L89. -/
inductive StrItem
  | byte (b : UInt8)
  | unit (u : Nat)
  deriving DecidableEq, Repr

/-- The one-letter escapes.  Part of `serde_json::from_str`/`from_slice`, called at
/repo/src/jwe/parse.rs L23, /repo/src/jws/parse.rs L19, L38, L81, /repo/src/message/message.rs
L89. -/
def simpleEsc (c : UInt8) : Option UInt8 :=
  if c = 0x22 then some 0x22
  else if c = 0x5C then some 0x5C
  else if c = 0x2F then some 0x2F
  else if c = 0x62 then some 0x08
  else if c = 0x66 then some 0x0C
  else if c = 0x6E then some 0x0A
  else if c = 0x72 then some 0x0D
  else if c = 0x74 then some 0x09
  else none

/-- The code unit written by four hexadecimal digits.  Part of
`serde_json::from_str`/`from_slice`, called at /repo/src/jwe/parse.rs L23, /repo/src/jws/parse.rs
L19, L38, L81, /repo/src/message/message.rs L89. -/
def hex4 (a b c d : UInt8) : Option Nat := do
  let a ← hexVal a
  let b ← hexVal b
  let c ← hexVal c
  let d ← hexVal d
  some (((a * 16 + b) * 16 + c) * 16 + d)

/-- The characters of a string literal up to the closing quote (`parse_str_bytes`,
`parse_escape`), with a flag whether an escape occurred, and the rest of the
text.  Part of `serde_json::from_str`/`from_slice`, called at /repo/src/jwe/parse.rs L23,
/repo/src/jws/parse.rs L19, L38, L81, /repo/src/message/message.rs L89. -/
def lexStr : Str → Except JErr ((Bool × List StrItem) × Str)
  | [] => .error .eof
  | b :: r =>
    if b = 0x22 then .ok ((false, []), r)
    else if b = 0x5C then
      match r with
      | [] => .error .eof
      | c :: r1 =>
        if c = 0x75 then
          match r1 with
          | h1 :: h2 :: h3 :: h4 :: r2 =>
            match hex4 h1 h2 h3 h4 with
            | none => .error .syn
            | some u => do
              let ((_, is), rest) ← lexStr r2
              .ok ((true, .unit u :: is), rest)
          | _ => .error .eof
        else
          match simpleEsc c with
          | none => .error .syn
          | some e => do
            let ((_, is), rest) ← lexStr r1
            .ok ((true, .byte e :: is), rest)
    else if b < 0x20 then .error .syn
    else do
      let ((e, is), rest) ← lexStr r
      .ok ((e, .byte b :: is), rest)

/-- Combine code units into UTF-8: surrogates must come in pairs (`parse_escape`).  Part of
`serde_json::from_str`/`from_slice`, called at /repo/src/jwe/parse.rs L23, /repo/src/jws/parse.rs
L19, L38, L81, /repo/src/message/message.rs L89. -/
def assemble : List StrItem → Option Bytes
  | [] => some []
  | .byte b :: r => (assemble r).map (b :: ·)
  | .unit u :: r =>
    if 0xDC00 ≤ u ∧ u ≤ 0xDFFF then none
    else if 0xD800 ≤ u ∧ u ≤ 0xDBFF then
      match r with
      | .unit v :: r' =>
        if 0xDC00 ≤ v ∧ v ≤ 0xDFFF then
          (assemble r').map (encodeUtf8 (0x10000 + (u - 0xD800) * 1024 + (v - 0xDC00)) ++ ·)
        else none
      | _ => none
    else (assemble r).map (encodeUtf8 u ++ ·)

/-- A string token from its pieces.  Part of `serde_json::from_str`/`from_slice`, called at
/repo/src/jwe/parse.rs L23, /repo/src/jws/parse.rs L19, L38, L81, /repo/src/message/message.rs
L89. -/
def strTok (e : Bool) (is : List StrItem) : StrTok :=
  ⟨e, match assemble is with
      | some s => if validUtf8 s then some s else none
      | none => none⟩

/-- A string token, after the opening quote.  Part of `serde_json::from_str`/`from_slice`, called
at /repo/src/jwe/parse.rs L23, /repo/src/jws/parse.rs L19, L38, L81, /repo/src/message/message.rs
L89. -/
def parseStr (s : Str) : Except JErr (StrTok × Str) := do
  let ((e, is), rest) ← lexStr s
  .ok (strTok e is, rest)

/-- At least one digit (`parse_decimal`, `parse_exponent`).  Part of
`serde_json::from_str`/`from_slice`, called at /repo/src/jwe/parse.rs L23, /repo/src/jws/parse.rs
L19, L38, L81, /repo/src/message/message.rs L89. -/
def digits1 (s : Str) : Except JErr (Str × Str) :=
  match s with
  | [] => .error .eof
  | b :: _ => if isDigit b then .ok (spanDigits s) else .error .syn

/-- The fraction of a number, as raw text.  Part of `serde_json::from_str`/`from_slice`, called
at /repo/src/jwe/parse.rs L23, /repo/src/jws/parse.rs L19, L38, L81, /repo/src/message/message.rs
L89. -/
def parseFrac (s : Str) : Except JErr (Str × Str) :=
  match s with
  | b :: r => if b = 0x2E then do
      let (d, rest) ← digits1 r
      .ok (0x2E :: d, rest)
    else .ok ([], s)
  | [] => .ok ([], [])

/-- The exponent of a number, as raw text.  Part of `serde_json::from_str`/`from_slice`, called
at /repo/src/jwe/parse.rs L23, /repo/src/jws/parse.rs L19, L38, L81, /repo/src/message/message.rs
L89. -/
def parseExp (s : Str) : Except JErr (Str × Str) :=
  match s with
  | b :: r => if b = 0x65 ∨ b = 0x45 then
      match r with
      | c :: r1 => if c = 0x2B ∨ c = 0x2D then do
          let (d, rest) ← digits1 r1
          .ok (b :: c :: d, rest)
        else do
          let (d, rest) ← digits1 r
          .ok (b :: d, rest)
      | [] => .error .eof
    else .ok ([], s)
  | [] => .ok ([], [])

/-- The integer part (`parse_integer`): no leading zeros.  Part of
`serde_json::from_str`/`from_slice`, called at /repo/src/jwe/parse.rs L23, /repo/src/jws/parse.rs
L19, L38, L81, /repo/src/message/message.rs L89. -/
def parseIntPart (s : Str) : Except JErr (Str × Str) :=
  match s with
  | [] => .error .eof
  | b :: r =>
    if b = 0x30 then
      match r with
      | c :: _ => if isDigit c then .error .syn else .ok ([b], r)
      | [] => .ok ([b], r)
    else if isDigit b then .ok (spanDigits s)
    else .error .syn

/-- A number token, after an optional minus sign.  Part of `serde_json::from_str`/`from_slice`,
called at /repo/src/jwe/parse.rs L23, /repo/src/jws/parse.rs L19, L38, L81,
/repo/src/message/message.rs L89. -/
def parseNum (neg : Bool) (s : Str) : Except JErr (NumTok × Str) := do
  let (i, r1) ← parseIntPart s
  let (f, r2) ← parseFrac r1
  let (e, r3) ← parseExp r2
  .ok (⟨neg, i, f ++ e⟩, r3)

/-- `parse_ident`: the remaining letters of `null`, `true`, `false`.  Part of
`serde_json::from_str`/`from_slice`, called at /repo/src/jwe/parse.rs L23, /repo/src/jws/parse.rs
L19, L38, L81, /repo/src/message/message.rs L89. -/
def parseIdent : Str → Str → Except JErr Str
  | [], s => .ok s
  | _ :: _, [] => .error .eof
  | c :: cs, b :: r => if b = c then parseIdent cs r else .error .syn

mutual
/-- Any value (`deserialize_any`, `ignore_value`).  The first argument is fuel.  Part of
`serde_json::from_str`/`from_slice`, called at /repo/src/jwe/parse.rs L23, /repo/src/jws/parse.rs
L19, L38, L81, /repo/src/message/message.rs L89. -/
def parseVal : Nat → Str → Except JErr (Tree × Str)
  | 0, _ => .error .fuel
  | f + 1, s =>
    match skipWs s with
    | [] => .error .eof
    | b :: r =>
      if b = 0x6E then do let r ← parseIdent b!"ull" r; .ok (.null, r)
      else if b = 0x74 then do let r ← parseIdent b!"rue" r; .ok (.bool true, r)
      else if b = 0x66 then do let r ← parseIdent b!"alse" r; .ok (.bool false, r)
      else if b = 0x2D then do let (n, r) ← parseNum true r; .ok (.num n, r)
      else if isDigit b then do let (n, r) ← parseNum false (b :: r); .ok (.num n, r)
      else if b = 0x22 then do let (t, r) ← parseStr r; .ok (.str t, r)
      else if b = 0x5B then
        match skipWs r with
        | [] => .error .eof
        | c :: r1 =>
          if c = 0x5D then .ok (.arr [], r1)
          else do let (l, r) ← parseElems f (c :: r1); .ok (.arr l, r)
      else if b = 0x7B then
        match skipWs r with
        | [] => .error .eof
        | c :: r1 =>
          if c = 0x7D then .ok (.obj [], r1)
          else do let (m, r) ← parseMembers f (c :: r1); .ok (.obj m, r)
      else .error .syn
/-- One or more array elements and the closing bracket.  Part of
`serde_json::from_str`/`from_slice`, called at /repo/src/jwe/parse.rs L23, /repo/src/jws/parse.rs
L19, L38, L81, /repo/src/message/message.rs L89. -/
def parseElems : Nat → Str → Except JErr (List Tree × Str)
  | 0, _ => .error .fuel
  | f + 1, s => do
    let (v, r) ← parseVal f s
    match skipWs r with
    | [] => .error .eof
    | b :: r1 =>
      if b = 0x5D then .ok ([v], r1)
      else if b = 0x2C then
        match skipWs r1 with
        | [] => .error .eof
        | c :: r2 =>
          if c = 0x5D then .error .syn
          else do let (l, r) ← parseElems f (c :: r2); .ok (v :: l, r)
      else .error .syn
/-- One or more object members and the closing brace.  Part of
`serde_json::from_str`/`from_slice`, called at /repo/src/jwe/parse.rs L23, /repo/src/jws/parse.rs
L19, L38, L81, /repo/src/message/message.rs L89. -/
def parseMembers : Nat → Str → Except JErr (List (StrTok × Tree) × Str)
  | 0, _ => .error .fuel
  | f + 1, s =>
    match skipWs s with
    | [] => .error .eof
    | q :: r0 =>
      if q = 0x22 then do
        let (k, r1) ← parseStr r0
        match skipWs r1 with
        | [] => .error .eof
        | c :: r2 =>
          if c = 0x3A then do
            let (v, r3) ← parseVal f r2
            match skipWs r3 with
            | [] => .error .eof
            | b :: r4 =>
              if b = 0x7D then .ok ([(k, v)], r4)
              else if b = 0x2C then
                do let (m, r) ← parseMembers f r4; .ok ((k, v) :: m, r)
              else .error .syn
          else .error .syn
      else .error .syn
end

/-- `serde_json::from_str`/`from_slice` up to typing: one value, then only white
space.  Part of `serde_json::from_str`/`from_slice`, called at /repo/src/jwe/parse.rs L23,
/repo/src/jws/parse.rs L19, L38, L81, /repo/src/message/message.rs L89. -/
def parseJson (s : Str) : Except JErr Tree := do
  let (t, r) ← parseVal (2 * s.length + 2) s
  match skipWs r with
  | [] => .ok t
  | _ :: _ => .error .syn

/-! ## Texts that end too early -/

/-- What was read of a value before the text ended: nothing; a part of `null`, `true`, `false` or of a number; a number
that ends where the text ends; a part of a string; elements of an array with nothing after the last; elements of
an array and a part of the next one; members of an object with nothing after the last but perhaps a comma; members and
a part of the next name; members, the next name, and a part of its value (perhaps not even the colon).  Part of
`serde_json::from_str`/`from_slice`, called at /repo/src/jwe/parse.rs L23, /repo/src/jws/parse.rs
L19, L38, L81, /repo/src/message/message.rs L89. -/
inductive Cut
  | nothing
  | scalar
  | num (n : NumTok)
  | str (is : List StrItem)
  | arr (l : List Tree)
  | arrNext (l : List Tree) (c : Cut)
  | obj (m : List (StrTok × Tree))
  | objKey (m : List (StrTok × Tree)) (is : List StrItem)
  | objVal (m : List (StrTok × Tree)) (k : StrTok) (c : Cut)
  deriving Repr

/-- The pieces of a string literal that has no closing quote.  Part of
`serde_json::from_str`/`from_slice`, called at /repo/src/jwe/parse.rs L23, /repo/src/jws/parse.rs
L19, L38, L81, /repo/src/message/message.rs L89. -/
def lexCut : Str → List StrItem
  | [] => []
  | b :: r =>
    if b = 0x5C then
      match r with
      | [] => []
      | c :: r1 =>
        if c = 0x75 then
          match r1 with
          | h1 :: h2 :: h3 :: h4 :: r2 =>
            match hex4 h1 h2 h3 h4 with
            | none => []
            | some u => .unit u :: lexCut r2
          | _ => []
        else
          match simpleEsc c with
          | none => []
          | some e => .byte e :: lexCut r1
    else .byte b :: lexCut r

mutual
/-- What was read of a value that is cut off.  The first argument is fuel.  Part of
`serde_json::from_str`/`from_slice`, called at /repo/src/jwe/parse.rs L23, /repo/src/jws/parse.rs
L19, L38, L81, /repo/src/message/message.rs L89. -/
def cutVal : Nat → Str → Cut
  | 0, _ => .nothing
  | f + 1, s =>
    match skipWs s with
    | [] => .nothing
    | b :: r =>
      if b = 0x22 then .str (lexCut r)
      else if b = 0x5B then
        match skipWs r with
        | [] => .arr []
        | c :: r1 => cutElems f [] (c :: r1)
      else if b = 0x7B then
        match skipWs r with
        | [] => .obj []
        | c :: r1 => cutMembers f [] (c :: r1)
      else .scalar
/-- The elements of an array that is cut off, after those already read.  Part of
`serde_json::from_str`/`from_slice`, called at /repo/src/jwe/parse.rs L23, /repo/src/jws/parse.rs
L19, L38, L81, /repo/src/message/message.rs L89. -/
def cutElems : Nat → List Tree → Str → Cut
  | 0, _, _ => .nothing
  | f + 1, l, s =>
    match parseVal f s with
    | .error _ => .arrNext l (cutVal f s)
    | .ok (.num n, []) => .arrNext l (.num n)
    | .ok (v, r) =>
      match skipWs r with
      | [] => .arr (l ++ [v])
      | _ :: r1 =>
        match skipWs r1 with
        | [] => .arrNext (l ++ [v]) .nothing
        | c :: r2 => cutElems f (l ++ [v]) (c :: r2)
/-- The members of an object that is cut off, after those already read.  Part of
`serde_json::from_str`/`from_slice`, called at /repo/src/jwe/parse.rs L23, /repo/src/jws/parse.rs
L19, L38, L81, /repo/src/message/message.rs L89. -/
def cutMembers : Nat → List (StrTok × Tree) → Str → Cut
  | 0, _, _ => .nothing
  | f + 1, m, s =>
    match skipWs s with
    | [] => .obj m
    | _ :: r0 =>
      match parseStr r0 with
      | .error _ => .objKey m (lexCut r0)
      | .ok (k, r1) =>
        match skipWs r1 with
        | [] => .objVal m k .nothing
        | _ :: r2 =>
          match parseVal f r2 with
          | .error _ => .objVal m k (cutVal f r2)
          | .ok (.num n, []) => .objVal m k (.num n)
          | .ok (v, r3) =>
            match skipWs r3 with
            | [] => .obj (m ++ [(k, v)])
            | _ :: r4 => cutMembers f (m ++ [(k, v)]) r4
end

/-- What was read of a text that ends too early (`parseJson` says `eof`).  Part of
`serde_json::from_str`/`from_slice`, called at /repo/src/jwe/parse.rs L23, /repo/src/jws/parse.rs
L19, L38, L81, /repo/src/message/message.rs L89. -/
def cutOf (s : Str) : Cut := cutVal (2 * s.length + 2) s

/-- Is there a surrogate code unit among the pieces of a string that cannot be completed to a pair any more?
serde_json notices this before the end of the string (`parse_escape`).  Part of
`serde_json::from_str`/`from_slice`, called at /repo/src/jwe/parse.rs L23, /repo/src/jws/parse.rs
L19, L38, L81, /repo/src/message/message.rs L89. -/
def loneSurrogate : List StrItem → Bool
  | [] => false
  | .byte _ :: r => loneSurrogate r
  | .unit u :: r =>
    if 0xDC00 ≤ u ∧ u ≤ 0xDFFF then true
    else if 0xD800 ≤ u ∧ u ≤ 0xDBFF then
      match r with
      | [] => false
      | .unit v :: r' => if 0xDC00 ≤ v ∧ v ≤ 0xDFFF then loneSurrogate r' else true
      | .byte _ :: _ => true
    else loneSurrogate r

end DIDComm
