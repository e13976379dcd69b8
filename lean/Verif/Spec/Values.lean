import Verif.Model.Serde

/-!
# Which JSON values and messages are ordinary

A Rust `serde_json::Value` always satisfies `Value.WF` except for the stability of
floats: its strings are UTF-8 by type, its objects are `BTreeMap`s (sorted, no
duplicate keys), its integers fit 64 bits.  `f64` is the text obtained by reading a
number into a double and printing it again; a float is stable when that gives the
same text (serde_json without `float_roundtrip` does not guarantee it).
-/

set_option autoImplicit false

namespace DIDComm

/-- Strictly smaller in the lexicographic order of the bytes (the order of lists in Lean's library). -/
def strLt (a b : Str) : Prop := a < b

/-- The keys of a member list increase strictly. -/
def SortedKeys {α : Type} (m : List (Str × α)) : Prop := m.Pairwise (fun p q => strLt p.1 q.1)

/-- The token of a float's text: all of it is one JSON number with a fraction or an
exponent. -/
def fltTok (t : Str) : Option NumTok :=
  match t with
  | [] => none
  | b :: r =>
    match (if b = 0x2D then parseNum true r else parseNum false (b :: r)) with
    | .ok (tok, []) => if tok.tail = [] then none else some tok
    | _ => none

/-- 64-bit integers, stable floats. -/
def Num.WF (f64 : Str → Option Str) : Num → Prop
  | .pos n => n < 2 ^ 64
  | .neg n => 0 < n ∧ n ≤ 2 ^ 63
  | .flt t => (fltTok t).isSome ∧ f64 t = some t

mutual
/-- An ordinary `serde_json::Value`. -/
def Value.WF (f64 : Str → Option Str) : Value → Prop
  | .null => True
  | .bool _ => True
  | .num n => n.WF f64
  | .str s => validUtf8 s = true
  | .arr l => Value.WFL f64 l
  | .obj m => SortedKeys m ∧ Value.WFM f64 m
/-- All elements are ordinary. -/
def Value.WFL (f64 : Str → Option Str) : List Value → Prop
  | [] => True
  | v :: r => v.WF f64 ∧ Value.WFL f64 r
/-- All members are ordinary. -/
def Value.WFM (f64 : Str → Option Str) : List (Str × Value) → Prop
  | [] => True
  | (k, v) :: r => validUtf8 k = true ∧ v.WF f64 ∧ Value.WFM f64 r
end

mutual
/-- The nesting depth: 0 for a scalar. -/
def Value.depth : Value → Nat
  | .arr l => Value.depthL l + 1
  | .obj m => Value.depthM m + 1
  | _ => 0
/-- The largest depth of an element. -/
def Value.depthL : List Value → Nat
  | [] => 0
  | v :: r => max v.depth (Value.depthL r)
/-- The largest depth of a member. -/
def Value.depthM : List (Str × Value) → Nat
  | [] => 0
  | (_, v) :: r => max v.depth (Value.depthM r)
end

/-- The text is UTF-8 (a Rust `String` always is). -/
def OptUtf8 (o : Option Str) : Prop := ∀ s, o = some s → validUtf8 s = true

/-- All texts are UTF-8. -/
def AllUtf8 (l : List Str) : Prop := ∀ s ∈ l, validUtf8 s = true

/-- UTF-8 text that JSON writes without escapes: no quote, no backslash, no control
character. -/
def Plain (s : Str) : Prop := validUtf8 s = true ∧ ∀ b ∈ s, b ≠ 0x22 ∧ b ≠ 0x5C ∧ 0x20 ≤ b

/-- An ordinary attachment.  Depth: the attachment sits three levels deep in the
message (`message`, `attachments`, `attachment`, `data`) and serde_json reads at most
127 levels. -/
def AttachmentData.WF (f64 : Str → Option Str) : AttachmentData → Prop
  | .base64 b jws => validUtf8 b = true ∧ OptUtf8 jws
  | .json v jws => v.WF f64 ∧ v.depth < 124 ∧ OptUtf8 jws
  | .links l h jws => AllUtf8 l ∧ validUtf8 h = true ∧ OptUtf8 jws

/-- An ordinary attachment. -/
structure Attachment.WF (f64 : Str → Option Str) (a : Attachment) : Prop where
  data : a.data.WF f64
  id : OptUtf8 a.id
  description : OptUtf8 a.description
  filename : OptUtf8 a.filename
  mediaType : OptUtf8 a.mediaType
  format : OptUtf8 a.format

/-- An ordinary message: texts are UTF-8, JSON values are ordinary and nested at most
126 levels deep, extra headers are a map that does not use the names of the
standard headers. -/
structure Message.WF (f64 : Str → Option Str) (m : Message) : Prop where
  id : validUtf8 m.id = true
  typ : validUtf8 m.typ = true
  type_ : validUtf8 m.type_ = true
  body : m.body.WF f64
  bodyDepth : m.body.depth < 127
  from_ : OptUtf8 m.from_
  to : ∀ l, m.to = some l → AllUtf8 l
  thid : OptUtf8 m.thid
  pthid : OptUtf8 m.pthid
  fromPrior : OptUtf8 m.fromPrior
  extra : Value.WFM f64 m.extraHeaders
  extraDepth : Value.depthM m.extraHeaders < 127
  extraNodup : (m.extraHeaders.map Prod.fst).Nodup
  extraReserved : ∀ k ∈ m.extraHeaders.map Prod.fst, k ∉ reservedHeaders
  attachments : ∀ l, m.attachments = some l → ∀ a ∈ l, a.WF f64

/-- A `from_prior` whose texts are UTF-8. -/
structure FromPrior.WF (f : FromPrior) : Prop where
  iss : validUtf8 f.iss = true
  sub : validUtf8 f.sub = true
  aud : OptUtf8 f.aud
  jti : OptUtf8 f.jti

end DIDComm
