import Verif.Spec.Values
import Verif.Spec.Grammar

/-!
# What the content of a JSON text means for the types of the library

Relations between the content of a JSON text (`Tree`) and the value that the library reads from it.  They follow the
documentation of the types and the rules of JSON: named members, optional members, the default `typ`, the last of equal
keys, the range of numbers, the limit on nesting.  `f64` turns the text of a number into the text of the nearest double,
if there is one.
-/

set_option autoImplicit false

namespace DIDComm

/-! ## Scalars -/

/-- The decimal digits spell the number. -/
inductive Decimal : Str → Nat → Prop
  | nil : Decimal [] 0
  | snoc {s : Str} {n d : Nat} : Decimal s n → d < 10 → Decimal (s ++ [UInt8.ofNat (48 + d)]) (10 * n + d)

/-- A string with this text. -/
def IsText (t : Tree) (s : Str) : Prop := ∃ esc, t = .str ⟨esc, some s⟩

/-- A string with this text, written without escapes. -/
def IsRaw (t : Tree) (s : Str) : Prop := t = .str ⟨false, some s⟩

/-- An integer from 0 to 2^64 - 1, written without sign, fraction and exponent. -/
def IsU64 (t : Tree) (n : UInt64) : Prop := ∃ ds, t = .num ⟨false, ds, []⟩ ∧ Decimal ds n.toNat

/-- An array with these elements. -/
def IsList {α : Type} (R : Tree → α → Prop) (t : Tree) (l : List α) : Prop :=
  ∃ ts : List Tree, t = .arr ts ∧ ts.length = l.length ∧ ∀ p ∈ ts.zip l, R p.1 p.2

/-! ## JSON values -/

/-- A number: from -2^63 to 2^64 - 1 exactly if it is written without fraction and exponent (`-0` is the double), otherwise the
nearest double. -/
def IsNum (f64 : Str → Option Str) : NumTok → Num → Prop
  | ⟨neg, ds, tail⟩, .pos n => neg = false ∧ tail = [] ∧ Decimal ds n ∧ n < 2 ^ 64
  | ⟨neg, ds, tail⟩, .neg n => neg = true ∧ tail = [] ∧ Decimal ds n ∧ 0 < n ∧ n ≤ 2 ^ 63
  | ⟨neg, ds, tail⟩, .flt x =>
    (tail = [] → ∀ n, Decimal ds n → if neg then n = 0 ∨ 2 ^ 63 < n else 2 ^ 64 ≤ n) ∧
    f64 ((if neg then b!"-" else []) ++ ds ++ tail) = some x

/-- `v` is the value of the last member with this key. -/
def LastOf {α : Type} (l : List (Str × α)) (k : Str) (v : α) : Prop :=
  ∃ a b, l = a ++ (k, v) :: b ∧ k ∉ b.map Prod.fst

mutual
/-- The content denotes the value. -/
def Means (f64 : Str → Option Str) : Tree → Value → Prop
  | .null, v => v = .null
  | .bool b, v => v = .bool b
  | .num n, v => ∃ x, v = .num x ∧ IsNum f64 n x
  | .str s, v => ∃ x, v = .str x ∧ s.val = some x
  | .arr l, v => ∃ x, v = .arr x ∧ MeansAll f64 l x
  | .obj m, v => ∃ x l, v = .obj x ∧ MeansMembers f64 m l ∧ SortedKeys x ∧ ∀ k y, (k, y) ∈ x ↔ LastOf l k y
/-- One value for every element. -/
def MeansAll (f64 : Str → Option Str) : List Tree → List Value → Prop
  | [], l => l = []
  | t :: r, l => ∃ v r', l = v :: r' ∧ Means f64 t v ∧ MeansAll f64 r r'
/-- One key and value for every member. -/
def MeansMembers (f64 : Str → Option Str) : List (StrTok × Tree) → List (Str × Value) → Prop
  | [], l => l = []
  | (k, t) :: r, l => ∃ x v r', l = (x, v) :: r' ∧ k.val = some x ∧ Means f64 t v ∧ MeansMembers f64 r r'
end

mutual
/-- The nesting depth of a content: 0 for a scalar. -/
def Tree.depth : Tree → Nat
  | .arr l => Tree.depthL l + 1
  | .obj m => Tree.depthM m + 1
  | _ => 0
/-- The largest depth of an element. -/
def Tree.depthL : List Tree → Nat
  | [] => 0
  | t :: r => max t.depth (Tree.depthL r)
/-- The largest depth of a member. -/
def Tree.depthM : List (StrTok × Tree) → Nat
  | [] => 0
  | (_, t) :: r => max t.depth (Tree.depthM r)
end

/-- The content denotes the value, and is nested less than `n` levels deep. -/
def MeansWithin (f64 : Str → Option Str) (n : Nat) (t : Tree) (v : Value) : Prop := Means f64 t v ∧ t.depth < n

/-! ## Members -/

/-- The members of an object with the texts of their keys. -/
def Named (l : List (StrTok × Tree)) (m : List (Str × Tree)) : Prop :=
  l.map (fun p => (p.1.val, p.2)) = m.map (fun p => (some p.1, p.2))

/-- An object with these members. -/
def IsMap (t : Tree) (m : List (Str × Tree)) : Prop := ∃ l, t = .obj l ∧ Named l m

/-- An object with these members, or an array of the fields in this order. -/
def IsStruct (names : List Str) (t : Tree) (m : List (Str × Tree)) : Prop :=
  IsMap t m ∨ ∃ l, t = .arr l ∧ l.length = names.length ∧ m = names.zip l

/-- There is exactly one member with this key. -/
def Once (m : List (Str × Tree)) (k : Str) (t : Tree) : Prop :=
  ∃ a b, m = a ++ (k, t) :: b ∧ k ∉ a.map Prod.fst ∧ k ∉ b.map Prod.fst

/-- There is no member with this key. -/
def Absent (m : List (Str × Tree)) (k : Str) : Prop := k ∉ m.map Prod.fst

/-- A required member. -/
def Req {α : Type} (m : List (Str × Tree)) (k : Str) (R : Tree → α → Prop) (x : α) : Prop := ∃ t, Once m k t ∧ R t x

/-- An optional member: absent, `null`, or present. -/
def Opt {α : Type} (m : List (Str × Tree)) (k : Str) (R : Tree → α → Prop) : Option α → Prop
  | none => Absent m k ∨ Once m k .null
  | some x => Req m k R x

/-! ## Attachments -/

/-- Attachment data `{ base64, jws? }`. -/
def IsBase64Data (m : List (Str × Tree)) (d : AttachmentData) : Prop :=
  ∃ b jws, d = .base64 b jws ∧ Req m b!"base64" IsText b ∧ Opt m b!"jws" IsText jws

/-- Attachment data `{ json, jws? }`. -/
def IsJsonData (f64 : Str → Option Str) (m : List (Str × Tree)) (d : AttachmentData) : Prop :=
  ∃ v jws, d = .json v jws ∧ Req m b!"json" (Means f64) v ∧ Opt m b!"jws" IsText jws

/-- Attachment data `{ links, hash, jws? }`. -/
def IsLinksData (m : List (Str × Tree)) (d : AttachmentData) : Prop :=
  ∃ l h jws, d = .links l h jws ∧ Req m b!"links" (IsList IsText) l ∧ Req m b!"hash" IsText h ∧ Opt m b!"jws" IsText jws

/-- Attachment data: the first of the three forms that fits.  All of it must be JSON with a meaning. -/
def IsData (f64 : Str → Option Str) (t : Tree) (d : AttachmentData) : Prop :=
  (∃ v, MeansWithin f64 125 t v) ∧ ∃ m, IsMap t m ∧
    (IsBase64Data m d ∨
     ((∀ d', ¬ IsBase64Data m d') ∧ IsJsonData f64 m d) ∨
     ((∀ d', ¬ IsBase64Data m d') ∧ (∀ d', ¬ IsJsonData f64 m d') ∧ IsLinksData m d))

/-- An attachment.  Other members are ignored. -/
def IsAttachment (f64 : Str → Option Str) (t : Tree) (a : Attachment) : Prop :=
  ∃ m, IsStruct [b!"data", b!"id", b!"description", b!"filename", b!"media_type", b!"format", b!"lastmod_time", b!"byte_count"] t m ∧
    Req m b!"data" (IsData f64) a.data ∧ Opt m b!"id" IsText a.id ∧ Opt m b!"description" IsText a.description ∧
    Opt m b!"filename" IsText a.filename ∧ Opt m b!"media_type" IsText a.mediaType ∧ Opt m b!"format" IsText a.format ∧
    Opt m b!"lastmod_time" IsU64 a.lastmodTime ∧ Opt m b!"byte_count" IsU64 a.byteCount

/-! ## Messages -/

/-- The names of the members with a meaning of their own. -/
def standardHeaders : List Str :=
  [b!"id", b!"typ", b!"type", b!"body", b!"from", b!"to", b!"thid", b!"pthid", b!"created_time", b!"expires_time",
   b!"from_prior", b!"attachments"]

/-- The other members: the header has the value of the last member with its name.  All of them must have a meaning. -/
def IsExtra (f64 : Str → Option Str) (m : List (Str × Tree)) (x : List (Str × Value)) : Prop :=
  (x.map Prod.fst).Nodup ∧ (∀ k t, (k, t) ∈ m → k ∉ standardHeaders → ∃ v, MeansWithin f64 127 t v) ∧
  ∀ k v, (k, v) ∈ x ↔ k ∉ standardHeaders ∧ ∃ t, LastOf m k t ∧ Means f64 t v

/-- A plaintext message. -/
def IsMessage (f64 : Str → Option Str) (t : Tree) (x : Message) : Prop :=
  ∃ m, IsMap t m ∧ Req m b!"id" IsText x.id ∧
    ((Absent m b!"typ" ∧ x.typ = b!"application/didcomm-plain+json") ∨ Req m b!"typ" IsText x.typ) ∧
    Req m b!"type" IsText x.type_ ∧ Req m b!"body" (MeansWithin f64 127) x.body ∧
    Opt m b!"from" IsText x.from_ ∧ Opt m b!"to" (IsList IsText) x.to ∧ Opt m b!"thid" IsText x.thid ∧
    Opt m b!"pthid" IsText x.pthid ∧ Opt m b!"created_time" IsU64 x.createdTime ∧ Opt m b!"expires_time" IsU64 x.expiresTime ∧
    Opt m b!"from_prior" IsText x.fromPrior ∧ Opt m b!"attachments" (IsList (IsAttachment f64)) x.attachments ∧
    IsExtra f64 m x.extraHeaders

/-! ## Envelopes -/

/-- The unprotected header `{ kid }`. -/
def IsKidHeader (t : Tree) (kid : Str) : Prop := ∃ m, IsStruct [b!"kid"] t m ∧ Req m b!"kid" IsRaw kid

/-- A recipient of an encrypted envelope. -/
def IsRecipient (t : Tree) (r : JweRecipient) : Prop :=
  ∃ m, IsStruct [b!"header", b!"encrypted_key"] t m ∧ Req m b!"header" IsKidHeader r.kid ∧
    Req m b!"encrypted_key" IsRaw r.encryptedKey

/-- An encrypted envelope. -/
def IsEncrypted (t : Tree) (j : JWE) : Prop :=
  ∃ m, IsStruct [b!"protected", b!"recipients", b!"iv", b!"ciphertext", b!"tag"] t m ∧
    Req m b!"protected" IsRaw j.protected_ ∧ Req m b!"recipients" (IsList IsRecipient) j.recipients ∧ Req m b!"iv" IsRaw j.iv ∧
    Req m b!"ciphertext" IsRaw j.ciphertext ∧ Req m b!"tag" IsRaw j.tag

/-- A signature of a signed envelope. -/
def IsSignature (t : Tree) (s : JwsSig) : Prop :=
  ∃ m, IsStruct [b!"header", b!"protected", b!"signature"] t m ∧ Req m b!"header" IsKidHeader s.kid ∧
    Req m b!"protected" IsRaw s.protected_ ∧ Req m b!"signature" IsRaw s.signature

/-- A signed envelope. -/
def IsSigned (t : Tree) (j : JWS) : Prop :=
  ∃ m, IsStruct [b!"signatures", b!"payload"] t m ∧ Req m b!"signatures" (IsList IsSignature) j.signatures ∧
    Req m b!"payload" IsRaw j.payload

/-- The claims of a `from_prior`. -/
def IsClaims (t : Tree) (f : FromPrior) : Prop :=
  ∃ m, IsStruct [b!"iss", b!"sub", b!"aud", b!"exp", b!"nbf", b!"iat", b!"jti"] t m ∧
    Req m b!"iss" IsText f.iss ∧ Req m b!"sub" IsText f.sub ∧ Opt m b!"aud" IsText f.aud ∧ Opt m b!"exp" IsU64 f.exp ∧
    Opt m b!"nbf" IsU64 f.nbf ∧ Opt m b!"iat" IsU64 f.iat ∧ Opt m b!"jti" IsText f.jti

/-! ## Protected headers -/

/-- The name of a signature algorithm. -/
def NamesSign (s : Str) : JwsAlg → Prop
  | .edDSA => s = b!"EdDSA"
  | .es256 => s = b!"ES256"
  | .es256k => s = b!"ES256K"
  | .other x => x = s ∧ s ∉ [b!"EdDSA", b!"ES256", b!"ES256K"]

/-- The name of a key agreement algorithm. -/
def NamesAgreement (s : Str) : JweAlg → Prop
  | .ecdh1pu => s = b!"ECDH-1PU+A256KW"
  | .ecdhEs => s = b!"ECDH-ES+A256KW"
  | .other x => x = s ∧ s ∉ [b!"ECDH-1PU+A256KW", b!"ECDH-ES+A256KW"]

/-- The name of a content encryption algorithm. -/
def NamesEncryption (s : Str) : EncAlg → Prop
  | .a256cbcHs512 => s = b!"A256CBC-HS512"
  | .xc20p => s = b!"XC20P"
  | .a256gcm => s = b!"A256GCM"
  | .other x => x = s ∧ s ∉ [b!"A256CBC-HS512", b!"XC20P", b!"A256GCM"]

/-- A string that names an algorithm. -/
def IsName {α : Type} (N : Str → α → Prop) (t : Tree) (a : α) : Prop := ∃ s, IsText t s ∧ N s a

/-- The protected header of an encrypted envelope. -/
def IsJweHeader (f64 : Str → Option Str) (t : Tree) (h : JweHeader) : Prop :=
  ∃ m, IsStruct [b!"typ", b!"alg", b!"enc", b!"skid", b!"apu", b!"apv", b!"epk"] t m ∧
    Opt m b!"typ" IsText h.typ ∧ Req m b!"alg" (IsName NamesAgreement) h.alg ∧ Req m b!"enc" (IsName NamesEncryption) h.enc ∧
    Opt m b!"skid" IsRaw h.skid ∧ Opt m b!"apu" IsRaw h.apu ∧ Req m b!"apv" IsRaw h.apv ∧
    Req m b!"epk" (MeansWithin f64 127) h.epk

/-- The protected header of a signature. -/
def IsJwsHeader (t : Tree) (h : JwsHeader) : Prop :=
  ∃ m, IsStruct [b!"typ", b!"alg"] t m ∧ Req m b!"typ" IsText h.typ ∧ Req m b!"alg" (IsName NamesSign) h.alg

/-- The header of a `from_prior` JWT. -/
def IsCompactHeader (t : Tree) (h : CompactHeader) : Prop :=
  ∃ m, IsStruct [b!"typ", b!"alg", b!"kid"] t m ∧ Req m b!"typ" IsRaw h.typ ∧ Req m b!"alg" (IsName NamesSign) h.alg ∧
    Req m b!"kid" IsRaw h.kid

end DIDComm
