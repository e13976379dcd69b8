import Verif.Model.Types

/-!
# Derived `Serialize` / `Deserialize`

Typed decoding of a `Tree`, with serde's rules: unknown fields are ignored,
duplicate known fields are an error, a missing or `null` `Option` is `None`, a
struct may also be given as an array with exactly its fields in order (unless it
has a flattened field), a borrowed `&str` cannot be decoded from a string that
contains an escape, and a container nested 128 levels deep is rejected
(`remaining_depth` in serde_json) — but only if it is decoded, not if it is ignored.

`none` stands for any data error; all of them become `ErrorKind::Malformed`
(/repo/src/error.rs L168-175).
-/

set_option autoImplicit false

namespace DIDComm

/-! ## Scalars -/

/-- `&'a str`: only from a string without escapes.  Part of the code `serde` derives for the
envelopes in /repo/src/jwe/envelope.rs L6-75 and /repo/src/jws/envelope.rs L8-65. -/
def dBorrow : Tree → Option Str
  | .str ⟨false, some s⟩ => some s
  | _ => none

/-- `String` or `Cow<str>`.  Part of the code `serde` derives for the envelopes in
/repo/src/jwe/envelope.rs L6-75 and /repo/src/jws/envelope.rs L8-65. -/
def dStr : Tree → Option Str
  | .str ⟨_, some s⟩ => some s
  | _ => none

/-- The value of a list of decimal digits.  Part of the code `serde` derives for `Option<u64>`
fields such as /repo/src/message/message.rs L59, L66. -/
def digitsVal (s : Str) : Nat := s.foldl (fun a d => a * 10 + (d.toNat - 48)) 0

/-- `u64`.  Part of the code `serde` derives for `Option<u64>` fields such as
/repo/src/message/message.rs L59, L66. -/
def dU64 : Tree → Option UInt64
  | .num ⟨false, ds, []⟩ =>
    if digitsVal ds < 2 ^ 64 then some (UInt64.ofNat (digitsVal ds)) else none
  | _ => none

/-- `Option<T>` for a field that is present.  Part of the code `serde` derives for the envelopes
in /repo/src/jwe/envelope.rs L6-75 and /repo/src/jws/envelope.rs L8-65. -/
def dOpt {α : Type} (d : Tree → Option α) : Tree → Option (Option α)
  | .null => some none
  | t => (d t).map some

/-- Decode all elements.  Part of the code `serde` derives for the envelopes in
/repo/src/jwe/envelope.rs L6-75 and /repo/src/jws/envelope.rs L8-65. -/
def decAll {α : Type} (d : Tree → Option α) : List Tree → Option (List α)
  | [] => some []
  | t :: r => do
    let a ← d t
    let l ← decAll d r
    some (a :: l)

/-- `Vec<T>` at remaining depth `n`.  Part of the code `serde` derives for the envelopes in
/repo/src/jwe/envelope.rs L6-75 and /repo/src/jws/envelope.rs L8-65. -/
def dVec {α : Type} (d : Nat → Tree → Option α) (n : Nat) : Tree → Option (List α)
  | .arr l => if n ≤ 1 then none else decAll (d (n - 1)) l
  | _ => none

/-! ## `serde_json::Value` -/

/-- `BTreeMap::insert`.  Part of the code `serde` derives for `serde_json::Value`, used at
/repo/src/message/message.rs L26 and /repo/src/jwe/envelope.rs L57. -/
def btInsert {α : Type} (k : Str) (v : α) : List (Str × α) → List (Str × α)
  | [] => [(k, v)]
  | (k', v') :: r =>
    if k = k' then (k, v) :: r
    else if strLe k k' then (k, v) :: (k', v') :: r
    else (k', v') :: btInsert k v r

/-- A number token as `serde_json::Number`.  `f64` is parsing to a double followed by
printing it (`None` when out of range).  Part of the code `serde` derives for
`serde_json::Value`, used at /repo/src/message/message.rs L26 and /repo/src/jwe/envelope.rs L57.
-/
def toNum (f64 : Str → Option Str) (t : NumTok) : Option Num :=
  let raw := (if t.neg then [0x2D] else []) ++ t.digits ++ t.tail
  let n := digitsVal t.digits
  if t.tail = [] then
    if t.neg then
      if 0 < n ∧ n ≤ 2 ^ 63 then some (.neg n) else (f64 raw).map .flt
    else
      if n < 2 ^ 64 then some (.pos n) else (f64 raw).map .flt
  else (f64 raw).map .flt

mutual
/-- `Value::deserialize` at remaining depth `n`.  Part of the code `serde` derives for
`serde_json::Value`, used at /repo/src/message/message.rs L26 and /repo/src/jwe/envelope.rs L57.
-/
def toValue (f64 : Str → Option Str) : Nat → Tree → Option Value
  | _, .null => some .null
  | _, .bool b => some (.bool b)
  | _, .num t => (toNum f64 t).map .num
  | _, .str t => t.val.map .str
  | n, .arr l => if n ≤ 1 then none else (toValues f64 (n - 1) l).map .arr
  | n, .obj m => if n ≤ 1 then none else (toMembers f64 (n - 1) m []).map .obj
/-- The elements of an array.  Part of the code `serde` derives for `serde_json::Value`, used at
/repo/src/message/message.rs L26 and /repo/src/jwe/envelope.rs L57. -/
def toValues (f64 : Str → Option Str) : Nat → List Tree → Option (List Value)
  | _, [] => some []
  | n, t :: r => do
    let v ← toValue f64 n t
    let l ← toValues f64 n r
    some (v :: l)
/-- The members of an object, inserted one after the other into a `BTreeMap`.  Part of the code
`serde` derives for `serde_json::Value`, used at /repo/src/message/message.rs L26 and
/repo/src/jwe/envelope.rs L57. -/
def toMembers (f64 : Str → Option Str) :
    Nat → List (StrTok × Tree) → List (Str × Value) → Option (List (Str × Value))
  | _, [], acc => some acc
  | n, (k, t) :: r, acc => do
    let k ← k.val
    let v ← toValue f64 n t
    toMembers f64 n r (btInsert k v acc)
end

/-! ## Structs -/

/-- Decode the keys of an object's members.  Part of the code `serde` derives for the envelopes
in /repo/src/jwe/envelope.rs L6-75 and /repo/src/jws/envelope.rs L8-65. -/
def decKeys : List (StrTok × Tree) → Option (List (Str × Tree))
  | [] => some []
  | (k, t) :: r => do
    let k ← k.val
    let l ← decKeys r
    some ((k, t) :: l)

/-- The members of a map at remaining depth `n`.  Part of the code `serde` derives for the
envelopes in /repo/src/jwe/envelope.rs L6-75 and /repo/src/jws/envelope.rs L8-65. -/
def asMap (n : Nat) : Tree → Option (List (Str × Tree))
  | .obj m => if n ≤ 1 then none else decKeys m
  | _ => none

/-- A derived struct without flattened fields: a map, or a sequence of exactly its
fields in declaration order.  Part of the code `serde` derives for the envelopes in
/repo/src/jwe/envelope.rs L6-75 and /repo/src/jws/envelope.rs L8-65. -/
def asStruct (names : List Str) (n : Nat) : Tree → Option (List (Str × Tree))
  | .obj m => if n ≤ 1 then none else decKeys m
  | .arr l => if n ≤ 1 then none else if l.length = names.length then some (names.zip l) else none
  | _ => none

/-- The member with a given name: absent, present once, or (error) duplicated.  Part of the code
`serde` derives for the envelopes in /repo/src/jwe/envelope.rs L6-75 and
/repo/src/jws/envelope.rs L8-65. -/
def field (m : List (Str × Tree)) (name : Str) : Option (Option Tree) :=
  match m.filter (fun p => p.1 == name) with
  | [] => some none
  | [(_, t)] => some (some t)
  | _ => none

/-- A required field.  Part of the code `serde` derives for the envelopes in
/repo/src/jwe/envelope.rs L6-75 and /repo/src/jws/envelope.rs L8-65. -/
def reqField {α : Type} (m : List (Str × Tree)) (name : Str) (d : Tree → Option α) : Option α := do
  let t ← field m name
  let t ← t
  d t

/-- An `Option` field.  Part of the code `serde` derives for the envelopes in
/repo/src/jwe/envelope.rs L6-75 and /repo/src/jws/envelope.rs L8-65. -/
def optField {α : Type} (m : List (Str × Tree)) (name : Str) (d : Tree → Option α) :
    Option (Option α) := do
  let t ← field m name
  match t with
  | none => some none
  | some t => dOpt d t

/-! ## JWS -/

/-- `jws::Header { kid: &str }` — /repo/src/jws/envelope.rs L47-52. -/
def dKidHeader (n : Nat) (t : Tree) : Option Str := do
  let m ← asStruct [b!"kid"] n t
  reqField m b!"kid" dBorrow

/-- `Signature` — /repo/src/jws/envelope.rs L18-33. -/
def dJwsSig (n : Nat) (t : Tree) : Option JwsSig := do
  let m ← asStruct [b!"header", b!"protected", b!"signature"] n t
  let kid ← reqField m b!"header" (dKidHeader (n - 1))
  let p ← reqField m b!"protected" dBorrow
  let s ← reqField m b!"signature" dBorrow
  some ⟨kid, p, s⟩

/-- `JWS` — /repo/src/jws/envelope.rs L8-16. -/
def dJws (n : Nat) (t : Tree) : Option JWS := do
  let m ← asStruct [b!"signatures", b!"payload"] n t
  let sigs ← reqField m b!"signatures" (dVec dJwsSig (n - 1))
  let p ← reqField m b!"payload" dBorrow
  some ⟨sigs, p⟩

/-- `jws::ProtectedHeader` — /repo/src/jws/envelope.rs L35-45. -/
def dJwsHeader (n : Nat) (t : Tree) : Option JwsHeader := do
  let m ← asStruct [b!"typ", b!"alg"] n t
  let typ ← reqField m b!"typ" dStr
  let alg ← reqField m b!"alg" dStr
  some ⟨typ, JwsAlg.ofStr alg⟩

/-- `CompactHeader` — /repo/src/jws/envelope.rs L54-65. -/
def dCompactHeader (n : Nat) (t : Tree) : Option CompactHeader := do
  let m ← asStruct [b!"typ", b!"alg", b!"kid"] n t
  let typ ← reqField m b!"typ" dBorrow
  let alg ← reqField m b!"alg" dStr
  let kid ← reqField m b!"kid" dBorrow
  some ⟨typ, JwsAlg.ofStr alg, kid⟩

/-- `Serialize for JWS` — /repo/src/jws/envelope.rs L8-52. -/
def JwsSig.toJson (s : JwsSig) : Value :=
  .obj [(b!"header", .obj [(b!"kid", .str s.kid)]), (b!"protected", .str s.protected_),
    (b!"signature", .str s.signature)]

/-- `Serialize for JWS` — /repo/src/jws/envelope.rs L8-16. -/
def JWS.toJson (j : JWS) : Value :=
  .obj [(b!"signatures", .arr (j.signatures.map JwsSig.toJson)), (b!"payload", .str j.payload)]

/-- `Serialize for jws::ProtectedHeader` — /repo/src/jws/envelope.rs L35-45. -/
def JwsHeader.toJson (h : JwsHeader) : Value :=
  .obj [(b!"typ", .str h.typ), (b!"alg", .str h.alg.asStr)]

/-- `Serialize for CompactHeader` — /repo/src/jws/envelope.rs L54-65. -/
def CompactHeader.toJson (h : CompactHeader) : Value :=
  .obj [(b!"typ", .str h.typ), (b!"alg", .str h.alg.asStr), (b!"kid", .str h.kid)]

/-! ## JWE -/

/-- `Recipient` — /repo/src/jwe/envelope.rs L59-75. -/
def dJweRecipient (n : Nat) (t : Tree) : Option JweRecipient := do
  let m ← asStruct [b!"header", b!"encrypted_key"] n t
  let kid ← reqField m b!"header" (dKidHeader (n - 1))
  let k ← reqField m b!"encrypted_key" dBorrow
  some ⟨kid, k⟩

/-- `JWE` — /repo/src/jwe/envelope.rs L6-25. -/
def dJwe (n : Nat) (t : Tree) : Option JWE := do
  let m ← asStruct [b!"protected", b!"recipients", b!"iv", b!"ciphertext", b!"tag"] n t
  let p ← reqField m b!"protected" dBorrow
  let rs ← reqField m b!"recipients" (dVec dJweRecipient (n - 1))
  let iv ← reqField m b!"iv" dBorrow
  let c ← reqField m b!"ciphertext" dBorrow
  let tag ← reqField m b!"tag" dBorrow
  some ⟨p, rs, iv, c, tag⟩

/-- `jwe::ProtectedHeader` — /repo/src/jwe/envelope.rs L27-58. -/
def dJweHeader (f64 : Str → Option Str) (n : Nat) (t : Tree) : Option JweHeader := do
  let m ← asStruct [b!"typ", b!"alg", b!"enc", b!"skid", b!"apu", b!"apv", b!"epk"] n t
  let typ ← optField m b!"typ" dStr
  let alg ← reqField m b!"alg" dStr
  let enc ← reqField m b!"enc" dStr
  let skid ← optField m b!"skid" dBorrow
  let apu ← optField m b!"apu" dBorrow
  let apv ← reqField m b!"apv" dBorrow
  let epk ← reqField m b!"epk" (toValue f64 (n - 1))
  some ⟨typ, JweAlg.ofStr alg, EncAlg.ofStr enc, skid, apu, apv, epk⟩

/-- `Serialize for Recipient` — /repo/src/jwe/envelope.rs L59-75. -/
def JweRecipient.toJson (r : JweRecipient) : Value :=
  .obj [(b!"header", .obj [(b!"kid", .str r.kid)]), (b!"encrypted_key", .str r.encryptedKey)]

/-- `Serialize for JWE` — /repo/src/jwe/envelope.rs L6-25. -/
def JWE.toJson (j : JWE) : Value :=
  .obj [(b!"protected", .str j.protected_), (b!"recipients", .arr (j.recipients.map JweRecipient.toJson)),
    (b!"iv", .str j.iv), (b!"ciphertext", .str j.ciphertext), (b!"tag", .str j.tag)]

/-- A member that is skipped when `None` (`skip_serializing_if`).  Part of the code `serde`
derives for `skip_serializing_if`, for example /repo/src/jwe/envelope.rs L44-49. -/
def optMember {α : Type} (name : Str) (f : α → Value) : Option α → List (Str × Value)
  | none => []
  | some a => [(name, f a)]

/-- `Serialize for jwe::ProtectedHeader` — /repo/src/jwe/envelope.rs L27-58; `typ` is
an `Option` without `skip_serializing_if`. -/
def JweHeader.toJson (h : JweHeader) : Value :=
  .obj ([(b!"typ", match h.typ with | some t => .str t | none => .null), (b!"alg", .str h.alg.asStr),
    (b!"enc", .str h.enc.asStr)]
    ++ optMember b!"skid" .str h.skid ++ optMember b!"apu" .str h.apu
    ++ [(b!"apv", .str h.apv), (b!"epk", h.epk)])

/-! ## FromPrior -/

/-- A `u64` as JSON.  Part of the code `serde` derives for `Option<u64>` fields such as
/repo/src/message/message.rs L59, L66. -/
def u64Json (n : UInt64) : Value := .num (.pos n.toNat)

/-- `Serialize for FromPrior` — /repo/src/message/from_prior/mod.rs L6-28. -/
def FromPrior.toJson (f : FromPrior) : Value :=
  .obj ([(b!"iss", .str f.iss), (b!"sub", .str f.sub)]
    ++ optMember b!"aud" .str f.aud ++ optMember b!"exp" u64Json f.exp
    ++ optMember b!"nbf" u64Json f.nbf ++ optMember b!"iat" u64Json f.iat
    ++ optMember b!"jti" .str f.jti)

/-- `Deserialize for FromPrior` — /repo/src/message/from_prior/mod.rs L6-28. -/
def dFromPrior (n : Nat) (t : Tree) : Option FromPrior := do
  let m ← asStruct [b!"iss", b!"sub", b!"aud", b!"exp", b!"nbf", b!"iat", b!"jti"] n t
  let iss ← reqField m b!"iss" dStr
  let sub ← reqField m b!"sub" dStr
  let aud ← optField m b!"aud" dStr
  let exp ← optField m b!"exp" dU64
  let nbf ← optField m b!"nbf" dU64
  let iat ← optField m b!"iat" dU64
  let jti ← optField m b!"jti" dStr
  some ⟨iss, sub, aud, exp, nbf, iat, jti⟩

/-! ## Attachments -/

/-- `Serialize for AttachmentData` (untagged, flattened) —
/repo/src/message/attachment.rs L162-211. -/
def AttachmentData.toJson : AttachmentData → Value
  | .base64 b jws => .obj ([(b!"base64", .str b)] ++ optMember b!"jws" .str jws)
  | .json j jws => .obj ([(b!"json", j)] ++ optMember b!"jws" .str jws)
  | .links l h jws => .obj ([(b!"links", .arr (l.map .str)), (b!"hash", .str h)] ++ optMember b!"jws" .str jws)

/-- `Serialize for Attachment` — /repo/src/message/attachment.rs L4-47. -/
def Attachment.toJson (a : Attachment) : Value :=
  .obj ([(b!"data", a.data.toJson)]
    ++ optMember b!"id" .str a.id ++ optMember b!"description" .str a.description
    ++ optMember b!"filename" .str a.filename ++ optMember b!"media_type" .str a.mediaType
    ++ optMember b!"format" .str a.format ++ optMember b!"lastmod_time" u64Json a.lastmodTime
    ++ optMember b!"byte_count" u64Json a.byteCount)

/-- The `Base64` variant.  /repo/src/message/attachment.rs L180-188. -/
def dDataBase64 (m : List (Str × Tree)) : Option AttachmentData := do
  let b ← reqField m b!"base64" dStr
  let jws ← optField m b!"jws" dStr
  some (.base64 b jws)

/-- The `Json` variant.  /repo/src/message/attachment.rs L190-198. -/
def dDataJson (f64 : Str → Option Str) (n : Nat) (m : List (Str × Tree)) : Option AttachmentData := do
  let j ← reqField m b!"json" (toValue f64 n)
  let jws ← optField m b!"jws" dStr
  some (.json j jws)

/-- The `Links` variant.  /repo/src/message/attachment.rs L200-211. -/
def dDataLinks (n : Nat) (m : List (Str × Tree)) : Option AttachmentData := do
  let l ← reqField m b!"links" (dVec (fun _ => dStr) n)
  let h ← reqField m b!"hash" dStr
  let jws ← optField m b!"jws" dStr
  some (.links l h jws)

/-- `Deserialize for AttachmentData` (untagged): the value is buffered first (so all of
it must be well formed and not too deep), then the variants are tried in order —
/repo/src/message/attachment.rs L162-179. -/
def dAttachmentData (f64 : Str → Option Str) (n : Nat) (t : Tree) : Option AttachmentData := do
  let _ ← toValue f64 n t
  let m ← asMap n t
  match dDataBase64 m with
  | some d => some d
  | none =>
    match dDataJson f64 (n - 1) m with
    | some d => some d
    | none => dDataLinks (n - 1) m

/-- `Deserialize for Attachment` — /repo/src/message/attachment.rs L4-47. -/
def dAttachment (f64 : Str → Option Str) (n : Nat) (t : Tree) : Option Attachment := do
  let m ← asStruct [b!"data", b!"id", b!"description", b!"filename", b!"media_type", b!"format",
    b!"lastmod_time", b!"byte_count"] n t
  let data ← reqField m b!"data" (dAttachmentData f64 (n - 1))
  let id ← optField m b!"id" dStr
  let description ← optField m b!"description" dStr
  let filename ← optField m b!"filename" dStr
  let mediaType ← optField m b!"media_type" dStr
  let format ← optField m b!"format" dStr
  let lastmodTime ← optField m b!"lastmod_time" dU64
  let byteCount ← optField m b!"byte_count" dU64
  some ⟨data, id, description, filename, mediaType, format, lastmodTime, byteCount⟩

/-! ## Message -/

/-- The field names of `Message`, except the flattened one —
/repo/src/message/message.rs L9-75. -/
def reservedHeaders : List Str :=
  [b!"id", b!"typ", b!"type", b!"body", b!"from", b!"to", b!"thid", b!"pthid", b!"created_time",
   b!"expires_time", b!"from_prior", b!"attachments"]

/-- `Serialize for Message` — /repo/src/message/message.rs L9-75. -/
def Message.toJson (m : Message) : Value :=
  .obj ([(b!"id", .str m.id), (b!"typ", .str m.typ), (b!"type", .str m.type_), (b!"body", m.body)]
    ++ optMember b!"from" .str m.from_ ++ optMember b!"to" (fun l => .arr (l.map .str)) m.to
    ++ optMember b!"thid" .str m.thid ++ optMember b!"pthid" .str m.pthid
    ++ m.extraHeaders
    ++ optMember b!"created_time" u64Json m.createdTime
    ++ optMember b!"expires_time" u64Json m.expiresTime
    ++ optMember b!"from_prior" .str m.fromPrior
    ++ optMember b!"attachments" (fun l => .arr (l.map Attachment.toJson)) m.attachments)

/-- `HashMap::insert`, keeping the list in first-insertion order.  Part of the code `serde`
derives for the flattened map at /repo/src/message/message.rs L51-52. -/
def hmInsert {α : Type} (k : Str) (v : α) : List (Str × α) → List (Str × α)
  | [] => [(k, v)]
  | (k', v') :: r => if k = k' then (k, v) :: r else (k', v') :: hmInsert k v r

/-- The flattened `extra_headers`: every member that is not a field.  Part of the code `serde`
derives for the flattened map at /repo/src/message/message.rs L51-52. -/
def dExtra (f64 : Str → Option Str) (n : Nat) :
    List (Str × Tree) → List (Str × Value) → Option (List (Str × Value))
  | [], acc => some acc
  | (k, t) :: r, acc =>
    if reservedHeaders.contains k then dExtra f64 n r acc
    else do
      let v ← toValue f64 n t
      dExtra f64 n r (hmInsert k v acc)

/-- The `typ` field, with its default — /repo/src/message/message.rs L15-16, L79-81. -/
def dTyp : Option Tree → Option Str
  | none => some plaintextTyp
  | some t => dStr t

/-- `Deserialize for Message` — /repo/src/message/message.rs L9-90. -/
def dMessage (f64 : Str → Option Str) (n : Nat) (t : Tree) : Option Message := do
  let m ← asMap n t
  let id ← reqField m b!"id" dStr
  let typ ← field m b!"typ"
  let typ ← dTyp typ
  let type_ ← reqField m b!"type" dStr
  let body ← reqField m b!"body" (toValue f64 (n - 1))
  let from_ ← optField m b!"from" dStr
  let to ← optField m b!"to" (dVec (fun _ => dStr) (n - 1))
  let thid ← optField m b!"thid" dStr
  let pthid ← optField m b!"pthid" dStr
  let createdTime ← optField m b!"created_time" dU64
  let expiresTime ← optField m b!"expires_time" dU64
  let fromPrior ← optField m b!"from_prior" dStr
  let attachments ← optField m b!"attachments" (dVec (dAttachment f64) (n - 1))
  let extraHeaders ← dExtra f64 (n - 1) m []
  some ⟨id, typ, type_, body, from_, to, thid, pthid, extraHeaders, createdTime, expiresTime,
    fromPrior, attachments⟩

/-! ## Texts that end too early

serde_json decodes while it reads.  A text that ends too early is refused as ill-typed (`Malformed`) if
something was wrong before the end, else as ended (`InvalidState`).  `earlyX` says whether the
decoder `dX` refuses what was read.  Before the end these are noticed: a value of the wrong kind (for `[` and `{` at once,
for a number, a string or a word when it is complete), a complete value that does not fit, a name that
occurs twice, an array with more elements than the struct has fields (at the comma), too deep nesting, an
unpaired surrogate.  Not noticed: missing fields, and anything inside ignored members. -/

/-- `&str`, `String`, `Cow<str>`.  Part of the code `serde` derives for the
envelopes in /repo/src/jwe/envelope.rs L6-75 and /repo/src/jws/envelope.rs L8-65. -/
def earlyStr : Cut → Bool
  | .nothing => false
  | .scalar => false
  | .str is => loneSurrogate is
  | _ => true

/-- `u64`.  Part of the code `serde` derives for `Option<u64>` fields such as
/repo/src/message/message.rs L59, L66. -/
def earlyU64 : Cut → Bool
  | .nothing => false
  | .scalar => false
  | .num n => (dU64 (.num n)).isNone
  | .str is => loneSurrogate is
  | _ => true

/-- `Vec<T>` at remaining depth `n`.  Part of the code `serde` derives for the
envelopes in /repo/src/jwe/envelope.rs L6-75 and /repo/src/jws/envelope.rs L8-65. -/
def earlyVec {α : Type} (d : Nat → Tree → Option α) (e : Nat → Cut → Bool) (n : Nat) : Cut → Bool
  | .nothing => false
  | .scalar => false
  | .str is => loneSurrogate is
  | .arr l => n ≤ 1 || (decAll (d (n - 1)) l).isNone
  | .arrNext l c => n ≤ 1 || (decAll (d (n - 1)) l).isNone || e (n - 1) c
  | _ => true

/-- `Value::deserialize` at remaining depth `n`, and everything that is buffered before it is decoded.  Part of the code
`serde` derives for `serde_json::Value`, used at /repo/src/message/message.rs L26 and
/repo/src/jwe/envelope.rs L57. -/
def earlyValue (f64 : Str → Option Str) : Nat → Cut → Bool
  | _, .nothing => false
  | _, .scalar => false
  | _, .num n => (toNum f64 n).isNone
  | _, .str is => loneSurrogate is
  | n, .arr l => n ≤ 1 || (toValues f64 (n - 1) l).isNone
  | n, .arrNext l c => n ≤ 1 || (toValues f64 (n - 1) l).isNone || earlyValue f64 (n - 1) c
  | n, .obj m => n ≤ 1 || (toMembers f64 (n - 1) m []).isNone
  | n, .objKey m is => n ≤ 1 || (toMembers f64 (n - 1) m []).isNone || loneSurrogate is
  | n, .objVal m k c => n ≤ 1 || (toMembers f64 (n - 1) m []).isNone || k.val.isNone || earlyValue f64 (n - 1) c

/-- A field of a struct: its name, whether a complete value fits, and whether a value that is cut off is
refused.  Part of the code `serde` derives for the
envelopes in /repo/src/jwe/envelope.rs L6-75 and /repo/src/jws/envelope.rs L8-65. -/
structure Fld where
  name : Str
  fits : Tree → Bool
  early : Cut → Bool

/-- A required field.  Part of the code `serde` derives for the
envelopes in /repo/src/jwe/envelope.rs L6-75 and /repo/src/jws/envelope.rs L8-65. -/
def Fld.req {α : Type} (name : Str) (d : Tree → Option α) (e : Cut → Bool) : Fld := ⟨name, fun t => (d t).isSome, e⟩

/-- An `Option` field.  Part of the code `serde` derives for the
envelopes in /repo/src/jwe/envelope.rs L6-75 and /repo/src/jws/envelope.rs L8-65. -/
def Fld.opt {α : Type} (name : Str) (d : Tree → Option α) (e : Cut → Bool) : Fld := ⟨name, fun t => (dOpt d t).isSome, e⟩

/-- What happens to members that are no field: ignored.  Part of the code `serde` derives for the
envelopes in /repo/src/jwe/envelope.rs L6-75 and /repo/src/jws/envelope.rs L8-65. -/
def Fld.ignored : Fld := ⟨[], fun _ => true, fun _ => false⟩

/-- The complete members of an object, one after the other: the names of the fields seen, or `none` if one is
refused.  Part of the code `serde` derives for the
envelopes in /repo/src/jwe/envelope.rs L6-75 and /repo/src/jws/envelope.rs L8-65. -/
def readMembers (fs : List Fld) (other : Fld) : List Str → List (StrTok × Tree) → Option (List Str)
  | seen, [] => some seen
  | seen, (k, t) :: r => do
    let k ← k.val
    match fs.find? (fun f => f.name == k) with
    | some f => if seen.contains k || !f.fits t then none else readMembers fs other (k :: seen) r
    | none => if other.fits t then readMembers fs other seen r else none

/-- The elements of an array, given for the fields of a struct in order: the fields left, or `none` if one is
refused.  Part of the code `serde` derives for the
envelopes in /repo/src/jwe/envelope.rs L6-75 and /repo/src/jws/envelope.rs L8-65. -/
def readElems : List Fld → List Tree → Option (List Fld)
  | fs, [] => some fs
  | [], _ :: _ => none
  | f :: fs, t :: r => if f.fits t then readElems fs r else none

/-- A map (`deserialize_map`) at remaining depth `n`.  Part of the code `serde` derives for the
envelopes in /repo/src/jwe/envelope.rs L6-75 and /repo/src/jws/envelope.rs L8-65. -/
def earlyMap (fs : List Fld) (other : Fld) (n : Nat) : Cut → Bool
  | .nothing => false
  | .scalar => false
  | .str is => loneSurrogate is
  | .obj m => n ≤ 1 || (readMembers fs other [] m).isNone
  | .objKey m is => n ≤ 1 || (readMembers fs other [] m).isNone || loneSurrogate is
  | .objVal m k c => n ≤ 1 ||
    match readMembers fs other [] m, k.val with
    | some seen, some k =>
      match fs.find? (fun f => f.name == k) with
      | some f => seen.contains k || f.early c
      | none => other.early c
    | _, _ => true
  | _ => true

/-- A struct (`deserialize_struct`) at remaining depth `n`: a map, or its fields in order.  Part of the code `serde` derives for the
envelopes in /repo/src/jwe/envelope.rs L6-75 and /repo/src/jws/envelope.rs L8-65. -/
def earlyStruct (fs : List Fld) (n : Nat) : Cut → Bool
  | .arr l => n ≤ 1 || (readElems fs l).isNone
  | .arrNext l c => n ≤ 1 ||
    match readElems fs l with
    | some (f :: _) => f.early c
    | _ => true
  | c => earlyMap fs .ignored n c

/-- `jws::Header` — /repo/src/jws/envelope.rs L47-52. -/
def earlyKidHeader (n : Nat) : Cut → Bool := earlyStruct [.req b!"kid" dBorrow earlyStr] n

/-- `Signature` — /repo/src/jws/envelope.rs L18-33. -/
def earlyJwsSig (n : Nat) : Cut → Bool :=
  earlyStruct [.req b!"header" (dKidHeader (n - 1)) (earlyKidHeader (n - 1)), .req b!"protected" dBorrow earlyStr,
    .req b!"signature" dBorrow earlyStr] n

/-- `JWS` — /repo/src/jws/envelope.rs L8-16. -/
def earlyJws (n : Nat) : Cut → Bool :=
  earlyStruct [.req b!"signatures" (dVec dJwsSig (n - 1)) (earlyVec dJwsSig earlyJwsSig (n - 1)),
    .req b!"payload" dBorrow earlyStr] n

/-- `jws::ProtectedHeader` — /repo/src/jws/envelope.rs L35-45. -/
def earlyJwsHeader (n : Nat) : Cut → Bool :=
  earlyStruct [.req b!"typ" dStr earlyStr, .req b!"alg" dStr earlyStr] n

/-- `CompactHeader` — /repo/src/jws/envelope.rs L54-65. -/
def earlyCompactHeader (n : Nat) : Cut → Bool :=
  earlyStruct [.req b!"typ" dBorrow earlyStr, .req b!"alg" dStr earlyStr, .req b!"kid" dBorrow earlyStr] n

/-- `Recipient` — /repo/src/jwe/envelope.rs L59-75. -/
def earlyJweRecipient (n : Nat) : Cut → Bool :=
  earlyStruct [.req b!"header" (dKidHeader (n - 1)) (earlyKidHeader (n - 1)), .req b!"encrypted_key" dBorrow earlyStr] n

/-- `JWE` — /repo/src/jwe/envelope.rs L6-25. -/
def earlyJwe (n : Nat) : Cut → Bool :=
  earlyStruct [.req b!"protected" dBorrow earlyStr,
    .req b!"recipients" (dVec dJweRecipient (n - 1)) (earlyVec dJweRecipient earlyJweRecipient (n - 1)),
    .req b!"iv" dBorrow earlyStr, .req b!"ciphertext" dBorrow earlyStr, .req b!"tag" dBorrow earlyStr] n

/-- `jwe::ProtectedHeader` — /repo/src/jwe/envelope.rs L27-58. -/
def earlyJweHeader (f64 : Str → Option Str) (n : Nat) : Cut → Bool :=
  earlyStruct [.opt b!"typ" dStr earlyStr, .req b!"alg" dStr earlyStr, .req b!"enc" dStr earlyStr,
    .opt b!"skid" dBorrow earlyStr, .opt b!"apu" dBorrow earlyStr, .req b!"apv" dBorrow earlyStr,
    .req b!"epk" (toValue f64 (n - 1)) (earlyValue f64 (n - 1))] n

/-- `Deserialize for FromPrior` — /repo/src/message/from_prior/mod.rs L6-28. -/
def earlyFromPrior (n : Nat) : Cut → Bool :=
  earlyStruct [.req b!"iss" dStr earlyStr, .req b!"sub" dStr earlyStr, .opt b!"aud" dStr earlyStr, .opt b!"exp" dU64 earlyU64,
    .opt b!"nbf" dU64 earlyU64, .opt b!"iat" dU64 earlyU64, .opt b!"jti" dStr earlyStr] n

/-- `Deserialize for Attachment` — /repo/src/message/attachment.rs L4-47.  `AttachmentData` (untagged) is buffered as a
whole before it is decoded, L162-179. -/
def earlyAttachment (f64 : Str → Option Str) (n : Nat) : Cut → Bool :=
  earlyStruct [.req b!"data" (dAttachmentData f64 (n - 1)) (earlyValue f64 (n - 1)), .opt b!"id" dStr earlyStr,
    .opt b!"description" dStr earlyStr, .opt b!"filename" dStr earlyStr, .opt b!"media_type" dStr earlyStr,
    .opt b!"format" dStr earlyStr, .opt b!"lastmod_time" dU64 earlyU64, .opt b!"byte_count" dU64 earlyU64] n

/-- `Deserialize for Message` — /repo/src/message/message.rs L9-90.  Members that are no field are buffered for the
flattened map, L51-52. -/
def earlyMessage (f64 : Str → Option Str) (n : Nat) : Cut → Bool :=
  earlyMap [.req b!"id" dStr earlyStr, .req b!"typ" dStr earlyStr, .req b!"type" dStr earlyStr,
    .req b!"body" (toValue f64 (n - 1)) (earlyValue f64 (n - 1)), .opt b!"from" dStr earlyStr,
    .opt b!"to" (dVec (fun _ => dStr) (n - 1)) (earlyVec (fun _ => dStr) (fun _ => earlyStr) (n - 1)),
    .opt b!"thid" dStr earlyStr, .opt b!"pthid" dStr earlyStr, .opt b!"created_time" dU64 earlyU64,
    .opt b!"expires_time" dU64 earlyU64, .opt b!"from_prior" dStr earlyStr,
    .opt b!"attachments" (dVec (dAttachment f64) (n - 1)) (earlyVec (dAttachment f64) (earlyAttachment f64) (n - 1))]
    (.req [] (toValue f64 (n - 1)) (earlyValue f64 (n - 1))) n

/-- Whether a decoder refuses what was read of a text that ends too early.  Part of the code `serde` derives for the types
read at /repo/src/jwe/parse.rs L23, /repo/src/jws/parse.rs L19, L38, L81, /repo/src/message/message.rs L89. -/
class Early {α : Type} (d : Nat → Tree → Option α) where
  early : Nat → Cut → Bool

/-- /repo/src/jws/envelope.rs L8-33. -/
instance : Early dJws := ⟨earlyJws⟩
/-- /repo/src/jws/envelope.rs L35-45. -/
instance : Early dJwsHeader := ⟨earlyJwsHeader⟩
/-- /repo/src/jws/envelope.rs L54-65. -/
instance : Early dCompactHeader := ⟨earlyCompactHeader⟩
/-- /repo/src/jwe/envelope.rs L6-75. -/
instance : Early dJwe := ⟨earlyJwe⟩
/-- /repo/src/jwe/envelope.rs L27-58. -/
instance (f64 : Str → Option Str) : Early (dJweHeader f64) := ⟨earlyJweHeader f64⟩
/-- /repo/src/message/from_prior/mod.rs L6-28. -/
instance : Early dFromPrior := ⟨earlyFromPrior⟩
/-- /repo/src/message/message.rs L9-90. -/
instance (f64 : Str → Option Str) : Early (dMessage f64) := ⟨earlyMessage f64⟩
/-- `serde_json::Value` — /repo/src/message/message.rs L26. -/
instance (f64 : Str → Option Str) : Early (toValue f64) := ⟨earlyValue f64⟩

/-! ## Whole texts -/

/-- serde_json's `remaining_depth` at the start.  Part of `serde_json::from_str`/`from_slice`,
called at /repo/src/jwe/parse.rs L23, /repo/src/jws/parse.rs L19, L38, L81,
/repo/src/message/message.rs L89. -/
def depthLimit : Nat := 128

/-- `serde_json::from_str(..).to_didcomm(..)` — /repo/src/error.rs L141-148, L168-175: an I/O or
end-of-input error is `InvalidState`, every other is `Malformed`. -/
def fromJson {α : Type} (d : Nat → Tree → Option α) [Early d] (s : Str) : Res α :=
  match parseJson s with
  | .error .eof => .error (.kind (if Early.early d depthLimit (cutOf s) then .malformed else .invalidState))
  | .error .syn => .error (.kind .malformed)
  | .error .fuel => .error .fuel
  | .ok t => okOr .malformed (d depthLimit t)

end DIDComm
