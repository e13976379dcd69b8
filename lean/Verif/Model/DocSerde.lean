import Verif.Model.Serde
import Verif.Model.Unpack
import Verif.Model.Bindings
import Verif.Model.Routing

/-!
# JSON of DID documents, secrets, options and metadata

These types cross the JavaScript boundary as JSON text (`JsValue::into_serde` is `JSON.stringify` followed by
`serde_json::from_str`; `from_serde` is `serde_json::to_string` followed by `JSON.parse`), and a Rust user reads and
writes documents and secrets with serde.  Decoders have the shape of Model/Serde.lean.

Simplification: the `type` of a service is read from a buffered value; besides the string the model accepts, some
versions of serde also accept the number of the variant or an object `{"Other": null}` there.
-/

set_option autoImplicit false

namespace DIDComm

/-! ## Enumerations without data -/

/-- The variant with a name.  Part of the code `serde` derives for /repo/src/did/did_doc.rs L42-51,
/repo/src/secrets/mod.rs L84-94 and /repo/src/algorithms.rs L3-43. -/
def variant {α : Type} (names : List (Str × α)) (s : Str) : Option α :=
  (names.find? (fun p => p.1 == s)).map Prod.snd

/-- An enumeration without data: its name, or an object with the name as its only key and `null` as its value.  Part of
the code `serde` derives for /repo/src/did/did_doc.rs L42-51, /repo/src/secrets/mod.rs L84-94 and
/repo/src/algorithms.rs L3-43. -/
def dUnit {α : Type} (names : List (Str × α)) (n : Nat) : Tree → Option α
  | .str ⟨_, some s⟩ => variant names s
  | .obj [(k, .null)] => if n ≤ 1 then none else k.val.bind (variant names)
  | _ => none

/-- The names of the key types — /repo/src/did/did_doc.rs L42-51; the same names in another order in
/repo/src/secrets/mod.rs L84-94. -/
def vmTypeNames : List (Str × VmType) :=
  [(b!"JsonWebKey2020", .jsonWebKey2020),
   (b!"X25519KeyAgreementKey2019", .x25519KeyAgreementKey2019),
   (b!"Ed25519VerificationKey2018", .ed25519VerificationKey2018),
   (b!"EcdsaSecp256k1VerificationKey2019", .ecdsaSecp256k1VerificationKey2019),
   (b!"X25519KeyAgreementKey2020", .x25519KeyAgreementKey2020),
   (b!"Ed25519VerificationKey2020", .ed25519VerificationKey2020),
   (b!"Other", .other)]

/-- `Serialize for VerificationMethodType` — /repo/src/did/did_doc.rs L42-51. -/
def VmType.name : VmType → Str
  | .jsonWebKey2020 => b!"JsonWebKey2020"
  | .x25519KeyAgreementKey2019 => b!"X25519KeyAgreementKey2019"
  | .ed25519VerificationKey2018 => b!"Ed25519VerificationKey2018"
  | .ecdsaSecp256k1VerificationKey2019 => b!"EcdsaSecp256k1VerificationKey2019"
  | .x25519KeyAgreementKey2020 => b!"X25519KeyAgreementKey2020"
  | .ed25519VerificationKey2020 => b!"Ed25519VerificationKey2020"
  | .other => b!"Other"

/-- The names of the algorithms — /repo/src/algorithms.rs L3-17. -/
def anonAlgNames : List (Str × AnonCryptAlg) :=
  [(b!"A256cbcHs512EcdhEsA256kw", .a256cbcHs512EcdhEsA256kw),
   (b!"Xc20pEcdhEsA256kw", .xc20pEcdhEsA256kw),
   (b!"A256gcmEcdhEsA256kw", .a256gcmEcdhEsA256kw)]

/-- `Serialize for AnonCryptAlg` — /repo/src/algorithms.rs L3-17. -/
def AnonCryptAlg.name : AnonCryptAlg → Str
  | .a256cbcHs512EcdhEsA256kw => b!"A256cbcHs512EcdhEsA256kw"
  | .xc20pEcdhEsA256kw => b!"Xc20pEcdhEsA256kw"
  | .a256gcmEcdhEsA256kw => b!"A256gcmEcdhEsA256kw"

/-- The names of the algorithms — /repo/src/algorithms.rs L25-30. -/
def authAlgNames : List (Str × AuthCryptAlg) := [(b!"A256cbcHs512Ecdh1puA256kw", .a256cbcHs512Ecdh1puA256kw)]

/-- `Serialize for AuthCryptAlg` — /repo/src/algorithms.rs L25-30. -/
def AuthCryptAlg.name : AuthCryptAlg → Str
  | .a256cbcHs512Ecdh1puA256kw => b!"A256cbcHs512Ecdh1puA256kw"

/-- `Serialize for SignAlg` — /repo/src/algorithms.rs L38-43. -/
def SignAlg.name : SignAlg → Str
  | .edDSA => b!"EdDSA"
  | .es256 => b!"ES256"
  | .es256k => b!"ES256K"

/-! ## Key material -/

/-- The names of the three forms of a key.  /repo/src/did/did_doc.rs L53-65 and
/repo/src/secrets/mod.rs L96-108: `rename_all = "camelCase"` of `public_key_jwk` and so on. -/
structure MaterialNames where
  jwk : Str
  multibase : Str
  base58 : Str

/-- /repo/src/did/did_doc.rs L53-65. -/
def publicNames : MaterialNames := ⟨b!"publicKeyJwk", b!"publicKeyMultibase", b!"publicKeyBase58"⟩

/-- /repo/src/secrets/mod.rs L96-108. -/
def privateNames : MaterialNames := ⟨b!"privateKeyJwk", b!"privateKeyMultibase", b!"privateKeyBase58"⟩

/-- Can every member be read as a value?  The members that are not fields are buffered for the flattened field —
/repo/src/did/did_doc.rs L38-39, L72-73, /repo/src/secrets/mod.rs L79-81. -/
def buffered (f64 : Str → Option Str) (n : Nat) (m : List (Str × Tree)) : Bool :=
  m.all (fun p => (toValue f64 n p.2).isSome)

/-- `Deserialize for VerificationMaterial` and `SecretMaterial` (untagged): the first form that fits —
/repo/src/did/did_doc.rs L53-65 and /repo/src/secrets/mod.rs L96-108. -/
def dMaterial (f64 : Str → Option Str) (names : MaterialNames) (n : Nat) (m : List (Str × Tree)) : Option Material :=
  match reqField m names.jwk (toValue f64 n) with
  | some v => some (.jwk v)
  | none =>
    match reqField m names.multibase dStr with
    | some s => some (.multibase s)
    | none => (reqField m names.base58 dStr).map .base58

/-- The members that are not fields of a struct with a flattened field.  Part of the code `serde` derives for
/repo/src/did/did_doc.rs L38-39, L72-73 and /repo/src/secrets/mod.rs L79-81. -/
def rest (fields : List Str) (m : List (Str × Tree)) : List (Str × Tree) := m.filter (fun p => !fields.contains p.1)

/-- `Serialize for VerificationMaterial` and `SecretMaterial` — /repo/src/did/did_doc.rs L53-65 and
/repo/src/secrets/mod.rs L96-108. -/
def Material.members (names : MaterialNames) : Material → List (Str × Value)
  | .jwk v => [(names.jwk, v)]
  | .multibase s => [(names.multibase, .str s)]
  | .base58 s => [(names.base58, .str s)]

/-! ## Documents -/

/-- `Deserialize for VerificationMethod` — /repo/src/did/did_doc.rs L30-40. -/
def dVerificationMethod (f64 : Str → Option Str) (n : Nat) (t : Tree) : Option VerificationMethod := do
  let m ← asMap n t
  let id ← reqField m b!"id" dStr
  let type_ ← reqField m b!"type" (dUnit vmTypeNames (n - 1))
  let controller ← reqField m b!"controller" dStr
  let r := rest [b!"id", b!"type", b!"controller"] m
  if buffered f64 (n - 1) r = false then none else
  let material ← dMaterial f64 publicNames (n - 1) r
  some ⟨id, type_, controller, material⟩

/-- `Serialize for VerificationMethod` — /repo/src/did/did_doc.rs L30-40. -/
def VerificationMethod.toJson (v : VerificationMethod) : Value :=
  .obj ([(b!"id", .str v.id), (b!"type", .str v.type_.name), (b!"controller", .str v.controller)]
    ++ v.material.members publicNames)

/-- A field with a default.  Part of the code `serde` derives for `#[serde(default)]`, for example
/repo/src/did/did_doc.rs L101-102. -/
def defField {α : Type} (m : List (Str × Tree)) (name : Str) (dflt : α) (d : Tree → Option α) : Option α := do
  let t ← field m name
  match t with
  | none => some dflt
  | some t => d t

/-- `Deserialize for DIDCommMessagingService` (flattened) — /repo/src/did/did_doc.rs L79-82, L90-103. -/
def dMessagingService (n : Nat) (t : Tree) : Option DIDCommMessagingService := do
  let m ← asMap n t
  let uri ← reqField m b!"uri" dStr
  let accept ← optField m b!"accept" (dVec (fun _ => dStr) (n - 1))
  let routingKeys ← defField m b!"routingKeys" [] (dVec (fun _ => dStr) (n - 1))
  some ⟨uri, accept, routingKeys⟩

/-- The content of a service with a given `type` — /repo/src/did/did_doc.rs L76-88; a flattened `Value` is an object. -/
def dServiceKind (f64 : Str → Option Str) (n : Nat) (tag : Str) (t : Tree) : Option ServiceKind :=
  if tag = b!"DIDCommMessaging" then (dMessagingService n t).map .didCommMessaging
  else if tag = b!"Other" then do
    let _ ← asMap n t
    let v ← toValue f64 n t
    some (.other v)
  else none

/-- `Deserialize for Service` — /repo/src/did/did_doc.rs L67-88: `id`, and the flattened, adjacently tagged kind. -/
def dService (f64 : Str → Option Str) (n : Nat) (t : Tree) : Option Service := do
  let m ← asMap n t
  let id ← reqField m b!"id" dStr
  if buffered f64 (n - 1) (rest [b!"id"] m) = false then none else
  let tag ← reqField m b!"type" dStr
  let kind ← reqField m b!"serviceEndpoint" (dServiceKind f64 (n - 1) tag)
  some ⟨id, kind⟩

/-- `Serialize for DIDCommMessagingService` — /repo/src/did/did_doc.rs L90-103. -/
def DIDCommMessagingService.toJson (s : DIDCommMessagingService) : Value :=
  .obj ([(b!"uri", .str s.uri)] ++ optMember b!"accept" (fun l => .arr (l.map .str)) s.accept
    ++ [(b!"routingKeys", .arr (s.routingKeys.map .str))])

/-- `Serialize for Service` — /repo/src/did/did_doc.rs L67-88.  Only an object can be flattened, so writing a service of
another kind whose value is not an object fails (`none`). -/
def Service.toJson (s : Service) : Option Value :=
  match s.endpoint with
  | .didCommMessaging v =>
    some (.obj [(b!"id", .str s.id), (b!"type", .str b!"DIDCommMessaging"), (b!"serviceEndpoint", v.toJson)])
  | .other (.obj m) => some (.obj [(b!"id", .str s.id), (b!"type", .str b!"Other"), (b!"serviceEndpoint", .obj m)])
  | .other _ => none

/-- Write every service, or fail.  /repo/src/did/did_doc.rs L27. -/
def servicesJson : List Service → Option (List Value)
  | [] => some []
  | s :: r => do
    let v ← s.toJson
    let l ← servicesJson r
    some (v :: l)

/-- `Deserialize for DIDDoc` — /repo/src/did/did_doc.rs L6-28. -/
def dDIDDoc (f64 : Str → Option Str) (n : Nat) (t : Tree) : Option DIDDoc := do
  let m ← asStruct [b!"id", b!"keyAgreement", b!"authentication", b!"verificationMethod", b!"service"] n t
  let id ← reqField m b!"id" dStr
  let keyAgreement ← reqField m b!"keyAgreement" (dVec (fun _ => dStr) (n - 1))
  let authentication ← reqField m b!"authentication" (dVec (fun _ => dStr) (n - 1))
  let verificationMethod ← reqField m b!"verificationMethod" (dVec (dVerificationMethod f64) (n - 1))
  let service ← reqField m b!"service" (dVec (dService f64) (n - 1))
  some ⟨id, keyAgreement, authentication, verificationMethod, service⟩

/-- `Serialize for DIDDoc` — /repo/src/did/did_doc.rs L6-28. -/
def DIDDoc.toJson (d : DIDDoc) : Option Value := do
  let services ← servicesJson d.service
  some (.obj [(b!"id", .str d.id), (b!"keyAgreement", .arr (d.keyAgreement.map .str)),
    (b!"authentication", .arr (d.authentication.map .str)),
    (b!"verificationMethod", .arr (d.verificationMethod.map VerificationMethod.toJson)), (b!"service", .arr services)])

/-! ## Secrets -/

/-- `Deserialize for Secret` — /repo/src/secrets/mod.rs L69-82. -/
def dSecret (f64 : Str → Option Str) (n : Nat) (t : Tree) : Option Secret := do
  let m ← asMap n t
  let id ← reqField m b!"id" dStr
  let type_ ← reqField m b!"type" (dUnit vmTypeNames (n - 1))
  let r := rest [b!"id", b!"type"] m
  if buffered f64 (n - 1) r = false then none else
  let material ← dMaterial f64 privateNames (n - 1) r
  some ⟨id, type_, material⟩

/-- `Serialize for Secret` — /repo/src/secrets/mod.rs L69-82. -/
def Secret.toJson (s : Secret) : Value :=
  .obj ([(b!"id", .str s.id), (b!"type", .str s.type_.name)] ++ s.material.members privateNames)

/-! ## Options -/

/-- `bool`.  Part of the code `serde` derives for /repo/src/message/unpack/mod.rs L158-169. -/
def dBool : Tree → Option Bool
  | .bool b => some b
  | _ => none

/-- A derived struct some of whose last fields have defaults: a map, or a sequence of at least `least` of its fields.
Part of the code `serde` derives for /repo/src/message/unpack/mod.rs L158-169 and
/repo/src/message/pack_encrypted/mod.rs L203-231. -/
def asStructFrom (least : Nat) (names : List Str) (n : Nat) : Tree → Option (List (Str × Tree))
  | .obj m => if n ≤ 1 then none else decKeys m
  | .arr l =>
    if n ≤ 1 then none else if least ≤ l.length ∧ l.length ≤ names.length then some (names.zip l) else none
  | _ => none

/-- `Deserialize for UnpackOptions` — /repo/src/message/unpack/mod.rs L158-169. -/
def dUnpackOptions (n : Nat) (t : Tree) : Option UnpackOptions := do
  let m ← asStructFrom 0 [b!"expect_decrypt_by_all_keys", b!"unwrap_re_wrapping_forward"] n t
  let e ← defField m b!"expect_decrypt_by_all_keys" false dBool
  let u ← defField m b!"unwrap_re_wrapping_forward" false dBool
  some ⟨e, u⟩

/-- Insert every member into a `HashMap`; a later one replaces an earlier one.  Part of the code `serde` derives for
/repo/src/message/pack_encrypted/mod.rs L216. -/
def toHashMap (f64 : Str → Option Str) (n : Nat) : List (Str × Tree) → List (Str × Value) → Option (List (Str × Value))
  | [], acc => some acc
  | (k, t) :: r, acc => do
    let v ← toValue f64 n t
    toHashMap f64 n r (hmInsert k v acc)

/-- `HashMap<String, Value>` — /repo/src/message/pack_encrypted/mod.rs L216 and
/repo/wasm/src/message/protocols/routing/mod.rs L46-49. -/
def dHeaders (f64 : Str → Option Str) (n : Nat) (t : Tree) : Option (List (Str × Value)) := do
  let m ← asMap n t
  toHashMap f64 (n - 1) m []

/-- `Deserialize for PackEncryptedOptions` — /repo/src/message/pack_encrypted/mod.rs L203-231. -/
def dPackOptions (f64 : Str → Option Str) (n : Nat) (t : Tree) : Option PackEncryptedOptions := do
  let m ← asStructFrom 4 [b!"protect_sender", b!"forward", b!"forward_headers", b!"messaging_service", b!"enc_alg_auth",
    b!"enc_alg_anon"] n t
  let p ← defField m b!"protect_sender" false dBool
  let f ← defField m b!"forward" true dBool
  let h ← optField m b!"forward_headers" (dHeaders f64 (n - 1))
  let s ← optField m b!"messaging_service" dStr
  let a ← defField m b!"enc_alg_auth" .a256cbcHs512Ecdh1puA256kw (dUnit authAlgNames (n - 1))
  let e ← defField m b!"enc_alg_anon" .xc20pEcdhEsA256kw (dUnit anonAlgNames (n - 1))
  some ⟨p, f, h, s, a, e⟩

/-! ## Metadata -/

/-- An `Option` written without `skip_serializing_if`.  Part of the code `serde` derives for
/repo/src/message/unpack/mod.rs L182-225 and /repo/src/message/pack_encrypted/mod.rs L248-262. -/
def orNull {α : Type} (f : α → Value) : Option α → Value
  | none => .null
  | some a => f a

/-- `Serialize for UnpackMetadata` — /repo/src/message/unpack/mod.rs L182-225. -/
def UnpackMetadata.toJson (m : UnpackMetadata) : Value :=
  .obj [(b!"encrypted", .bool m.encrypted), (b!"authenticated", .bool m.authenticated),
    (b!"non_repudiation", .bool m.nonRepudiation), (b!"anonymous_sender", .bool m.anonymousSender),
    (b!"re_wrapped_in_forward", .bool m.reWrappedInForward),
    (b!"encrypted_from_kid", orNull .str m.encryptedFromKid),
    (b!"encrypted_to_kids", orNull (fun l => .arr (l.map .str)) m.encryptedToKids),
    (b!"sign_from", orNull .str m.signFrom), (b!"from_prior_issuer_kid", orNull .str m.fromPriorIssuerKid),
    (b!"enc_alg_auth", orNull (fun a => .str (AuthCryptAlg.name a)) m.encAlgAuth),
    (b!"enc_alg_anon", orNull (fun a => .str (AnonCryptAlg.name a)) m.encAlgAnon),
    (b!"sign_alg", orNull (fun a => .str (SignAlg.name a)) m.signAlg),
    (b!"signed_message", orNull .str m.signedMessage), (b!"from_prior", orNull FromPrior.toJson m.fromPrior)]

/-- `Serialize for MessagingServiceMetadata` — /repo/src/message/pack_encrypted/mod.rs L266-273. -/
def MessagingServiceMetadata.toJson (m : MessagingServiceMetadata) : Value :=
  .obj [(b!"id", .str m.id), (b!"service_endpoint", .str m.serviceEndpoint)]

/-- `Serialize for PackEncryptedMetadata` — /repo/src/message/pack_encrypted/mod.rs L248-262. -/
def PackEncryptedMetadata.toJson (m : PackEncryptedMetadata) : Value :=
  .obj [(b!"messaging_service", orNull MessagingServiceMetadata.toJson m.messagingService),
    (b!"from_kid", orNull .str m.fromKid), (b!"sign_by_kid", orNull .str m.signByKid),
    (b!"to_kids", .arr (m.toKids.map .str))]

/-! ## The JavaScript boundary -/

/-- `serde_json::from_str` for a document, secret or options type: /repo/wasm/src/did/did_resolver.rs L59-63,
/repo/wasm/src/secrets/secrets_resolver.rs L88-92, /repo/wasm/src/message/pack_encrypted.rs L30-33,
/repo/wasm/src/message/unpack.rs L31-34.  Whether a text that ends too early is refused before its end is not told apart: all
callers overwrite the kind of every error. -/
abbrev readDoc {α : Type} (d : Nat → Tree → Option α) (text : Str) : Res α := @fromJson α d ⟨fun _ _ => false⟩ text

/-- `value.into_serde().kind(k, ..)` on the JSON text of the value — /repo/wasm/src/did/did_resolver.rs L59-63,
/repo/wasm/src/secrets/secrets_resolver.rs L88-92, /repo/wasm/src/message/pack_encrypted.rs L30-33,
/repo/wasm/src/message/unpack.rs L31-34. -/
def intoSerde {α : Type} (k : ErrorKind) (d : Nat → Tree → Option α) (text : Str) : Res α := withKind k (readDoc d text)

/-- `Option<T>` as a whole value: `null` is `None`.  /repo/wasm/src/did/did_resolver.rs L59 and
/repo/wasm/src/secrets/secrets_resolver.rs L88. -/
def dOptTop {α : Type} (d : Nat → Tree → Option α) (n : Nat) (t : Tree) : Option (Option α) := dOpt (d n) t

/-- What `JsDIDResolver::resolve` hands to the core when the JavaScript resolver returned a value with this JSON text —
/repo/wasm/src/did/did_resolver.rs L51-66. -/
def wasmDoc (f64 : Str → Option Str) (text : Str) : Res (Option DIDDoc) := intoSerde .invalidState (dOptTop (dDIDDoc f64)) text

/-- The same for `JsSecretsResolver::get_secret` — /repo/wasm/src/secrets/secrets_resolver.rs L80-95. -/
def wasmSecret (f64 : Str → Option Str) (text : Str) : Res (Option Secret) := intoSerde .invalidState (dOptTop (dSecret f64)) text

/-- `Message.unpack` of the JavaScript API: the options are read first — /repo/wasm/src/message/unpack.rs L18-54. -/
def wasmUnpack (C : Crypto) (msg optsText : Str) : Prog (Message × Value) := do
  let opts ← Prog.lift (intoSerde .malformed dUnpackOptions optsText)
  let (m, md) ← unpack C msg opts
  Prog.lift (.ok (m, md.toJson))

/-- `Message.pack_encrypted` of the JavaScript API: the options are read first —
/repo/wasm/src/message/pack_encrypted.rs L16-62. -/
def wasmPackEncrypted (C : Crypto) (m : Message) (to : Str) (from_ signBy : Option Str) (optsText : Str) :
    Prog (Str × Value) := do
  let opts ← Prog.lift (intoSerde .malformed (dPackOptions C.f64) optsText)
  let (text, md) ← packEncrypted C m to from_ signBy opts
  Prog.lift (.ok (text, md.toJson))

/-- `Message.wrap_in_forward` of the JavaScript API: headers, routing keys and algorithm are read first —
/repo/wasm/src/message/protocols/routing/mod.rs L32-75. -/
def wasmWrapInForward (C : Crypto) (msg headersText to keysText algText : Str) : Prog Str := do
  let headers ← Prog.lift (intoSerde .malformed (dHeaders C.f64) headersText)
  let keys ← Prog.lift (intoSerde .malformed (dVec (fun _ => dStr)) keysText)
  let alg ← Prog.lift (intoSerde .malformed (dUnit anonAlgNames) algText)
  wrapInForward C msg (some headers) to keys alg

end DIDComm
