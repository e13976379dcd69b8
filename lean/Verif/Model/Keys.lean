import Verif.Model.Codec
import Verif.Model.Crypto
import Verif.Model.Base64

/-! # Key material — /repo/src/utils/did.rs L32-484, /repo/src/utils/crypto.rs L115-179 -/

set_option autoImplicit false

namespace DIDComm

/-- `value[key].as_str()`: `None` unless the value is an object whose member is a string.  Used
at /repo/src/utils/did.rs L40, L82, L256, L298 and /repo/src/protocols/routing/mod.rs L180-186.
-/
def Value.getStr (v : Value) (key : Str) : Option Str :=
  match v with
  | .obj m => match m.find? (fun p => p.1 == key) with
    | some (_, .str s) => some s
    | _ => none
  | _ => none

/-- The `kty`/`crv` table — /repo/src/utils/did.rs L40-46, L82-107, L256-262, L298-323. -/
def jwkCurve (v : Value) : Option Curve :=
  match v.getStr b!"kty", v.getStr b!"crv" with
  | some kty, some crv =>
    if kty = b!"EC" ∧ crv = b!"P-256" then some .p256
    else if kty = b!"EC" ∧ crv = b!"secp256k1" then some .k256
    else if kty = b!"OKP" ∧ crv = b!"Ed25519" then some .ed25519
    else if kty = b!"OKP" ∧ crv = b!"X25519" then some .x25519
    else none
  | _, _ => none

/-- `key_alg` of a verification method (L33-73) and of a secret (L249-289); the two
tables are the same.  `none` is `KnownKeyAlg::Unsupported`.  /repo/src/utils/did.rs L33-73 and
L249-289. -/
def keyAlg (t : VmType) (m : Material) : Option Curve :=
  match t, m with
  | .jsonWebKey2020, .jwk v => jwkCurve v
  | .x25519KeyAgreementKey2019, .base58 _ => some .x25519
  | .ed25519VerificationKey2018, .base58 _ => some .ed25519
  | .x25519KeyAgreementKey2020, .multibase _ => some .x25519
  | .ed25519VerificationKey2020, .multibase _ => some .ed25519
  | _, _ => none

/-- `VerificationMethod::key_alg` — /repo/src/utils/did.rs L33-73. -/
def VerificationMethod.keyAlg (v : VerificationMethod) : Option Curve :=
  DIDComm.keyAlg v.type_ v.material

/-- `Secret::key_alg` — /repo/src/utils/did.rs L249-289. -/
def Secret.keyAlg (s : Secret) : Option Curve := DIDComm.keyAlg s.type_ s.material

/-- `KnownKeyPair` — /repo/src/utils/crypto.rs L124-130. -/
structure KeyPair (C : Crypto) where
  curve : Curve
  key : C.Key

/-- The JWK name of the two OKP curves.  /repo/src/utils/did.rs L121-125, L147-151, L187-191,
L227-231. -/
def okpName : Curve → Str
  | .ed25519 => b!"Ed25519"
  | _ => b!"X25519"

/-- `json!({"kty": "OKP", "crv": .., "x": base64(x)})`; `json!` objects are `BTreeMap`s,
hence sorted — /repo/src/utils/did.rs L121-125, L147-151, L187-191, L227-231. -/
def okpPublicJwk (c : Curve) (x : Bytes) : Value :=
  .obj [(b!"crv", .str (okpName c)), (b!"kty", .str b!"OKP"), (b!"x", .str (B64.encode x))]

/-- `json!({"kty": "OKP", "crv": .., "x": .., "d": ..})` —
/repo/src/utils/did.rs L338-351, L373-377, L411-424, L463-468. -/
def okpSecretJwk (c : Curve) (x : Bytes) (d : Option Bytes) : Value :=
  .obj ([(b!"crv", .str (okpName c))]
    ++ (match d with | some d => [(b!"d", .str (B64.encode d))] | none => [])
    ++ [(b!"kty", .str b!"OKP"), (b!"x", .str (B64.encode x))])

/-- `from_jwk_value(..).kind(Malformed, ..).map(KnownKeyPair::..)` —
/repo/src/jwk.rs L10-18. -/
def pairFromJwk (C : Crypto) (c : Curve) (v : Value) : Res (KeyPair C) := do
  let k ← okOr .malformed (C.fromJwk c v)
  .ok ⟨c, k⟩

/-- `bs58::decode(..).into_vec().to_didcomm(..)` — /repo/src/error.rs L150-157, L177-186; an
invalid symbol is `Malformed`. -/
def bs58 (s : Str) : Res Bytes := okOr .malformed (b58Decode s)

/-- The multibase prefix check and multicodec decoding —
/repo/src/utils/did.rs L167-183, L207-223, L390-406, L440-456. -/
def fromMultibase (want : Codec) (s : Str) : Res Bytes :=
  match s with
  | 0x7A :: r => do
    let d ← bs58 r
    let (codec, v) ← fromMulticodec d
    if codec ≠ want then fail .illegalArgument else .ok v
  | _ => fail .illegalArgument

/-- `VerificationMethod::as_key_pair` — /repo/src/utils/did.rs L75-245. -/
def VerificationMethod.asKeyPair (C : Crypto) (v : VerificationMethod) : Res (KeyPair C) :=
  match v.type_, v.material with
  | .jsonWebKey2020, .jwk j =>
    match jwkCurve j with
    | some c => pairFromJwk C c j
    | none => fail .unsupported
  | .x25519KeyAgreementKey2019, .base58 s => do
    let x ← bs58 s
    pairFromJwk C .x25519 (okpPublicJwk .x25519 x)
  | .ed25519VerificationKey2018, .base58 s => do
    let x ← bs58 s
    pairFromJwk C .ed25519 (okpPublicJwk .ed25519 x)
  | .x25519KeyAgreementKey2020, .multibase s => do
    let x ← fromMultibase .x25519Pub s
    pairFromJwk C .x25519 (okpPublicJwk .x25519 x)
  | .ed25519VerificationKey2020, .multibase s => do
    let x ← fromMultibase .ed25519Pub s
    pairFromJwk C .ed25519 (okpPublicJwk .ed25519 x)
  | _, _ => fail .unsupported

/-- An X25519 secret from raw bytes, by way of a JWK —
/repo/src/utils/did.rs L335-355 and L408-431. -/
def x25519Secret (C : Crypto) (d : Bytes) : Res (KeyPair C) := do
  let k ← okOr .malformed (C.x25519FromSecret d)
  pairFromJwk C .x25519 (okpSecretJwk .x25519 (C.publicBytes k) (C.secretBytes k))

/-- An Ed25519 secret from `d ‖ x`; `split_at(32)` panics on fewer than 32 bytes —
/repo/src/utils/did.rs L368-381 and L458-475. -/
def ed25519Secret (C : Crypto) (b : Bytes) : Res (KeyPair C) :=
  if b.length < 32 then .error .panic
  else pairFromJwk C .ed25519 (okpSecretJwk .ed25519 (b.drop 32) (some (b.take 32)))

/-- `Secret::as_key_pair` — /repo/src/utils/did.rs L291-483. -/
def Secret.asKeyPair (C : Crypto) (s : Secret) : Res (KeyPair C) :=
  match s.type_, s.material with
  | .jsonWebKey2020, .jwk j =>
    match jwkCurve j with
    | some c => pairFromJwk C c j
    | none => fail .unsupported
  | .x25519KeyAgreementKey2019, .base58 t => do
    let d ← bs58 t
    x25519Secret C d
  | .ed25519VerificationKey2018, .base58 t => do
    let b ← bs58 t
    ed25519Secret C b
  | .x25519KeyAgreementKey2020, .multibase t => do
    let d ← fromMultibase .x25519Priv t
    x25519Secret C d
  | .ed25519VerificationKey2020, .multibase t => do
    let b ← fromMultibase .ed25519Priv t
    ed25519Secret C b
  | _, _ => fail .unsupported

/-- `as_ed25519`, `as_x25519`, `as_p256`, `as_k256` — /repo/src/utils/crypto.rs
L136-178: the announced type must be the wanted one, and so must the pair. -/
def asCurve {C : Crypto} (want : Curve) (alg : Option Curve) (pair : Res (KeyPair C)) : Res C.Key :=
  if alg ≠ some want then fail .invalidState
  else do
    let p ← pair
    if p.curve = want then .ok p.key else fail .invalidState

/-- `as_..` of a verification method.  /repo/src/utils/crypto.rs L132-178. -/
def VerificationMethod.as (C : Crypto) (want : Curve) (v : VerificationMethod) : Res C.Key :=
  asCurve want v.keyAlg (v.asKeyPair C)

/-- `as_..` of a secret.  /repo/src/utils/crypto.rs L132-178. -/
def Secret.as (C : Crypto) (want : Curve) (s : Secret) : Res C.Key :=
  asCurve want s.keyAlg (s.asKeyPair C)

end DIDComm
