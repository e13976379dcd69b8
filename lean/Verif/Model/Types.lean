import Verif.Model.Json

/-! # The data types of the library -/

set_option autoImplicit false

namespace DIDComm

/-! ## Message, attachments, FromPrior -/

/-- `AttachmentData` and its three payload structs —
/repo/src/message/attachment.rs L162-211. -/
inductive AttachmentData
  | base64 (base64 : Str) (jws : Option Str)
  | json (json : Value) (jws : Option Str)
  | links (links : List Str) (hash : Str) (jws : Option Str)
  deriving Repr

/-- `Attachment` — /repo/src/message/attachment.rs L4-47. -/
structure Attachment where
  data : AttachmentData
  id : Option Str := none
  description : Option Str := none
  filename : Option Str := none
  mediaType : Option Str := none
  format : Option Str := none
  lastmodTime : Option UInt64 := none
  byteCount : Option UInt64 := none
  deriving Repr

/-- `const PLAINTEXT_TYP` — /repo/src/message/message.rs L77. -/
def plaintextTyp : Str := b!"application/didcomm-plain+json"

/-- `Message` — /repo/src/message/message.rs L9-75.  `extra_headers` is a `HashMap`;
the model keeps it as an association list and iterates in list order. -/
structure Message where
  id : Str
  typ : Str := plaintextTyp
  type_ : Str
  body : Value
  from_ : Option Str := none
  to : Option (List Str) := none
  thid : Option Str := none
  pthid : Option Str := none
  extraHeaders : List (Str × Value) := []
  createdTime : Option UInt64 := none
  expiresTime : Option UInt64 := none
  fromPrior : Option Str := none
  attachments : Option (List Attachment) := none
  deriving Repr

/-- `FromPrior` — /repo/src/message/from_prior/mod.rs L6-28. -/
structure FromPrior where
  iss : Str
  sub : Str
  aud : Option Str := none
  exp : Option UInt64 := none
  nbf : Option UInt64 := none
  iat : Option UInt64 := none
  jti : Option Str := none
  deriving DecidableEq, Repr

/-! ## JWS envelope -/

/-- `jws::Algorithm` — /repo/src/jws/envelope.rs L67-82. -/
inductive JwsAlg
  | edDSA | es256 | es256k | other (s : Str)
  deriving DecidableEq, Repr

/-- The serde names of `jws::Algorithm` — /repo/src/jws/envelope.rs L67-82. -/
def JwsAlg.asStr : JwsAlg → Str
  | .edDSA => b!"EdDSA"
  | .es256 => b!"ES256"
  | .es256k => b!"ES256K"
  | .other s => s

/-- `Deserialize_enum_str` for `jws::Algorithm` — /repo/src/jws/envelope.rs L67-82. -/
def JwsAlg.ofStr (s : Str) : JwsAlg :=
  if s = b!"EdDSA" then .edDSA
  else if s = b!"ES256" then .es256
  else if s = b!"ES256K" then .es256k
  else .other s

/-- `Signature` with its `Header { kid }` inlined — /repo/src/jws/envelope.rs L18-33 and L47-52. -/
structure JwsSig where
  kid : Str
  protected_ : Str
  signature : Str
  deriving DecidableEq, Repr

/-- `JWS` — /repo/src/jws/envelope.rs L8-16. -/
structure JWS where
  signatures : List JwsSig
  payload : Str
  deriving DecidableEq, Repr

/-- `jws::ProtectedHeader` — /repo/src/jws/envelope.rs L35-45. -/
structure JwsHeader where
  typ : Str
  alg : JwsAlg
  deriving DecidableEq, Repr

/-- `CompactHeader` — /repo/src/jws/envelope.rs L54-65. -/
structure CompactHeader where
  typ : Str
  alg : JwsAlg
  kid : Str
  deriving DecidableEq, Repr

/-! ## JWE envelope -/

/-- `jwe::Algorithm` — /repo/src/jwe/envelope.rs L77-89. -/
inductive JweAlg
  | ecdh1pu | ecdhEs | other (s : Str)
  deriving DecidableEq, Repr

/-- `Algorithm::as_str` — /repo/src/jwe/envelope.rs L91-99. -/
def JweAlg.asStr : JweAlg → Str
  | .ecdh1pu => b!"ECDH-1PU+A256KW"
  | .ecdhEs => b!"ECDH-ES+A256KW"
  | .other s => s

/-- `Deserialize_enum_str` for `jwe::Algorithm` — /repo/src/jwe/envelope.rs L77-89. -/
def JweAlg.ofStr (s : Str) : JweAlg :=
  if s = b!"ECDH-1PU+A256KW" then .ecdh1pu
  else if s = b!"ECDH-ES+A256KW" then .ecdhEs
  else .other s

/-- `jwe::EncAlgorithm` — /repo/src/jwe/envelope.rs L101-117. -/
inductive EncAlg
  | a256cbcHs512 | xc20p | a256gcm | other (s : Str)
  deriving DecidableEq, Repr

/-- The serde names of `jwe::EncAlgorithm` — /repo/src/jwe/envelope.rs L101-117. -/
def EncAlg.asStr : EncAlg → Str
  | .a256cbcHs512 => b!"A256CBC-HS512"
  | .xc20p => b!"XC20P"
  | .a256gcm => b!"A256GCM"
  | .other s => s

/-- `Deserialize_enum_str` for `jwe::EncAlgorithm` — /repo/src/jwe/envelope.rs L101-117. -/
def EncAlg.ofStr (s : Str) : EncAlg :=
  if s = b!"A256CBC-HS512" then .a256cbcHs512
  else if s = b!"XC20P" then .xc20p
  else if s = b!"A256GCM" then .a256gcm
  else .other s

/-- `jwe::ProtectedHeader` — /repo/src/jwe/envelope.rs L27-58. -/
structure JweHeader where
  typ : Option Str
  alg : JweAlg
  enc : EncAlg
  skid : Option Str
  apu : Option Str
  apv : Str
  epk : Value
  deriving Repr

/-- `Recipient` with its `PerRecipientHeader { kid }` inlined —
/repo/src/jwe/envelope.rs L59-75. -/
structure JweRecipient where
  kid : Str
  encryptedKey : Str
  deriving DecidableEq, Repr

/-- `JWE` — /repo/src/jwe/envelope.rs L6-25. -/
structure JWE where
  protected_ : Str
  recipients : List JweRecipient
  iv : Str
  ciphertext : Str
  tag : Str
  deriving DecidableEq, Repr

/-! ## Algorithms named in the public API -/

/-- `AnonCryptAlg` — /repo/src/algorithms.rs L3-23. -/
inductive AnonCryptAlg
  | a256cbcHs512EcdhEsA256kw | xc20pEcdhEsA256kw | a256gcmEcdhEsA256kw
  deriving DecidableEq, Repr

/-- `AuthCryptAlg` — /repo/src/algorithms.rs L25-36. -/
inductive AuthCryptAlg
  | a256cbcHs512Ecdh1puA256kw
  deriving DecidableEq, Repr

/-- `SignAlg` — /repo/src/algorithms.rs L38-43. -/
inductive SignAlg
  | edDSA | es256 | es256k
  deriving DecidableEq, Repr

/-! ## DID documents and secrets -/

/-- `VerificationMethodType` — /repo/src/did/did_doc.rs L42-51. -/
inductive VmType
  | jsonWebKey2020 | x25519KeyAgreementKey2019 | ed25519VerificationKey2018
  | ecdsaSecp256k1VerificationKey2019 | x25519KeyAgreementKey2020
  | ed25519VerificationKey2020 | other
  deriving DecidableEq, Repr

/-- `VerificationMaterial` / `SecretMaterial` — /repo/src/did/did_doc.rs L53-65 and
/repo/src/secrets/mod.rs L96-108. -/
inductive Material
  | jwk (v : Value)
  | multibase (s : Str)
  | base58 (s : Str)
  deriving Repr

/-- `VerificationMethod` — /repo/src/did/did_doc.rs L30-40. -/
structure VerificationMethod where
  id : Str
  type_ : VmType
  controller : Str
  material : Material
  deriving Repr

/-- `DIDCommMessagingService` — /repo/src/did/did_doc.rs L90-103. -/
structure DIDCommMessagingService where
  uri : Str
  accept : Option (List Str)
  routingKeys : List Str
  deriving DecidableEq, Repr

/-- `ServiceKind` — /repo/src/did/did_doc.rs L76-88. -/
inductive ServiceKind
  | didCommMessaging (value : DIDCommMessagingService)
  | other (value : Value)
  deriving Repr

/-- `Service` — /repo/src/did/did_doc.rs L67-74. -/
structure Service where
  id : Str
  endpoint : ServiceKind
  deriving Repr

/-- `DIDDoc` — /repo/src/did/did_doc.rs L6-28. -/
structure DIDDoc where
  id : Str
  keyAgreement : List Str
  authentication : List Str
  verificationMethod : List VerificationMethod
  service : List Service
  deriving Repr

/-- `Secret` — /repo/src/secrets/mod.rs L69-82.  `SecretType` (L84-94) has the same
constructors as `VerificationMethodType`, so `VmType` is reused. -/
structure Secret where
  id : Str
  type_ : VmType
  material : Material
  deriving Repr

end DIDComm
