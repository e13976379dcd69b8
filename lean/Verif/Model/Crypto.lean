import Verif.Model.Types

/-!
# Cryptographic primitives

The crates askar-crypto, sha2 and uuid are not modelled; their functions are
parameters.  `none` is a library error.  Key pairs of all curves share one type;
the curve is passed where Rust uses a type argument.
-/

set_option autoImplicit false

namespace DIDComm

/-- The key types of the library — /repo/src/utils/crypto.rs L115-130. -/
inductive Curve
  | ed25519 | x25519 | p256 | k256
  deriving DecidableEq, Repr

/-- Content-encryption key types: the type argument `CE` of /repo/src/jwe/encrypt.rs
L19-40 (`Chacha20Key<XC20P>`, `AesKey<A256Gcm>`, `AesKey<A256CbcHs512>`). -/
inductive ContentEnc
  | a256cbcHs512 | xc20p | a256gcm
  deriving DecidableEq, Repr

/-- `askar_crypto::sign::SignatureType` as far as it is used.  Chosen at
/repo/src/jws/envelope.rs L84-98. -/
inductive SigType
  | edDSA | es256 | es256k
  deriving DecidableEq, Repr

/-- The key agreement scheme: the type argument `KDF` of /repo/src/jwe/encrypt.rs L19-33;
the two instances are /repo/src/utils/crypto.rs L67-113. -/
inductive Kdf
  | ecdhEs | ecdh1pu
  deriving DecidableEq, Repr

/-- The external functions the library calls.  Called from /repo/src/jwe/encrypt.rs L19-140,
/repo/src/jwe/decrypt.rs L16-90, /repo/src/jws/sign.rs L9-98, /repo/src/jws/verify.rs L9-52,
/repo/src/jwk.rs L10-31 and /repo/src/utils/did.rs L75-483; each field names its call. -/
structure Crypto where
  /-- key pairs (of any curve), with or without a secret half -/
  Key : Type
  /-- `from_jwk` of a JWK given as JSON value (/repo/src/jwk.rs L10-18) -/
  fromJwk : Curve → Value → Option Key
  /-- `X25519KeyPair::from_secret_bytes` (/repo/src/utils/did.rs L335, L408) -/
  x25519FromSecret : Bytes → Option Key
  /-- `with_public_bytes` (/repo/src/utils/did.rs L343-345, L416-418) -/
  publicBytes : Key → Bytes
  /-- `with_secret_bytes` (/repo/src/utils/did.rs L347-351, L420-424) -/
  secretBytes : Key → Option Bytes
  /-- `to_jwk_public`, parsed (/repo/src/jwk.rs L20-31) -/
  toJwkPublic : Curve → Key → Option Value
  /-- `KE::generate(rng)` from the drawn randomness (/repo/src/jwe/encrypt.rs L46) -/
  genKey : Curve → Nat → Option Key
  /-- `CE::generate(rng)`, as secret bytes (/repo/src/jwe/encrypt.rs L38) -/
  genCek : ContentEnc → Nat → Option Bytes
  /-- `CE::random_nonce()` (/repo/src/jwe/encrypt.rs L78) -/
  genNonce : ContentEnc → Nat → Bytes
  /-- `create_signature(msg, sig_type)` (/repo/src/jws/sign.rs L38-40, L88-90) -/
  sign : Curve → Key → Bytes → SigType → Option Bytes
  /-- `verify_signature(msg, signature, sig_type)` (/repo/src/jws/verify.rs L31-33, L47-49) -/
  verify : Curve → Key → Bytes → Bytes → SigType → Option Bool
  /-- ECDH-ES key derivation: ephemeral, recipient, alg, apu, apv, receive
  (/repo/src/utils/crypto.rs L93-113) -/
  ecdhEs : Curve → Key → Key → Bytes → Bytes → Bytes → Bool → Option Bytes
  /-- ECDH-1PU key derivation: ephemeral, sender, recipient, alg, apu, apv, cc_tag, receive
  (/repo/src/utils/crypto.rs L67-91) -/
  ecdh1pu : Curve → Key → Key → Key → Bytes → Bytes → Bytes → Bytes → Bool → Option Bytes
  /-- A256KW wrapping of key bytes (`wrap_key`, /repo/src/utils/crypto.rs L19-35) -/
  wrap : Bytes → Bytes → Option Bytes
  /-- A256KW unwrapping and construction of a key of the content cipher
  (`unwrap_key`, /repo/src/utils/crypto.rs L37-47) -/
  unwrap : ContentEnc → Bytes → Bytes → Option Bytes
  /-- content encryption: key, nonce, aad, plaintext; ciphertext and tag (/repo/src/jwe/encrypt.rs L69-92) -/
  aeadEnc : ContentEnc → Bytes → Bytes → Bytes → Bytes → Option (Bytes × Bytes)
  /-- content decryption: key, nonce, aad, ciphertext followed by tag (/repo/src/jwe/decrypt.rs L78-87) -/
  aeadDec : ContentEnc → Bytes → Bytes → Bytes → Bytes → Option Bytes
  /-- SHA-256 (/repo/src/jwe/encrypt.rs L43, /repo/src/jwe/parse.rs L65) -/
  sha256 : Bytes → Bytes
  /-- `Uuid::new_v4().to_string()` (/repo/src/protocols/routing/mod.rs L133) -/
  uuid : Nat → Str
  /-- decimal text to `f64` and back to text (serde_json without `float_roundtrip`) -/
  f64 : Str → Option Str

end DIDComm
