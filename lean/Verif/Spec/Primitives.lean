import Verif.Model.Crypto

/-!
# Other primitives

Which primitives an operation uses is seen from what happens when the other ones are exchanged.
-/

set_option autoImplicit false

namespace DIDComm

/-- Primitives that make or open something, for keys of type `K`: everything in `Crypto` but the reading of key material, the
hash and the reading of numbers. -/
structure Primitives (K : Type) where
  toJwkPublic : Curve → K → Option Value
  genKey : Curve → Nat → Option K
  genCek : ContentEnc → Nat → Option Bytes
  genNonce : ContentEnc → Nat → Bytes
  sign : Curve → K → Bytes → SigType → Option Bytes
  verify : Curve → K → Bytes → Bytes → SigType → Option Bool
  ecdhEs : Curve → K → K → Bytes → Bytes → Bytes → Bool → Option Bytes
  ecdh1pu : Curve → K → K → K → Bytes → Bytes → Bytes → Bytes → Bool → Option Bytes
  wrap : Bytes → Bytes → Option Bytes
  unwrap : ContentEnc → Bytes → Bytes → Option Bytes
  aeadEnc : ContentEnc → Bytes → Bytes → Bytes → Bytes → Option (Bytes × Bytes)
  aeadDec : ContentEnc → Bytes → Bytes → Bytes → Bytes → Option Bytes
  uuid : Nat → Str

/-- The same cryptography with other primitives. -/
@[reducible] def Crypto.replaced (C : Crypto) (P : Primitives C.Key) : Crypto where
  Key := C.Key
  fromJwk := C.fromJwk
  x25519FromSecret := C.x25519FromSecret
  publicBytes := C.publicBytes
  secretBytes := C.secretBytes
  toJwkPublic := P.toJwkPublic
  genKey := P.genKey
  genCek := P.genCek
  genNonce := P.genNonce
  sign := P.sign
  verify := P.verify
  ecdhEs := P.ecdhEs
  ecdh1pu := P.ecdh1pu
  wrap := P.wrap
  unwrap := P.unwrap
  aeadEnc := P.aeadEnc
  aeadDec := P.aeadDec
  sha256 := C.sha256
  uuid := P.uuid
  f64 := C.f64

/-- The primitives that open envelopes are the same. -/
structure SameOpening (C : Crypto) (P : Primitives C.Key) : Prop where
  derives : ∀ c e r alg apu apv, P.ecdhEs c e r alg apu apv true = C.ecdhEs c e r alg apu apv true
  derives1pu : ∀ c e s r alg apu apv tag, P.ecdh1pu c e s r alg apu apv tag true = C.ecdh1pu c e s r alg apu apv tag true
  unwraps : P.unwrap = C.unwrap
  decrypts : P.aeadDec = C.aeadDec

/-- The primitives that make anonymous envelopes are the same. -/
structure SameMaking (C : Crypto) (P : Primitives C.Key) : Prop where
  prints : P.toJwkPublic = C.toJwkPublic
  key : P.genKey = C.genKey
  cek : P.genCek = C.genCek
  nonce : P.genNonce = C.genNonce
  derives : ∀ c e r alg apu apv, P.ecdhEs c e r alg apu apv false = C.ecdhEs c e r alg apu apv false
  wraps : P.wrap = C.wrap
  encrypts : P.aeadEnc = C.aeadEnc

/-- The derivation of keys for envelopes of a named sender is the same. -/
def SameSending (C : Crypto) (P : Primitives C.Key) : Prop :=
  ∀ c e s r alg apu apv tag, P.ecdh1pu c e s r alg apu apv tag false = C.ecdh1pu c e s r alg apu apv tag false

end DIDComm
