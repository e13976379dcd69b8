import Verif.Model.Pool
import Verif.Model.JsSystem

/-!
# The calls of the two bindings — /repo/uniffi/src/didcomm, /repo/wasm/src/message

Each call moves copies of its arguments into a future that runs one operation of the core and hands the result on.
-/

set_option autoImplicit false

namespace DIDComm

/-! ## uniffi -/

/-- `DIDComm::pack_plaintext` — /repo/uniffi/src/didcomm/pack_plaintext.rs L14-28. -/
def uniffiPackPlaintext (C : Crypto) (m : Message) : PoolAct := .start (packPlaintext C m)

/-- `DIDComm::pack_signed` — /repo/uniffi/src/didcomm/pack_signed.rs L15-38.  The metadata is its one field. -/
def uniffiPackSigned (C : Crypto) (m : Message) (signBy : Str) : PoolAct := .start (packSigned C m signBy)

/-- `DIDComm::pack_encrypted` — /repo/uniffi/src/didcomm/pack_encrypted.rs L15-48. -/
def uniffiPackEncrypted (C : Crypto) (m : Message) (to : Str) (from_ signBy : Option Str) (opts : PackEncryptedOptions) : PoolAct :=
  .start (packEncrypted C m to from_ signBy opts)

/-- `DIDComm::unpack` — /repo/uniffi/src/didcomm/unpack.rs L14-35. -/
def uniffiUnpack (C : Crypto) (msg : Str) (opts : UnpackOptions) : PoolAct := .start (unpack C msg opts)

/-- `DIDComm::pack_from_prior` — /repo/uniffi/src/didcomm/from_prior.rs L20-42. -/
def uniffiPackFromPrior (C : Crypto) (f : FromPrior) (issuerKid : Option Str) : PoolAct := .start (f.pack C issuerKid)

/-- `DIDComm::unpack_from_prior` — /repo/uniffi/src/didcomm/from_prior.rs L44-60. -/
def uniffiUnpackFromPrior (C : Crypto) (jwt : Str) : PoolAct := .start (FromPrior.unpack C jwt)

/-- `DIDComm::wrap_in_forward` — /repo/uniffi/src/didcomm/protocols/routing/mod.rs L17-51: headers are always given, as a map without
repeated names. -/
def uniffiWrapInForward (C : Crypto) (msg : Str) (headers : List (Str × Value)) (to : Str) (routingKeys : List Str) (alg : AnonCryptAlg) :
    PoolAct := .start (wrapInForward C msg (some headers) to routingKeys alg)

/-! ## JavaScript; the calls that take objects are in `Model/JsSystem` -/

/-- `message.pack_plaintext(..)` — /repo/wasm/src/message/pack_plaintext.rs L10-19. -/
def jsPackPlaintext (C : Crypto) (m : Message) : JsAct := .start [] fun _ => packPlaintext C m

/-- `message.pack_signed(sign_by, ..)` — /repo/wasm/src/message/pack_signed.rs L13-44. -/
def jsPackSigned (C : Crypto) (m : Message) (signBy : Str) : JsAct := .start [] fun _ => wasmPackSigned C m signBy

/-- `from_prior.pack(issuer_kid, ..)` — /repo/wasm/src/message/from_prior/pack.rs L12-37. -/
def jsPackFromPrior (C : Crypto) (f : FromPrior) (issuerKid : Option Str) : JsAct := .start [] fun _ => f.pack C issuerKid

/-- `FromPrior.unpack(from_prior, ..)` — /repo/wasm/src/message/from_prior/unpack.rs L11-31. -/
def jsUnpackFromPrior (C : Crypto) (jwt : Str) : JsAct := .start [] fun _ => FromPrior.unpack C jwt

end DIDComm
