import Verif.Spec.History

/-! # Histories of calls: the announcements of new DIDs that calls accept -/

set_option autoImplicit false

namespace DIDComm

/-- The call, which has succeeded, has taken this text for a good `from_prior`: it packs or returns a message that carries it, or was asked
to read it. -/
def LibCall.Accepts (jwt : Str) : LibCall → Prop
  | .packPlaintext m _ => m.fromPrior = some jwt
  | .packSigned m _ _ _ => m.fromPrior = some jwt
  | .packEncrypted m _ _ _ _ _ _ => m.fromPrior = some jwt
  | .unpackPrior jwt' _ _ => jwt' = jwt
  | .unpack _ _ m _ => m.fromPrior = some jwt
  | .packPrior _ _ _ _ => False
  | .wrapInForward _ _ _ _ _ _ => False

end DIDComm
