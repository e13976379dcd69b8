import Verif.Spec.Authentic
import Verif.Spec.Env
import Verif.Model.FromPrior

/-! # Who issued claims of a prior DID -/

set_option autoImplicit false

namespace DIDComm

/-- A packing of prior-DID claims that has succeeded: what was packed, and the key id it reported, by an application with the
environment `env`. -/
structure IssueRun (C : Crypto) where
  env : Env
  claims : FromPrior
  issuerKid : Option Str
  trace : List Event
  jwt : Str
  kid : Str
  answers : Answers env trace
  run : Runs (claims.pack C issuerKid) trace (.ok (jwt, kid))

/-- Ideal signatures of an owner who uses the key with this library only: whatever verifies with the public key was signed for one of
the messages `msgs`, or is the header, with the reported key id, and the claims of one of the packings `past`. -/
def OnlyIssued (C : Crypto) (c : Curve) (key : C.Key) (msgs : Message → Prop) (past : IssueRun C → Prop) : Prop :=
  ∀ text sig st, C.verify c key text sig st = some true →
    (∃ m, msgs m ∧ SignsMessage m text) ∨
    ∃ p alg, past p ∧ text = B64.encode (CompactHeader.onWire ⟨b!"JWT", alg, p.kid⟩) ++ b!"." ++ B64.encode p.claims.toJson.print

end DIDComm
