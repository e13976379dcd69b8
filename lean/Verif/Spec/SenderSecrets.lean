import Verif.Spec.PackUpdates
import Verif.Spec.Select

/-! # Senders with different secrets -/

set_option autoImplicit false

namespace DIDComm

/-- A sender `E'` who sees the same documents as `E` and has, of the secrets of `E`, those under the ids that pass `has`: of the keys that
`E` reports, in their order, `E'` reports those. -/
structure FewerSecrets (E' E : Env) (has : Str → Bool) : Prop where
  docs : ∀ d, E.resolve d = E'.resolve d
  found : ∀ kids found, E.findSecrets kids = .ok found → E'.findSecrets kids = .ok (found.filter has)
  secret : ∀ kid, has kid = true → E.getSecret kid = E'.getSecret kid

/-- Asked which of the keys `listed` they have a secret for, `E` and `E'` report the same, and they give the same secrets for what they
report. -/
structure SameSecretsFor (E E' : Env) (listed : List Str) : Prop where
  found : E.findSecrets listed = E'.findSecrets listed
  secret : ∀ found, E.findSecrets listed = .ok found → ∀ kid ∈ found, E.getSecret kid = E'.getSecret kid

/-- The keys that may sign the claims of an issuer: the named one, or all authentication keys. -/
def issuersMeant (issuerKid : Option Str) (doc : DIDDoc) : List Str :=
  match issuerKid with
  | some k => [k]
  | none => doc.authentication

end DIDComm
