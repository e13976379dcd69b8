import Verif.Spec.OutcomeUnpack
import Verif.Spec.Receiver

/-! # Receivers with different secrets -/

set_option autoImplicit false

namespace DIDComm

/-- Two searches for secrets end alike as far as the first key found is concerned. -/
inductive SameStart : Except ErrorKind (List Str) → Except ErrorKind (List Str) → Prop
  | failed (k : ErrorKind) : SameStart (.error k) (.error k)
  | nothing : SameStart (.ok []) (.ok [])
  | first (kid : Str) (rest rest' : List Str) : SameStart (.ok (kid :: rest)) (.ok (kid :: rest'))

/-- Two receivers who see the same documents, and whose resolvers report, of any keys they are asked for, the same first one and the same
secret for it. -/
structure SameFirst (E E' : Env) : Prop where
  docs : ∀ d, E.resolve d = E'.resolve d
  found : ∀ kids, SameStart (E.findSecrets kids) (E'.findSecrets kids)
  secret : ∀ kids kid rest, E.findSecrets kids = .ok (kid :: rest) → E.getSecret kid = E'.getSecret kid

/-- A device `E'` of the receiver `E` that has some of the receiver's secrets, perhaps none. -/
structure DeviceOf (E' E : Env) : Prop where
  docs : SeesDocsOf E' E
  found : ∀ kids found, E.findSecrets kids = .ok found → ∃ found', E'.findSecrets kids = .ok found' ∧
    ∀ kid ∈ found', kid ∈ found ∧ E'.getSecret kid = E.getSecret kid

end DIDComm
