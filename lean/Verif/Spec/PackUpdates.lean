import Verif.Spec.DocUpdates
import Verif.Spec.Devices
import Verif.Spec.Route

/-! # DID documents that change, seen by a sender -/

set_option autoImplicit false

namespace DIDComm

/-- Two answers of a DID resolver: both fail with the same error, both know nothing of the DID, or both give documents, which agree as `R`
says. -/
inductive AnswersBy (R : DIDDoc → DIDDoc → Prop) : Except ErrorKind (Option DIDDoc) → Except ErrorKind (Option DIDDoc) → Prop
  | failed (k : ErrorKind) : AnswersBy R (.error k) (.error k)
  | unknown : AnswersBy R (.ok none) (.ok none)
  | found {doc doc' : DIDDoc} (h : R doc doc') : AnswersBy R (.ok (some doc)) (.ok (some doc'))

/-- Two documents with the same keys for key agreement, in the same order, and with the same verification methods. -/
structure SameAgreement (doc doc' : DIDDoc) : Prop where
  listed : doc.keyAgreement = doc'.keyAgreement
  methods : ∀ kid, methodOf doc kid = methodOf doc' kid

/-- Two documents with the same first usable service, and with the same usable service, or none, of every id. -/
def SameServices (doc doc' : DIDDoc) : Prop :=
  ∀ sid r, Selects doc.service sid r ↔ Selects doc'.service sid r

/-- Two documents that differ in nothing that matters for sending. -/
structure SamePackDoc (doc doc' : DIDDoc) : Prop where
  authentication : doc.authentication = doc'.authentication
  agreement : SameAgreement doc doc'
  services : SameServices doc doc'

/-- A sender with the same secrets, before (`E`) and after (`E'`) changes of documents that do not matter for sending. -/
structure SamePackDocs (E E' : Env) : Prop extends SameSecrets E E' where
  docs : ∀ d, AnswersBy SamePackDoc (E.resolve d) (E'.resolve d)

/-- With the same random draws, `p` returns the same, or fails with the same error, whichever of the two environments it runs in. -/
def SameResult {α : Type} (E E' : Env) (p : Prog α) : Prop := ∀ rnd : Nat → Nat, (p.run E rnd).2 = (p.run E' rnd).2

end DIDComm
