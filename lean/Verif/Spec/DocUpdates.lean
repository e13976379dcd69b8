import Verif.Spec.OutcomeUnpack

/-! # DID documents that change -/

set_option autoImplicit false

namespace DIDComm

/-- Two documents in which the same keys are listed for the same purposes, with the same verification methods.  The order of the lists,
how often a key is listed, the services and everything else may differ. -/
structure SameKeys (doc doc' : DIDDoc) : Prop where
  authentication : ∀ kid, kid ∈ doc.authentication ↔ kid ∈ doc'.authentication
  keyAgreement : ∀ kid, kid ∈ doc.keyAgreement ↔ kid ∈ doc'.keyAgreement
  methods : ∀ kid, methodOf doc kid = methodOf doc' kid

/-- Two answers of a DID resolver that differ in nothing but that. -/
inductive SameAnswer : Except ErrorKind (Option DIDDoc) → Except ErrorKind (Option DIDDoc) → Prop
  | failed (k : ErrorKind) : SameAnswer (.error k) (.error k)
  | unknown : SameAnswer (.ok none) (.ok none)
  | found {doc doc' : DIDDoc} (h : SameKeys doc doc') : SameAnswer (.ok (some doc)) (.ok (some doc'))

/-- Two searches for secrets find something, or nothing, or fail alike. -/
inductive SameSearch : Except ErrorKind (List Str) → Except ErrorKind (List Str) → Prop
  | failed (k : ErrorKind) : SameSearch (.error k) (.error k)
  | found {l l' : List Str} (h : l.isEmpty = l'.isEmpty) : SameSearch (.ok l) (.ok l')

/-- A receiver who has the same secrets in `E` and in `E'`. -/
structure SameSecrets (E E' : Env) : Prop where
  find : ∀ kids, E.findSecrets kids = E'.findSecrets kids
  get : ∀ kid, E.getSecret kid = E'.getSecret kid

/-- A receiver who has the same secrets, before (`E`) and after (`E'`) changes of documents that concern no keys.  If the secrets resolver
finds some of the keys listed for key agreement before, it also does after, and the other way round. -/
structure SameKeyDocs (E E' : Env) : Prop extends SameSecrets E E' where
  docs : ∀ d, SameAnswer (E.resolve d) (E'.resolve d)
  ours : ∀ d doc doc', E.resolve d = .ok (some doc) → E'.resolve d = .ok (some doc') →
    SameSearch (E.findSecrets doc.keyAgreement) (E'.findSecrets doc'.keyAgreement)

/-- A receiver who has the same secrets, before (`E`) and after (`E'`) any changes of documents that leave the documents in place, and
that do not change for which DIDs the secrets resolver finds some of the keys listed for key agreement. -/
structure StillThere (E E' : Env) : Prop extends SameSecrets E E' where
  docs : ∀ d doc, E.resolve d = .ok (some doc) → ∃ doc', E'.resolve d = .ok (some doc')
  ours : ∀ d doc doc', E.resolve d = .ok (some doc) → E'.resolve d = .ok (some doc') →
    SameSearch (E.findSecrets doc.keyAgreement) (E'.findSecrets doc'.keyAgreement)

/-- The keys listed for a purpose stay listed, with the verification methods they have, except perhaps those in `gone`. -/
def KeysKept (listed : DIDDoc → List Str) (gone : Str → Prop) (E E' : Env) : Prop :=
  ∀ d doc doc', E.resolve d = .ok (some doc) → E'.resolve d = .ok (some doc') →
    ∀ kid ∈ listed doc, ¬ gone kid → kid ∈ listed doc' ∧ ∀ vm, methodOf doc kid = some vm → methodOf doc' kid = some vm

end DIDComm
