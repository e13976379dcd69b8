import Verif.Spec.Trace

/-!
# Which kinds of errors an operation can end with
-/

set_option autoImplicit false

namespace DIDComm

/-- The errors of this run: the kind is in the list, or a resolver failed with that kind. -/
def FailsOnlyWith {α : Type} (kinds : List ErrorKind) (tr : List Event) (r : Res α) : Prop :=
  ∀ k, r = .error (.kind k) → k ∈ kinds ∨ ∃ ev ∈ tr, Failed ev k

/-- No resolver failed in this run. -/
def NoResolverFailed (tr : List Event) : Prop := ∀ ev ∈ tr, ∀ k, ¬ Failed ev k

/-- The error kinds that `pack_plaintext` and `FromPrior::unpack` cause. -/
def readingKinds : List ErrorKind :=
  [.didNotResolved, .didUrlNotFound, .malformed, .unsupported, .invalidState, .illegalArgument]

/-- The error kinds that `pack_signed`, `FromPrior::pack` and `unpack` cause. -/
def secretKinds : List ErrorKind := .secretNotFound :: readingKinds

/-- The error kinds that `pack_encrypted` causes. -/
def encryptKinds : List ErrorKind := .noCompatibleCrypto :: secretKinds

/-- What a run says about things that are missing.

* A DID without a document ends it, with `DIDNotResolved`.
* An unsuccessful search for secrets ends it, with `SecretNotFound`, unless it was one of the searches `mayBeEmpty`.
* A key that was reported but has no secret ends it, with one of `noSecret`.
* The errors `DIDNotResolved` and `SecretNotFound` have no other cause, except resolvers that fail with them. -/
def SaysWhatIsMissing {α : Type} (mayBeEmpty : List Str → Prop) (noSecret : List ErrorKind) (tr : List Event) (r : Res α) : Prop :=
  (∀ pre d post, tr = pre ++ evResolve d none :: post → post = [] ∧ r = .error (.kind .didNotResolved)) ∧
  (∀ pre ks post, tr = pre ++ evFind ks [] :: post → mayBeEmpty ks ∨ (post = [] ∧ r = .error (.kind .secretNotFound))) ∧
  (∀ pre kid post, tr = pre ++ evGet kid none :: post → post = [] ∧ ∃ k ∈ noSecret, r = .error (.kind k)) ∧
  (r = .error (.kind .didNotResolved) → (∃ d, evResolve d none ∈ tr) ∨ ∃ ev ∈ tr, Failed ev .didNotResolved) ∧
  (r = .error (.kind .secretNotFound) →
    (∃ ks, evFind ks [] ∈ tr) ∨ (∃ kid, evGet kid none ∈ tr) ∨ ∃ ev ∈ tr, Failed ev .secretNotFound)

/-- A search for the secrets of the target of a forward message inside `msg`. -/
def ForTarget (C : Crypto) (msg : Str) (ks : List Str) : Prop :=
  ∃ t m next v, Within C msg t ∧ fromJson (dMessage C.f64) t = .ok m ∧ IsForward m next v ∧ (HasFragment next → ks = [next])

end DIDComm
