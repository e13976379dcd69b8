import Verif.Proofs.SenderSecrets
import Verif.Spec.World
import Verif.Proofs.Toy

/-!
# C118: what difference the secrets of a sender make
-/

set_option autoImplicit false

namespace DIDComm

variable {C : Crypto} {E E' : Env} {has : Str → Bool}

/-! ## The property -/

/-- C118: secrets make no difference to writing plaintext, to reading claims of a prior DID, to encrypting anonymously without a
signature, forwarded or not, and to wrapping in forwards: with the same random draws the same is returned, or the same error. -/
theorem C118_no_secrets (h : ∀ d, E.resolve d = E'.resolve d) :
    (∀ m, SameResult E E' (packPlaintext C m)) ∧ (∀ jwt, SameResult E E' (FromPrior.unpack C jwt)) ∧
    (∀ m to opts, SameResult E E' (packEncrypted C m to none none opts)) ∧
    ∀ msg headers to keys alg, SameResult E E' (wrapInForward C msg headers to keys alg) := by
  have hdoc : ∀ d, AnswersBy SamePackDoc (E.resolve d) (E'.resolve d) := fun d => answersBy_of_eq samePackDoc_rfl (h d)
  exact ⟨fun _ => (packPlaintext_abreast fun _ => hdoc).run, fun _ => (fromPriorUnpack_abreast hdoc).run,
    fun _ _ _ => (packEncrypted_for h (fun _ _ h => by cases h) fun _ _ h => by cases h).run, fun _ _ _ _ _ => (wrapInForward_abreast hdoc).run⟩

/-- C118: what signs or authenticates looks only at the secrets of the keys in question: for signing the key that was named or the
authentication keys that the document of the signer lists, for encrypting as a sender the named key or the keys for agreement that the
document of the sender lists.  All other secrets make no difference. -/
theorem C118_listed_only (hd : ∀ d, E.resolve d = E'.resolve d) :
    (∀ m signBy, (∀ doc, E.resolve (didOf signBy) = .ok (some doc) → SameSecretsFor E E' (signersMeant signBy doc)) →
      SameResult E E' (packSigned C m signBy)) ∧
    (∀ f kid, (∀ doc, E.resolve f.iss = .ok (some doc) → SameSecretsFor E E' (issuersMeant kid doc)) →
      SameResult E E' (FromPrior.pack C f kid)) ∧
    ∀ m to from_ signBy opts,
      (∀ s doc, signBy = some s → E.resolve (didOf s) = .ok (some doc) → SameSecretsFor E E' (signersMeant s doc)) →
      (∀ f doc, from_ = some f → E.resolve (didOf f) = .ok (some doc) → SameSecretsFor E E' (meantBy f doc.keyAgreement)) →
      SameResult E E' (packEncrypted C m to from_ signBy opts) :=
  ⟨fun _ _ h => (packSigned_for hd h).run, fun _ _ h => (fromPriorPack_for hd h).run, fun _ _ _ _ _ hs hf => (packEncrypted_for hd hs hf).run⟩

/-- C118: a sender with fewer secrets who has those of the keys that were used gets the very same result with the same random draws.  So of
all secrets, only those of the keys that the metadata name count, if packing succeeds. -/
theorem C118_fewer (h : FewerSecrets E' E has) (rnd : Nat → Nat) :
    (∀ m signBy out kid, ((packSigned C m signBy).run E rnd).2 = .ok (out, kid) → has kid = true →
      ((packSigned C m signBy).run E' rnd).2 = .ok (out, kid)) ∧
    (∀ f issuerKid jwt kid, ((FromPrior.pack C f issuerKid).run E rnd).2 = .ok (jwt, kid) → has kid = true →
      ((FromPrior.pack C f issuerKid).run E' rnd).2 = .ok (jwt, kid)) ∧
    ∀ m to from_ signBy opts out md, ((packEncrypted C m to from_ signBy opts).run E rnd).2 = .ok (out, md) →
      (∀ kid, md.fromKid = some kid → has kid = true) → (∀ kid, md.signByKid = some kid → has kid = true) →
      ((packEncrypted C m to from_ signBy opts).run E' rnd).2 = .ok (out, md) :=
  ⟨fun _ _ _ _ h1 h2 => (packSigned_fewer h).run rnd _ h1 h2, fun _ _ _ _ h1 h2 => (fromPriorPack_fewer h).run rnd _ h1 h2,
    fun _ _ _ _ _ _ _ h1 h2 h3 => (packEncrypted_fewer h).run rnd _ h1 ⟨h2, h3⟩⟩

/-! ## Examples -/

/-- Of the secrets of a store, those under some ids. -/
theorem World.fewer (docs : List DIDDoc) (all : List Secret) (has : Str → Bool) :
    FewerSecrets (World.envOf docs (all.filter fun s => has s.id)) (World.envOf docs all) has := by
  have key : ∀ kid, has kid = true → (all.filter fun s => has s.id).find? (fun s => s.id == kid) = all.find? (fun s => s.id == kid) := by
    intro kid hk
    cases hx : all.find? (fun s => s.id == kid) with
    | some s =>
      have hs := List.find?_some hx
      simp only [beq_iff_eq] at hs
      exact find_filter hx (by rw [hs]; exact hk)
    | none =>
      rw [List.find?_eq_none] at hx ⊢
      exact fun x hm => hx x (List.mem_filter.1 hm).1
  refine ⟨fun _ => rfl, fun kids found hf => ?_, fun kid hk => ?_⟩
  · cases hf
    show Except.ok (exampleFindSecrets _ _) = Except.ok _
    unfold exampleFindSecrets
    rw [List.filter_filter]
    congr 2
    funext kid
    by_cases hk : has kid = true
    · rw [key kid hk, hk, Bool.true_and]
    · have : (all.filter fun s => has s.id).find? (fun s => s.id == kid) = none := by
        rw [List.find?_eq_none]
        intro x hm hid
        simp only [beq_iff_eq] at hid
        exact hk (by rw [← hid]; exact (List.mem_filter.1 hm).2)
      rw [this]
      simp [hk]
  · show Except.ok (exampleGetSecret _ _) = Except.ok (exampleGetSecret _ _)
    unfold exampleGetSecret
    rw [key kid hk]

/-- Alice's device with one signing key and one key for agreement. -/
def World.twoKeys (kid : Str) : Bool := kid == b!"did:example:alice#ed" || kid == b!"did:example:alice#p1"

set_option maxRecDepth 1000000 in
/-- Alice signs and encrypts a message to Bob through Bob's mediator; a device that has but the two secrets used makes the same text. -/
example : ∃ out md, ((packEncrypted Toy.crypto World.msg World.bob (some World.alice) (some World.alice) {}).run World.env id).2 = .ok (out, md) ∧
    md.fromKid = some b!"did:example:alice#p1" ∧ md.signByKid = some b!"did:example:alice#ed" ∧
    ((packEncrypted Toy.crypto World.msg World.bob (some World.alice) (some World.alice) {}).run
      (World.envOf [World.aliceDoc, World.bobDoc, World.mediatorDoc] (World.secrets.filter fun s => World.twoKeys s.id)) id).2 = .ok (out, md) := by
  have : World.test World.env (packEncrypted Toy.crypto World.msg World.bob (some World.alice) (some World.alice) {})
      (fun x => decide (x.2.fromKid = some b!"did:example:alice#p1" ∧ x.2.signByKid = some b!"did:example:alice#ed")) = true := by
    decide +kernel
  unfold World.test at this
  split at this
  · rename_i x hx
    obtain ⟨out, md⟩ := x
    obtain ⟨h1, h2⟩ := of_decide_eq_true this
    refine ⟨out, md, hx, h1, h2, ?_⟩
    refine (C118_fewer (World.fewer [World.aliceDoc, World.bobDoc, World.mediatorDoc] World.secrets World.twoKeys) id).2.2 _ _ _ _ _ _ _ hx
      (fun kid hk => ?_) fun kid hk => ?_
    · rw [h1] at hk; cases hk; decide
    · rw [h2] at hk; cases hk; decide
  · cases this

/-- Bob's and the mediator's secrets make no difference to what Alice signs, even if Alice had them. -/
example : SameResult World.env World.aliceEnv (packSigned Toy.crypto World.msg World.alice) := by
  refine (C118_listed_only (E := World.env) (E' := World.aliceEnv) fun _ => rfl).1 _ _ fun doc hdoc => ?_
  cases (show doc = World.aliceDoc by cases hdoc; rfl)
  rw [show signersMeant World.alice World.aliceDoc = World.aliceDoc.authentication from by decide +kernel]
  refine ⟨rfl, fun found hf kid hk => ?_⟩
  cases hf
  have := (List.mem_filter.1 hk).1
  simp only [World.aliceDoc, List.mem_cons, List.not_mem_nil, or_false] at this
  rcases this with rfl | rfl | rfl <;> rfl

/-- An authentication key of Alice's for which Alice has a secret of a type the library does not support. -/
def World.strangeSecret : Secret := ⟨b!"did:example:alice#ed", .other, .jwk .null⟩

/-- A document of Alice's that lists a key for agreement without a verification method. -/
def World.staleDoc : DIDDoc := { World.aliceDoc with keyAgreement := b!"did:example:alice#old" :: World.aliceDoc.keyAgreement }

/-- The ids other than two. -/
def World.withoutTwo (kid : Str) : Bool := !(kid == b!"did:example:alice#ed" || kid == b!"did:example:alice#old")

set_option maxRecDepth 1000000 in
/-- C118 (negative): more secrets can do harm to a sender.  With an additional secret that is reported first, of a type that is not
supported, signing fails instead of using the next key; with an additional secret of a key that is listed for agreement without a
verification method, encrypting as a sender fails.  And an additional good secret that is reported first changes who signs. -/
theorem C118_more_can_hurt : ∃ (C : Crypto) (pairs : Curve → C.Key → C.Key → Prop) (has : Str → Bool) (m : Message) (to who : Str),
    C.Lawful pairs ∧
    (∃ E E' x, FewerSecrets E' E has ∧ ((packSigned C m who).run E' id).2 = .ok x ∧ ((packSigned C m who).run E id).2 = .error (.kind .unsupported)) ∧
    (∃ E E' x, FewerSecrets E' E has ∧ ((packEncrypted C m to (some who) none {}).run E' id).2 = .ok x ∧
      ((packEncrypted C m to (some who) none {}).run E id).2 = .error (.kind .malformed)) ∧
    ∃ E E' x x', FewerSecrets E' E has ∧ ((packSigned C m who).run E' id).2 = .ok x' ∧ ((packSigned C m who).run E id).2 = .ok x ∧ x'.2 ≠ x.2 := by
  have get : ∀ {α : Type} {E : Env} {p : Prog α} {P : α → Bool}, World.test E p P = true → ∃ x, (p.run E id).2 = .ok x ∧ P x = true := by
    intro α E p P h
    unfold World.test at h
    split at h
    · rename_i x hx; exact ⟨x, hx, h⟩
    · cases h
  have err : ∀ {α : Type} {E : Env} {p : Prog α} {e : Err}, World.testError E p e = true → (p.run E id).2 = .error e := by
    intro α E p e h
    unfold World.testError at h
    split at h
    · cases h
    · rename_i e' hx; rw [hx, of_decide_eq_true h]
  refine ⟨Toy.crypto, Toy.pairs, World.withoutTwo, World.msg, World.bob, World.alice, Toy.lawful, ?_, ?_, ?_⟩
  · obtain ⟨x, hx, -⟩ := get (show World.test (World.envOf [World.aliceDoc] ((World.strangeSecret :: World.secrets.drop 1).filter fun s => World.withoutTwo s.id))
      (packSigned Toy.crypto World.msg World.alice) (fun _ => true) = true by decide +kernel)
    exact ⟨_, _, x, World.fewer [World.aliceDoc] (World.strangeSecret :: World.secrets.drop 1) World.withoutTwo, hx,
      err (by decide +kernel)⟩
  · obtain ⟨x, hx, -⟩ := get (show World.test (World.envOf [World.staleDoc, World.bobDoc, World.mediatorDoc]
        ((World.secret b!"did:example:alice#old" b!"EC" b!"P-256" [9] :: World.secrets).filter fun s => World.withoutTwo s.id))
      (packEncrypted Toy.crypto World.msg World.bob (some World.alice) none {}) (fun _ => true) = true by decide +kernel)
    exact ⟨_, _, x, World.fewer _ (World.secret b!"did:example:alice#old" b!"EC" b!"P-256" [9] :: World.secrets) World.withoutTwo, hx,
      err (by decide +kernel)⟩
  · obtain ⟨x', hx', hk'⟩ := get (show World.test (World.envOf [World.aliceDoc] (World.secrets.filter fun s => World.withoutTwo s.id))
      (packSigned Toy.crypto World.msg World.alice) (fun x => decide (x.2 = b!"did:example:alice#es")) = true by decide +kernel)
    obtain ⟨x, hx, hk⟩ := get (show World.test (World.envOf [World.aliceDoc] World.secrets)
      (packSigned Toy.crypto World.msg World.alice) (fun x => decide (x.2 = b!"did:example:alice#ed")) = true by decide +kernel)
    refine ⟨_, _, x, x', World.fewer _ World.secrets World.withoutTwo, hx', hx, ?_⟩
    rw [of_decide_eq_true hk, of_decide_eq_true hk']
    decide

end DIDComm
