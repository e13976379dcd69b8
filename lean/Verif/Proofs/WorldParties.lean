import Verif.Spec.World
import Verif.Spec.Receiver
import Verif.Proofs.Toy

/-! # The parties of the concrete world meet the hypotheses of the round trips -/

set_option autoImplicit false

namespace DIDComm.World

instance (did kid : Str) : Decidable (WireKid did kid) := by unfold WireKid Plain; infer_instance

theorem resolve_alice : aliceEnv.resolve alice = .ok (some aliceDoc) := rfl
theorem resolve_bob : aliceEnv.resolve bob = .ok (some bobDoc) := rfl

theorem honest (docs : List DIDDoc) (ss : List Secret) : HonestSecrets (envOf docs ss) := by
  intro ks found h k hk
  cases h
  exact (List.mem_filter.1 hk).1

theorem bob_sees : SeesDocsOf bobEnv aliceEnv := fun _ _ h => h

theorem wire_alice : WireParty aliceEnv alice := by
  intro doc h
  rw [resolve_alice] at h
  cases h
  decide +kernel

theorem wire_bob : WireParty aliceEnv bob := by
  intro doc h
  rw [resolve_bob] at h
  cases h
  decide +kernel

/-- Equality of toy keys. -/
def sameKey (a b : Bytes) : Bool := decide (a = b)

theorem sameKey_ok {a b : Bytes} (h : sameKey a b = true) : a = b := of_decide_eq_true h

/-- Secret and method of an id agree. -/
def fits (ss : List Secret) (doc : DIDDoc) (kid : Str) : Bool :=
  match ss.find? (fun s => s.id == kid), methodOf doc kid with
  | some s, some vm =>
    match s.asKeyPair Toy.crypto, vm.asKeyPair Toy.crypto with
    | .ok a, .ok b => decide (a.curve = b.curve) && sameKey a.key b.key
    | _, _ => false
  | none, _ => true
  | _, _ => false

theorem fits_ok {docs : List DIDDoc} {ss : List Secret} {doc : DIDDoc} {kid : Str} (h : fits ss doc kid = true) :
    SecretMatches Toy.crypto Toy.pairs (envOf docs ss) doc kid := by
  intro secret c s h1 h2
  have h1 : ss.find? (fun s => s.id == kid) = some secret := Except.ok.inj h1
  unfold fits at h
  rw [h1] at h
  split at h
  · rename_i vm e1 e2
    cases e1
    rw [h2] at h
    split at h
    · rename_i b e3 e4
      cases e3
      rw [Bool.and_eq_true] at h
      obtain ⟨c', k'⟩ := b
      have h3 : c = c' := of_decide_eq_true h.1
      have h4 : s = k' := sameKey_ok h.2
      subst h3
      exact ⟨_, k', e2, e4, h4⟩
    · cases h
  · rename_i e; cases e
  · cases h

theorem fit_alice : KeysFit Toy.crypto Toy.pairs aliceEnv alice := by
  intro doc h
  rw [resolve_alice] at h
  cases h
  intro kid hk
  apply fits_ok
  revert kid
  decide +kernel

/-- Somebody holds the secret of a key. -/
theorem holds_of_fits {docs : List DIDDoc} {ss : List Secret} {doc : DIDDoc} {kid : Str} (h : fits ss doc kid = true)
    (hs : (ss.find? (fun s => s.id == kid)).isSome = true) :
    HoldsSecret Toy.crypto Toy.pairs (envOf docs ss) doc kid := by
  obtain ⟨secret, hsec⟩ := Option.isSome_iff_exists.1 hs
  have hsec' : (envOf docs ss).getSecret kid = .ok (some secret) := congrArg Except.ok hsec
  have hk : ∃ c s, secret.asKeyPair Toy.crypto = .ok ⟨c, s⟩ := by
    unfold fits at h
    rw [hsec] at h
    split at h
    · rename_i e1 e2
      cases e1
      split at h
      · rename_i a _ e3 _; exact ⟨a.curve, a.key, e3⟩
      · cases h
    · rename_i e; cases e
    · cases h
  obtain ⟨c, s, hk⟩ := hk
  obtain ⟨vm, p, h1, h2, h3⟩ := fits_ok (docs := docs) h secret c s hsec' hk
  exact ⟨secret, vm, c, s, p, hsec', hk, h1, h2, h3⟩

/-- Bob can open what is encrypted for any of Bob's keys. -/
theorem bob_opens {kids : List Str} (hne : kids ≠ []) (hk : ∀ k ∈ kids, k ∈ bobDoc.keyAgreement) :
    Opens Toy.crypto Toy.pairs bobEnv aliceEnv bob kids := by
  intro doc h
  rw [resolve_bob] at h
  cases h
  have all : ∀ k ∈ bobDoc.keyAgreement, fits ((secrets.drop 5).take 3) bobDoc k = true ∧
      (((secrets.drop 5).take 3).find? (fun s => s.id == k)).isSome = true := by decide +kernel
  refine ⟨kids, ?_, hne, fun k hk' => ⟨hk', holds_of_fits (all k (hk k hk')).1 (all k (hk k hk')).2⟩⟩
  change Except.ok (exampleFindSecrets _ kids) = _
  congr 1
  unfold exampleFindSecrets
  rw [List.filter_eq_self]
  exact fun k hk' => (all k (hk k hk')).2

theorem msg_wf : msg.WF Toy.crypto.f64 where
  id := by decide
  typ := by decide
  type_ := by decide
  body := by
    simp only [msg, Value.WF, Value.WFM, SortedKeys]
    exact ⟨List.pairwise_singleton _ _, by decide, by decide, trivial⟩
  bodyDepth := by decide
  from_ := by intro s h; cases h; decide
  to := by intro l h; cases h; unfold AllUtf8; decide
  thid := by intro s h; cases h
  pthid := by intro s h; cases h
  fromPrior := by intro s h; cases h
  extra := by simp only [msg, Value.WF, Value.WFM]; decide
  extraDepth := by decide
  extraNodup := by decide
  extraReserved := by decide
  attachments := by intro l h; cases h

theorem msg_notEnvelope : NotEnvelope msg := by
  constructor <;> decide

theorem msg_notUnwrapped (b : Bool) : NotUnwrapped b msg := by
  intro _ next v h
  exact absurd h.1 (by decide)

end DIDComm.World
