import Verif.Model.UniffiExample
import Verif.Spec.Env
import Verif.Props.Bindings

/-! # C53, continued: the example resolvers of the uniffi binding -/

set_option autoImplicit false

namespace DIDComm

/-- The resolvers that answer from the stored documents and secrets, as functions. -/
def storedEnv (docs : List DIDDoc) (secrets : List Secret) : Env where
  resolve d := .ok (docs.find? (fun x => x.id == d))
  getSecret k := .ok (secrets.find? (fun x => x.id == k))
  findSecrets ks := .ok (ks.filter (fun k => secrets.any (fun x => x.id == k)))

theorem exampleCalls_result {α : Type} (a : α) (rest : List (CbAction (Except ErrorKind α))) (s : CbState (Except ErrorKind α))
    (h : CbState.run (exampleCalls a ++ rest) .new = some s) :
    (∀ b, s.waiter.result = some b → b = .ok a) ∧ exampleCode s = some true := by
  have hret : s.returned 0 = some (.ok ()) := by
    have key : ∀ (l : List (CbAction (Except ErrorKind α))) (t u : CbState (Except ErrorKind α)), CbState.run l t = some u →
        t.returned 0 = some (.ok ()) → t.called 0 = true → t.sender = .gone → u.returned 0 = some (.ok ()) := by
      intro l
      induction l with
      | nil => intro t u hr h1 _ _; cases hr; exact h1
      | cons x r ih =>
        intro t u hr h1 h2 h3
        simp only [CbState.run] at hr
        obtain ⟨t', hx, hr⟩ := Option.bind_eq_some_iff.1 hr
        cases x with
        | take i v =>
          simp only [CbState.step, h3] at hx
          split at hx
          · rename_i hc
            have hi : (0 : Nat) ≠ i := by rintro rfl; rw [h2] at hc; exact absurd hc.2 (by decide)
            cases hx
            exact ih _ _ hr (by simp [hi, h1]) (by simp [h2]) rfl
          · cases hx
        | send i => simp [CbState.step, h3] at hx
        | poll =>
          simp only [CbState.step, h3] at hx
          split at hx
          · split at hx <;> cases hx <;> exact ih _ _ hr h1 h2 (by first | exact h3 | rfl)
          · cases hx
        | dropWaiter =>
          simp only [CbState.step] at hx
          split at hx
          · cases hx; exact ih _ _ hr h1 h2 h3
          · cases hx
        | dropCallback =>
          simp only [CbState.step, h3] at hx
          split at hx
          · cases hx; exact ih _ _ hr h1 h2 rfl
          · cases hx
    have hsplit : ∃ t, t.returned 0 = some (.ok ()) ∧ t.called 0 = true ∧ t.sender = .gone ∧ CbState.run rest t = some s := by
      refine ⟨_, ?_, ?_, ?_, h⟩ <;> rfl
    obtain ⟨t, h1, h2, h3, h4⟩ := hsplit
    exact key _ _ _ h4 h1 h2 h3
  refine ⟨fun b hb => ?_, by simp [exampleCode, hret]⟩
  obtain ⟨h1, h2, h3⟩ := C59_first _ _ h
  cases hw : s.waiter with
  | waiting => rw [hw] at hb; cases hb
  | dropped => rw [hw] at hb; cases hb
  | got v =>
    obtain ⟨i, hi, -⟩ := h1 v hw
    rw [hw] at hb
    have : v = .ok a := by
      have : (some (0, (Except.ok a : Except ErrorKind α))) = some (i, v) := hi
      cases this; rfl
    subst this
    cases hb; rfl
  | canceled =>
    have hnd : CbAction.dropWaiter ∉ (exampleCalls a ++ rest) := fun hd => by
      have := (cbInv h).dropped.2 hd
      rw [hw] at this; cases this
    have := (C59_delivered _ _ h 0 (.ok a) rfl (by simp [exampleCalls]) hnd).2
    rw [hw] at this
    rcases this with q | ⟨q, -⟩ <;> cases q

/-- C53: asked through the uniffi binding, the example resolvers answer from the stored documents and secrets, as the ones of the
core do: whatever happens to the callback afterwards, no other answer reaches the operation. -/
theorem C53_uniffi (docs : List DIDDoc) (secrets : List Secret) (ev : Event) (h : UniffiExampleAnswers docs secrets ev) :
    (storedEnv docs secrets).Agrees ev := by
  cases h with
  | random n => trivial
  | resolve d rest s a h hw => exact (exampleCalls_result _ _ _ h).1 _ hw
  | getSecret k rest s a h hw => exact (exampleCalls_result _ _ _ h).1 _ hw
  | findSecrets ks rest s a h hw =>
    rw [(exampleCalls_result _ _ _ h).1 _ hw]
    show Except.ok (keepRequested ks (exampleFindSecrets secrets ks)) = Except.ok _
    congr 1
    unfold keepRequested exampleFindSecrets
    apply List.filter_congr
    intro x hx
    rw [Bool.eq_iff_iff]
    simp only [List.find?_isSome, List.mem_filter, beq_iff_eq, List.any_eq_true]
    constructor
    · rintro ⟨y, ⟨-, z, hz, hzy⟩, rfl⟩; exact ⟨z, hz, hzy⟩
    · rintro ⟨z, hz, hzx⟩; exact ⟨x, ⟨hx, z, hz, hzx⟩, rfl⟩

/-- C53: the answer is delivered when the operation next looks, and the resolver reports success, unless the operation was dropped. -/
theorem C53_uniffi_delivered {α : Type} (a : α) (rest : List (CbAction (Except ErrorKind α))) (s : CbState (Except ErrorKind α))
    (h : CbState.run (exampleCalls a ++ rest) .new = some s) (hd : CbAction.dropWaiter ∉ rest) :
    exampleCode s = some true ∧
      (s.waiter.result = some (.ok a) ∨ ∃ s', s.step .poll = some s' ∧ s'.waiter.result = some (.ok a)) := by
  refine ⟨(exampleCalls_result _ _ _ h).2, ?_⟩
  rcases (C59_delivered _ _ h 0 (.ok a) rfl (by simp [exampleCalls]) (by simpa [exampleCalls] using hd)).2 with q | ⟨-, s', hs, q⟩
  · left; rw [q]; rfl
  · right; exact ⟨s', hs, by rw [q]; rfl⟩

/-- The callback is called, then polled, called again by somebody else, and dropped. -/
example : UniffiExampleAnswers [] [⟨b!"k1", .other, .base58 []⟩]
    ⟨.getSecret b!"k1", .ok (some ⟨b!"k1", .other, .base58 []⟩)⟩ :=
  .getSecret _ [.poll, .take 1 (.ok none), .dropCallback] _ _ rfl rfl

/-- Identifiers asked for twice are answered twice, unknown ones are left out. -/
example : UniffiExampleAnswers [] [⟨b!"k1", .other, .base58 []⟩]
    ⟨.findSecrets [b!"k1", b!"k2", b!"k1"], .ok [b!"k1", b!"k1"]⟩ :=
  .findSecrets [b!"k1", b!"k2", b!"k1"] [.poll] _ _ rfl rfl

end DIDComm
