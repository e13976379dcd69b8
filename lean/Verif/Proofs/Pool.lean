import Verif.Spec.Pool
import Verif.Proofs.UniffiSystem

/-! # Operations on a limited number of threads: invariants -/

set_option autoImplicit false

namespace DIDComm

variable {α V : Type}

/-! ## Single steps -/

theorem poolStep_who {n : Nat} {s s' : List PoolTask} {a : PoolAct} {i : Nat} (hw : a.who = some i) :
    poolStep n s a = some s' ↔ ∃ t t', s[i]? = some t ∧ t.step (decide (inUse s < n)) a = some t' ∧ s' = s.set i t' := by
  cases a <;> cases hw <;> simp only [poolStep, PoolAct.who] <;>
    (split
     · rename_i t ht
       rw [Option.map_eq_some_iff]
       constructor
       · rintro ⟨t', h1, rfl⟩
         exact ⟨t, t', ht, h1, rfl⟩
       · rintro ⟨_, t', h0, h1, rfl⟩
         have e := ht.symm.trans h0
         cases e
         exact ⟨t', h1, rfl⟩
     · rename_i ht
       constructor
       · intro h; cases h
       · rintro ⟨_, _, h0, -⟩
         have e := ht.symm.trans h0
         cases e)

theorem who_of_not_start {a : PoolAct} (h : ∀ (β : Type) (p : Prog β), a ≠ .start p) : ∃ i, a.who = some i := by
  cases a <;> first | exact ⟨_, rfl⟩ | exact absurd rfl (h _ _)

/-- A step is a step of one task, or the start of one. -/
theorem poolStep_cases {n : Nat} {s s' : List PoolTask} {a : PoolAct} (h : poolStep n s a = some s') :
    (∃ (β : Type) (p : Prog β), a = .start p ∧ s' = s ++ [⟨.queued, β, Task.new p⟩]) ∨
    ∃ i t t', a.who = some i ∧ s[i]? = some t ∧ t.step (decide (inUse s < n)) a = some t' ∧ s' = s.set i t' := by
  by_cases hst : ∃ (β : Type) (p : Prog β), a = .start p
  · obtain ⟨β, p, rfl⟩ := hst
    cases h
    exact .inl ⟨β, p, rfl, rfl⟩
  · obtain ⟨i, hi⟩ := who_of_not_start (a := a) fun β p e => hst ⟨β, p, e⟩
    obtain ⟨t, t', h1, h2, h3⟩ := (poolStep_who hi).1 h
    exact .inr ⟨i, t, t', hi, h1, h2, h3⟩

theorem poolRun_append (n : Nat) (l l' : List PoolAct) (s : List PoolTask) :
    poolRun n (l ++ l') s = (poolRun n l s).bind (poolRun n l') := by
  induction l generalizing s with
  | nil => rfl
  | cons a r ih =>
    simp only [List.cons_append, poolRun]
    cases poolStep n s a with
    | none => rfl
    | some s1 => exact ih s1

/-! ## The tasks are those of the unlimited executor -/

theorem set_same.{u} {β : Type u} (l : List β) (i : Nat) (x : β) (h : l[i]? = some x) : l.set i x = l := by
  apply List.ext_getElem?
  intro j
  rw [List.getElem?_set]
  split
  · rename_i e
    subst e
    rw [h]
    split
    · rfl
    · rename_i h'
      rw [List.getElem?_eq_none (Nat.le_of_not_lt h')] at h
      exact h
  · rfl

theorem poolTask_forget {free : Bool} {t t' : PoolTask} {a : PoolAct} {i : Nat} (hw : a.who = some i) (h : t.step free a = some t') :
    match a.forget with
    | some (.task j b) => j = i ∧ ∃ u, t.task.step b = some u ∧ t'.forget = ⟨t.α, u⟩
    | some (.start _) => False
    | none => t'.forget = t.forget := by
  cases a with
  | start p => cases hw
  | take j =>
    simp only [PoolTask.step] at h
    split at h <;> cases h
    rfl
  | draw j m =>
    cases hw
    simp only [PoolTask.step] at h
    split at h
    · obtain ⟨u, h1, rfl⟩ := Option.map_eq_some_iff.1 h
      exact ⟨rfl, u, h1, rfl⟩
    · cases h
  | call j =>
    cases hw
    simp only [PoolTask.step] at h
    split at h
    · obtain ⟨u, h1, rfl⟩ := Option.map_eq_some_iff.1 h
      exact ⟨rfl, u, h1, rfl⟩
    · cases h
  | back j =>
    simp only [PoolTask.step] at h
    split at h
    · split at h <;> cases h <;> rfl
    · cases h
  | poll j =>
    cases hw
    simp only [PoolTask.step] at h
    split at h
    · obtain ⟨u, h1, h2⟩ := Option.map_eq_some_iff.1 h
      refine ⟨rfl, u, h1, ?_⟩
      split at h2 <;> cases h2 <;> rfl
    · cases h
  | finish j =>
    cases hw
    simp only [PoolTask.step] at h
    split at h
    · split at h
      · obtain ⟨u, h1, rfl⟩ := Option.map_eq_some_iff.1 h
        exact ⟨rfl, u, h1, rfl⟩
      · cases h
    · cases h
  | foreign i j q b =>
    cases hw
    simp only [PoolTask.step] at h
    obtain ⟨u, h1, rfl⟩ := Option.map_eq_some_iff.1 h
    exact ⟨rfl, u, h1, rfl⟩

theorem pool_forget {n : Nat} {H : List PoolAct} {s0 s : List PoolTask} (h : poolRun n H s0 = some s) :
    systemRun (H.filterMap PoolAct.forget) (s0.map PoolTask.forget) = some (s.map PoolTask.forget) := by
  induction H generalizing s0 with
  | nil => cases h; rfl
  | cons a r ih =>
    simp only [poolRun, Option.bind_eq_some_iff] at h
    obtain ⟨s1, h1, h2⟩ := h
    have h3 := ih h2
    rcases poolStep_cases h1 with ⟨β, p, rfl, rfl⟩ | ⟨i, t, t', hw, ht, hs, rfl⟩
    · rw [List.filterMap_cons_some (f := PoolAct.forget) (a := .start p) (b := SystemAct.start p) rfl]
      simp only [systemRun, systemStep, Option.bind_some]
      rw [List.map_append] at h3
      exact h3
    · have hf := poolTask_forget hw hs
      rw [List.map_set] at h3
      cases ha : a.forget with
      | none =>
        rw [ha] at hf
        rw [List.filterMap_cons_none ha]
        simp only at hf
        rw [hf, set_same _ _ _ (by rw [List.getElem?_map, ht]; rfl)] at h3
        exact h3
      | some b =>
        rw [ha] at hf
        rw [List.filterMap_cons_some ha]
        cases b with
        | start p => exact hf.elim
        | task j b =>
          obtain ⟨rfl, u, hu, he⟩ := hf
          have : (s0.map PoolTask.forget)[j]? = some ⟨t.α, t.task⟩ := by rw [List.getElem?_map, ht]; rfl
          simp only [systemRun, systemStep, this]
          rw [hu]
          simp only [Option.map_some, Option.bind_some]
          rw [he] at h3
          exact h3

/-! ## Places -/

/-- What a task can be doing at each place. -/
structure PoolTask.Fine (t : PoolTask) : Prop where
  place : match t.place with
    | .queued => (∃ p, t.task.phase = .running p) ∨ t.task.ready = true
    | .busy => (∃ p, t.task.phase = .running p) ∨ ∃ q cb k, t.task.phase = .waiting q cb k
    | .foreign => (∃ r, t.task.phase = .ended r ∧ uniffiReport r ≠ []) ∨ ∃ q cb k, t.task.phase = .waiting q cb k
    | .parked => t.Unanswered
    | .done => ∃ r, t.task.phase = .ended r ∧ uniffiReport r ≠ []
    | .lost => t.Panicked
  waits : ∀ q cb k, t.task.phase = .waiting q cb k → cb.waiter = .waiting ∧ q.toResolver = true

theorem step_draw_phase {t t' : Task α} {m : Nat} (h : t.step (.draw m) = some t') :
    ∃ k : Nat → Prog α, t.phase = .running (.ask .random k) ∧ t'.phase = .running (k m) := by
  simp only [Task.step] at h
  split at h
  · rename_i k hp
    cases h
    exact ⟨k, hp, rfl⟩
  · cases h

theorem step_call_phase {t t' : Task α} (h : t.step .call = some t') :
    ∃ (q : Query) (k : q.Ans → Prog α), t.phase = .running (.ask q k) ∧ q.toResolver = true ∧ t'.phase = .waiting q .new k := by
  simp only [Task.step] at h
  split at h
  · cases h
  · rename_i q k hq hp
    cases h
    refine ⟨q, k, hp, ?_, rfl⟩
    cases q <;> first | rfl | exact absurd HEq.rfl (hq _ rfl)
  · cases h

theorem step_finish_phase {t t' : Task α} (h : t.step .finish = some t') :
    ∃ r, t.phase = .running (.ret r) ∧ t'.phase = .ended r ∧ t'.reports = t.reports ++ uniffiReport r := by
  simp only [Task.step] at h
  split at h
  · rename_i r hp
    cases h
    exact ⟨r, hp, rfl, rfl⟩
  · cases h

theorem adapter_poll {q : Query} (hq : q.toResolver = true) {cb cb' : CbState q.Ans} (hw : cb.waiter = .waiting)
    (h : cb.step .poll = some cb') :
    if cb.ready = true then ∃ a, adapterResult q cb'.waiter = some a else cb' = cb ∧ adapterResult q cb'.waiter = none := by
  have key : ∀ {β : Type} (w : Waiter (Except ErrorKind β)), w ≠ .waiting → w ≠ .dropped → ∃ a, w.result = some a := by
    intro β w h1 h2
    cases w with
    | waiting => exact absurd rfl h1
    | dropped => exact absurd rfl h2
    | canceled => exact ⟨_, rfl⟩
    | got v => cases v <;> exact ⟨_, rfl⟩
  have key2 : ∀ w : Waiter q.Ans, w ≠ .waiting → w ≠ .dropped → ∃ a, adapterResult q w = some a := by
    intro w h1 h2
    cases q with
    | resolve d => exact key (β := Option DIDDoc) w h1 h2
    | getSecret d => exact key (β := Option Secret) w h1 h2
    | findSecrets ks =>
      obtain ⟨a, ha⟩ := key (β := List Str) w h1 h2
      exact ⟨Except.map (keepRequested ks) a, by simp only [adapterResult, ha]; rfl⟩
    | random => cases hq
  have hn : adapterResult q (.waiting : Waiter q.Ans) = none := by cases q <;> rfl
  simp only [CbState.step, hw] at h
  cases hc : cb.content with
  | some v =>
    rw [hc] at h
    cases h
    have hr : cb.ready = true := by simp [CbState.ready, hc]
    rw [if_pos hr]
    exact key2 _ (by simp) (by simp)
  | none =>
    rw [hc] at h
    cases hs : cb.sender with
    | gone =>
      rw [hs] at h
      cases h
      have hr : cb.ready = true := by simp [CbState.ready, hs]
      rw [if_pos hr]
      exact key2 _ (by simp) (by simp)
    | cell =>
      rw [hs] at h
      cases h
      have hr : cb.ready ≠ true := by simp [CbState.ready, hs, hc]
      rw [if_neg hr]
      exact ⟨rfl, by rw [hw]; exact hn⟩
    | held i v =>
      rw [hs] at h
      cases h
      have hr : cb.ready ≠ true := by simp [CbState.ready, hs, hc]
      rw [if_neg hr]
      exact ⟨rfl, by rw [hw]; exact hn⟩

theorem step_poll_phase {t t' : Task α} (hf : ∀ q cb k, t.phase = .waiting q cb k → cb.waiter = .waiting ∧ q.toResolver = true)
    (h : t.step .poll = some t') : ∃ (q : Query) (cb : CbState q.Ans) (k : q.Ans → Prog α), t.phase = .waiting q cb k ∧
      (cb.ready = true ∧ (∃ a, t'.phase = .running (k a)) ∨ cb.ready = false ∧ t' = t) := by
  simp only [Task.step] at h
  split at h
  · rename_i q cb k hp
    obtain ⟨h1, h2⟩ := hf q cb k hp
    obtain ⟨cb', hc, h'⟩ := Option.map_eq_some_iff.1 h
    clear h
    have hr := adapter_poll h2 h1 hc
    refine ⟨q, cb, k, hp, ?_⟩
    split at hr
    · rename_i hb
      obtain ⟨a, ha⟩ := hr
      rw [ha] at h'
      cases h'
      exact .inl ⟨hb, a, rfl⟩
    · rename_i hb
      obtain ⟨rfl, hr⟩ := hr
      rw [hr] at h'
      cases h'
      refine .inr ⟨by simpa using hb, ?_⟩
      cases t
      cases hp
      rfl
  · cases h

theorem step_foreign_ready {s s' : CbState V} {a : ForeignAct V} (h : s.step a.toCb = some s') (hr : s.ready = true) : s'.ready = true := by
  unfold CbState.ready at hr ⊢
  cases a with
  | take i v =>
    simp only [ForeignAct.toCb, CbState.step] at h
    split at h
    · split at h
      · rename_i hs
        cases h
        rw [hs] at hr
        simpa using hr
      · cases h
        exact hr
    · cases h
  | send i =>
    simp only [ForeignAct.toCb, CbState.step] at h
    split at h
    · split at h
      · split at h <;> cases h <;> simp
      · cases h
    · cases h
  | drop =>
    simp only [ForeignAct.toCb, CbState.step] at h
    split at h
    · split at h <;> cases h
      simp
    · cases h

theorem foreign_ready {q q' : Query} {s s' : CbState q.Ans} {a : ForeignAct q'.Ans} (h : s.foreign q' a = some s') (hr : s.ready = true) :
    s'.ready = true := by
  unfold CbState.foreign at h
  split at h
  · exact step_foreign_ready h hr
  · cases h

/-- The foreign side never changes where a task is, but for the state of the callback it waits for. -/
theorem step_foreign_phase {t t' : Task α} {j : Nat} {q : Query} {a : ForeignAct q.Ans} (h : t.step (.foreign j q a) = some t') :
    t'.phase = t.phase ∧ t'.reports = t.reports ∨ ∃ (q' : Query) (cb cb' : CbState q'.Ans) (k : q'.Ans → Prog α), t.phase = .waiting q' cb k ∧ t'.phase = .waiting q' cb' k ∧
      cb'.waiter = cb.waiter ∧ (cb.ready = true → cb'.ready = true) := by
  simp only [Task.step] at h
  split at h
  · obtain ⟨s, -, rfl⟩ := Option.map_eq_some_iff.1 h
    exact .inl ⟨rfl, rfl⟩
  · split at h
    · rename_i q' cb k hp
      split at h
      · obtain ⟨s, hs, rfl⟩ := Option.map_eq_some_iff.1 h
        exact .inr ⟨q', cb, s, k, hp, rfl, foreign_waiter hs, foreign_ready hs⟩
      · cases h
    · cases h

theorem fine_new (p : Prog α) : PoolTask.Fine ⟨.queued, α, Task.new p⟩ :=
  ⟨.inl ⟨p, rfl⟩, fun _ _ _ h => by cases h⟩

theorem ready_iff {t : Task α} : t.ready = true ↔ ∃ q cb k, t.phase = .waiting q cb k ∧ cb.ready = true := by
  unfold Task.ready
  split
  · rename_i q cb k hp
    constructor
    · intro h; exact ⟨q, cb, k, hp, h⟩
    · rintro ⟨q', cb', k', h1, h2⟩
      rw [hp] at h1
      cases h1
      exact h2
  · rename_i hn
    constructor
    · intro h; cases h
    · rintro ⟨q', cb', k', h1, -⟩
      exact absurd h1 (hn _ _ _)

theorem fine_step {free : Bool} {t t' : PoolTask} {a : PoolAct} (hf : t.Fine) (h : t.step free a = some t') : t'.Fine := by
  obtain ⟨pl, α, t⟩ := t
  obtain ⟨hp, hw⟩ := hf
  cases a with
  | start p => cases h
  | take j =>
    simp only [PoolTask.step] at h
    split at h <;> cases h
    rename_i hc
    obtain ⟨rfl, -⟩ := hc
    refine ⟨?_, hw⟩
    rcases hp with hp | hp
    · exact .inl hp
    · obtain ⟨q, cb, k, h1, -⟩ := ready_iff.1 hp
      exact .inr ⟨q, cb, k, h1⟩
  | draw j m =>
    simp only [PoolTask.step] at h
    split at h
    · obtain ⟨u, h1, rfl⟩ := Option.map_eq_some_iff.1 h
      obtain ⟨k, g1, g2⟩ := step_draw_phase h1
      exact ⟨.inl ⟨_, g2⟩, fun _ _ _ e => by rw [g2] at e; cases e⟩
    · cases h
  | call j =>
    simp only [PoolTask.step] at h
    split at h
    · obtain ⟨u, h1, rfl⟩ := Option.map_eq_some_iff.1 h
      obtain ⟨q, k, g1, g2, g3⟩ := step_call_phase h1
      exact ⟨.inr ⟨_, _, _, g3⟩, fun _ _ _ e => by rw [g3] at e; cases e; exact ⟨rfl, g2⟩⟩
    · cases h
  | back j =>
    simp only [PoolTask.step] at h
    split at h
    · rename_i e
      subst e
      split at h
      · rename_i q cb k e
        cases h
        exact ⟨.inr ⟨q, cb, k, e⟩, hw⟩
      · rename_i r e
        cases h
        refine ⟨?_, hw⟩
        rcases hp with hp | ⟨q, cb, k, hp⟩
        · exact hp
        · rw [e] at hp; cases hp
      · cases h
    · cases h
  | poll j =>
    simp only [PoolTask.step] at h
    split at h
    · obtain ⟨u, h1, h2⟩ := Option.map_eq_some_iff.1 h
      obtain ⟨q, cb, k, g1, ⟨g2, a, g3⟩ | ⟨g2, rfl⟩⟩ := step_poll_phase hw h1
      · rw [g3] at h2
        cases h2
        exact ⟨.inl ⟨_, g3⟩, fun _ _ _ e => by rw [g3] at e; cases e⟩
      · rw [g1] at h2
        cases h2
        exact ⟨⟨q, cb, k, g1, g2⟩, hw⟩
    · cases h
  | finish j =>
    simp only [PoolTask.step] at h
    split at h
    · split at h
      · rename_i r e
        obtain ⟨u, h1, rfl⟩ := Option.map_eq_some_iff.1 h
        obtain ⟨r', g1, g2, g3⟩ := step_finish_phase h1
        have hr : r' = r := by
          have := g1.symm.trans e
          cases this
          rfl
        subst hr
        refine ⟨?_, fun _ _ _ e => by rw [g2] at e; cases e⟩
        cases r' with
        | ok x => exact .inl ⟨_, g2, by simp [uniffiReport]⟩
        | error x =>
          cases x with
          | kind x => exact .inl ⟨_, g2, by simp [uniffiReport]⟩
          | panic => exact ⟨_, g2, rfl⟩
          | fuel => exact ⟨_, g2, rfl⟩
      · cases h
    · cases h
  | foreign i j q b =>
    simp only [PoolTask.step] at h
    obtain ⟨u, h1, rfl⟩ := Option.map_eq_some_iff.1 h
    rcases step_foreign_phase h1 with ⟨g1, -⟩ | ⟨q', cb, cb', k, g1, g2, g3, g4⟩
    · have hr : u.ready = t.ready := by unfold Task.ready; rw [g1]
      refine ⟨?_, fun q cb k e => hw q cb k (g1 ▸ e)⟩
      show match (if pl = .parked ∧ u.ready = true then .queued else pl) with
        | .queued => (∃ p, u.phase = .running p) ∨ u.ready = true
        | .busy => (∃ p, u.phase = .running p) ∨ ∃ q cb k, u.phase = .waiting q cb k
        | .foreign => (∃ r, u.phase = .ended r ∧ uniffiReport r ≠ []) ∨ ∃ q cb k, u.phase = .waiting q cb k
        | .parked => ∃ q cb k, u.phase = .waiting q cb k ∧ cb.ready = false
        | .done => ∃ r, u.phase = .ended r ∧ uniffiReport r ≠ []
        | .lost => ∃ r, u.phase = .ended r ∧ uniffiReport r = []
      rw [g1]
      split
      · rename_i hc
        split at hc
        · rename_i hc'
          exact .inr hc'.2
        · subst hc
          rw [hr]
          exact hp
      all_goals
        rename_i hc
        split at hc
        · cases hc
        · subst hc
          exact hp
    · refine ⟨?_, fun q cb k e => ?_⟩
      · show match (if pl = .parked ∧ u.ready = true then .queued else pl) with
          | .queued => (∃ p, u.phase = .running p) ∨ u.ready = true
          | .busy => (∃ p, u.phase = .running p) ∨ ∃ q cb k, u.phase = .waiting q cb k
          | .foreign => (∃ r, u.phase = .ended r ∧ uniffiReport r ≠ []) ∨ ∃ q cb k, u.phase = .waiting q cb k
          | .parked => ∃ q cb k, u.phase = .waiting q cb k ∧ cb.ready = false
          | .done => ∃ r, u.phase = .ended r ∧ uniffiReport r ≠ []
          | .lost => ∃ r, u.phase = .ended r ∧ uniffiReport r = []
        cases pl with
        | queued =>
          refine .inr ?_
          rcases hp with ⟨p, hp⟩ | hp
          · rw [g1] at hp; cases hp
          · obtain ⟨q0, cb0, k0, e1, e2⟩ := ready_iff.1 hp
            rw [g1] at e1
            cases e1
            exact ready_iff.2 ⟨_, _, _, g2, g4 e2⟩
        | busy => exact .inr ⟨_, _, _, g2⟩
        | foreign => exact .inr ⟨_, _, _, g2⟩
        | parked =>
          cases hr : u.ready with
          | true => exact .inr rfl
          | false =>
            refine ⟨_, _, _, g2, ?_⟩
            unfold Task.ready at hr
            rw [g2] at hr
            exact hr
        | done =>
          obtain ⟨r, e, -⟩ := hp
          rw [g1] at e
          cases e
        | lost =>
          obtain ⟨r, e, -⟩ := hp
          rw [g1] at e
          cases e
      · rw [g2] at e
        cases e
        obtain ⟨e1, e2⟩ := hw _ _ _ g1
        exact ⟨g3.trans e1, e2⟩

/-! ## All tasks -/

theorem all_set {β : Type 1} {P : β → Prop} {l : List β} (h : ∀ x ∈ l, P x) (i : Nat) (y : β) (hy : P y) : ∀ x ∈ l.set i y, P x := by
  intro x hx
  rcases List.mem_or_eq_of_mem_set hx with hx | rfl
  · exact h x hx
  · exact hy

theorem fine_run {n : Nat} {H : List PoolAct} {s0 s : List PoolTask} (h0 : ∀ t ∈ s0, PoolTask.Fine t) (h : poolRun n H s0 = some s) :
    ∀ t ∈ s, PoolTask.Fine t := by
  induction H generalizing s0 with
  | nil => cases h; exact h0
  | cons a r ih =>
    simp only [poolRun, Option.bind_eq_some_iff] at h
    obtain ⟨s1, h1, h2⟩ := h
    refine ih ?_ h2
    rcases poolStep_cases h1 with ⟨β, p, rfl, rfl⟩ | ⟨i, t, t', hw, ht, hs, rfl⟩
    · intro t ht
      rcases List.mem_append.1 ht with ht | ht
      · exact h0 t ht
      · rw [List.mem_singleton] at ht
        subst ht
        exact fine_new p
    · exact all_set h0 i t' (fine_step (h0 t (List.mem_of_getElem? ht)) hs)

theorem countP_set {β : Type 1} (p : β → Bool) (l : List β) (i : Nat) (x y : β) (h : l[i]? = some x) :
    (l.set i y).countP p + (if p x then 1 else 0) = l.countP p + (if p y then 1 else 0) := by
  induction l generalizing i with
  | nil => simp at h
  | cons z l ih =>
    cases i with
    | zero =>
      simp only [List.getElem?_cons_zero, Option.some.injEq] at h
      subst h
      simp only [List.set_cons_zero, List.countP_cons]
      omega
    | succ i =>
      have := ih i (by simpa using h)
      simp only [List.set_cons_succ, List.countP_cons]
      omega

/-- A task takes up a thread only when it is taken from the queue and one is free. -/
theorem holds_step {free : Bool} {t t' : PoolTask} {a : PoolAct} (h : t.step free a = some t') :
    t'.place.holds = true → t.place.holds = true ∨ free = true := by
  obtain ⟨pl, α, t⟩ := t
  cases a with
  | start p => cases h
  | take j =>
    simp only [PoolTask.step] at h
    split at h <;> cases h
    rename_i hc
    exact fun _ => .inr hc.2
  | foreign i j q b =>
    simp only [PoolTask.step] at h
    obtain ⟨u, h1, rfl⟩ := Option.map_eq_some_iff.1 h
    simp only
    split
    · intro h; cases h
    · exact .inl
  | draw j m =>
    simp only [PoolTask.step] at h
    split at h
    · rename_i e
      subst e
      exact fun _ => .inl rfl
    · cases h
  | call j =>
    simp only [PoolTask.step] at h
    split at h
    · rename_i e
      subst e
      exact fun _ => .inl rfl
    · cases h
  | back j =>
    simp only [PoolTask.step] at h
    split at h
    · rename_i e
      subst e
      exact fun _ => .inl rfl
    · cases h
  | poll j =>
    simp only [PoolTask.step] at h
    split at h
    · rename_i e
      subst e
      exact fun _ => .inl rfl
    · cases h
  | finish j =>
    simp only [PoolTask.step] at h
    split at h
    · rename_i e
      subst e
      exact fun _ => .inl rfl
    · cases h

theorem inUse_step {n : Nat} {s s' : List PoolTask} {a : PoolAct} (h : poolStep n s a = some s') (hn : inUse s ≤ n) : inUse s' ≤ n := by
  rcases poolStep_cases h with ⟨β, p, rfl, rfl⟩ | ⟨i, t, t', hw, ht, hs, rfl⟩
  · unfold inUse at *
    rw [List.countP_append]
    simpa [Place.holds] using hn
  · have h1 := countP_set (fun t : PoolTask => t.place.holds) s i t t' ht
    have h2 := holds_step hs
    unfold inUse at *
    cases h3 : t'.place.holds with
    | false => simp only [h3] at h1; simp at h1; omega
    | true =>
      rcases h2 h3 with h4 | h4
      · simp only [h3, h4] at h1; simp at h1; omega
      · simp only [decide_eq_true_eq] at h4
        simp only [h3] at h1; simp at h1; omega

theorem inUse_run {n : Nat} {H : List PoolAct} {s0 s : List PoolTask} (h0 : inUse s0 ≤ n) (h : poolRun n H s0 = some s) :
    inUse s ≤ n := by
  induction H generalizing s0 with
  | nil => cases h; exact h0
  | cons a r ih =>
    simp only [poolRun, Option.bind_eq_some_iff] at h
    obtain ⟨s1, h1, h2⟩ := h
    exact ih (inUse_step h1 h0) h2

end DIDComm
