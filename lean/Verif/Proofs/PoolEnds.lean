import Verif.Proofs.Pool

/-! # Operations on a limited number of threads: what is possible, and why everything ends -/

set_option autoImplicit false

namespace DIDComm

variable {α : Type}

/-! ## What is possible -/

theorem can_task {n : Nat} {s : List PoolTask} {i : Nat} {t t' : PoolTask} {a : PoolAct} (ht : s[i]? = some t) (hw : a.who = some i)
    (h : t.step (decide (inUse s < n)) a = some t') : (poolStep n s a).isSome = true := by
  rw [(poolStep_who hw).2 ⟨t, t', ht, h, rfl⟩]
  rfl

/-- A task that has a thread of its own and is not in foreign code can go on. -/
theorem busy_can {n : Nat} {s : List PoolTask} {i : Nat} {t : PoolTask} (ht : s[i]? = some t) (hf : t.Fine) (hb : t.place = .busy) :
    CanActAlone n s := by
  obtain ⟨pl, β, t⟩ := t
  cases hb
  obtain ⟨⟨p, hp⟩ | ⟨q, cb, k, hp⟩, hw⟩ := hf
  · have hp : t.phase = .running p := hp
    cases p with
    | ret r =>
      refine ⟨.finish i, rfl, rfl, can_task ht rfl
        (t' := ⟨placeAtEnd r, β, { t with phase := .ended r, reports := t.reports ++ uniffiReport r }⟩) ?_⟩
      simp only [PoolTask.step, Task.step, hp, if_true, Option.map_some]
    | ask q k =>
      cases q with
      | random =>
        refine ⟨.draw i 0, rfl, rfl, can_task ht rfl (t' := ⟨.busy, β, { t with phase := .running (k (0 : Nat)) }⟩) ?_⟩
        simp only [PoolTask.step, Task.step, hp, if_true, Option.map_some]
      | resolve d =>
        refine ⟨.call i, rfl, rfl, can_task ht rfl (t' := ⟨.foreign, β, { t with phase := .waiting (.resolve d) .new k }⟩) ?_⟩
        simp only [PoolTask.step, Task.step, hp, if_true, Option.map_some]
      | getSecret d =>
        refine ⟨.call i, rfl, rfl, can_task ht rfl (t' := ⟨.foreign, β, { t with phase := .waiting (.getSecret d) .new k }⟩) ?_⟩
        simp only [PoolTask.step, Task.step, hp, if_true, Option.map_some]
      | findSecrets d =>
        refine ⟨.call i, rfl, rfl, can_task ht rfl (t' := ⟨.foreign, β, { t with phase := .waiting (.findSecrets d) .new k }⟩) ?_⟩
        simp only [PoolTask.step, Task.step, hp, if_true, Option.map_some]
  · obtain ⟨h1, h2⟩ := hw q cb k hp
    simp only at hp
    have hc : ∃ cb', cb.step .poll = some cb' := by
      simp only [CbState.step, h1]
      split <;> exact ⟨_, rfl⟩
    obtain ⟨cb', hc⟩ := hc
    refine ⟨.poll i, rfl, rfl, ?_⟩
    have : ∃ t', PoolTask.step (decide (inUse s < n)) ⟨.busy, β, t⟩ (.poll i) = some t' := by
      simp only [PoolTask.step, Task.step, hp, if_true, hc, Option.map_some]
      exact ⟨_, rfl⟩
    obtain ⟨t', h'⟩ := this
    exact can_task ht rfl h'

theorem queued_can {n : Nat} {s : List PoolTask} {i : Nat} {t : PoolTask} (ht : s[i]? = some t) (hb : t.place = .queued)
    (hn : inUse s < n) : CanActAlone n s := by
  refine ⟨.take i, rfl, rfl, can_task ht rfl (t' := { t with place := .busy }) ?_⟩
  simp only [PoolTask.step, hb, decide_eq_true hn, and_self, if_true]

theorem foreign_can {n : Nat} {s : List PoolTask} {i : Nat} {t : PoolTask} (ht : s[i]? = some t) (hf : t.Fine) (hb : t.place = .foreign) :
    CanAct n s := by
  obtain ⟨pl, β, t⟩ := t
  cases hb
  obtain ⟨⟨r, hp, -⟩ | ⟨q, cb, k, hp⟩, hw⟩ := hf
  · simp only at hp
    refine ⟨.back i, rfl, can_task ht rfl (t' := ⟨.done, β, t⟩) ?_⟩
    simp only [PoolTask.step, hp, if_true]
  · simp only at hp
    refine ⟨.back i, rfl, can_task ht rfl (t' := ⟨.busy, β, t⟩) ?_⟩
    simp only [PoolTask.step, hp, if_true]

theorem canAct_of_alone {n : Nat} {s : List PoolTask} (h : CanActAlone n s) : CanAct n s := by
  obtain ⟨a, h1, -, h2⟩ := h
  exact ⟨a, h1, h2⟩

theorem poolReports {n : Nat} {H : List PoolAct} {s : List PoolTask} (h : poolRun n H [] = some s) {i : Nat} {t : PoolTask}
    (ht : s[i]? = some t) : ∃ p : Prog t.α, (started (H.filterMap PoolAct.forget))[i]? = some ⟨t.α, p⟩ ∧
      Task.run (ownActs i (H.filterMap PoolAct.forget)) (Task.new p) = some t.task := by
  have hs := pool_forget h
  obtain ⟨h1, -, h3⟩ := system_run hs
  simp only [List.map_nil, List.length_nil, Nat.zero_add, List.length_map] at h1 h3
  have hlt : i < s.length := by
    rcases Nat.lt_or_ge i s.length with h | h
    · exact h
    · rw [List.getElem?_eq_none h] at ht; cases ht
  obtain ⟨⟨β, p⟩, hp⟩ : ∃ x, (started (H.filterMap PoolAct.forget))[i]? = some x :=
    ⟨_, List.getElem?_eq_getElem (by omega)⟩
  obtain ⟨u, g1, g2⟩ := h3 i β p hp
  rw [List.getElem?_map, ht] at g2
  obtain ⟨pl, γ, t⟩ := t
  simp only [PoolTask.forget, Option.map_some, Option.some.injEq, AnyTask.mk.injEq] at g2
  obtain ⟨rfl, g2⟩ := g2
  cases g2
  exact ⟨p, hp, g1⟩

theorem calledBack {n : Nat} {H : List PoolAct} {s : List PoolTask} (h : poolRun n H [] = some s) {i : Nat} {t : PoolTask}
    (ht : s[i]? = some t) {r : Res t.α} (hp : t.task.phase = .ended r) (hr : uniffiReport r ≠ []) : t.CalledBack := by
  obtain ⟨p, -, h1⟩ := poolReports h ht
  obtain ⟨tr, hi⟩ := taskInv h1
  have := hi.reports
  rw [hp] at this
  refine ⟨r, hp, this, ?_⟩
  rw [this]
  cases r with
  | ok a => rfl
  | error e =>
    cases e with
    | kind k => rfl
    | panic => exact absurd rfl hr
    | fuel => exact absurd rfl hr

/-! ## A measure -/

/-- A program with any type of result. -/
def AnyProg : Type 1 := (α : Type) × Prog α

/-- What is left after a question was answered. -/
inductive SubProg : AnyProg → AnyProg → Prop
  | mk {α : Type} (q : Query) (k : q.Ans → Prog α) (a : q.Ans) : SubProg ⟨α, k a⟩ ⟨α, .ask q k⟩

theorem subProg_wf : WellFounded SubProg := by
  refine ⟨fun ⟨α, p⟩ => ?_⟩
  induction p with
  | ret r => exact ⟨_, fun y h => by cases h⟩
  | ask q k ih =>
    refine ⟨_, fun y h => ?_⟩
    cases h with
    | mk _ _ a => exact ih a

/-- What is still to do. -/
def TaskPhase.remaining : TaskPhase α → AnyProg
  | .running p => ⟨α, p⟩
  | .waiting q _ k => ⟨α, .ask q k⟩
  | .ended r => ⟨α, .ret r⟩

/-- How far a task is with the next question. -/
def TaskPhase.rank : TaskPhase α → Place → Nat
  | .running _, .queued => 8
  | .running _, _ => 7
  | .waiting _ _ _, .foreign => 6
  | .waiting _ cb _, .busy => if cb.ready = true then 2 else 5
  | .waiting _ _ _, .parked => 4
  | .waiting _ cb _, _ => if cb.ready = true then 3 else 9
  | .ended _, .foreign => 1
  | .ended _, _ => 0

/-- What a task has still to do. -/
def PoolTask.remaining (t : PoolTask) : AnyProg := t.task.phase.remaining

/-- How far it is with the next question. -/
def PoolTask.rank (t : PoolTask) : Nat := t.task.phase.rank t.place

/-- The order in which tasks go down. -/
def Below : AnyProg × Nat → AnyProg × Nat → Prop := Prod.Lex SubProg (· < ·)

theorem below_wf : WellFounded Below := (Prod.lex ⟨SubProg, subProg_wf⟩ Nat.lt_wfRel).wf

/-- The measure. -/
def PoolTask.measure (t : PoolTask) : AnyProg × Nat := (t.remaining, t.rank)

theorem below_rank {t t' : PoolTask} (h1 : t'.remaining = t.remaining) (h2 : t'.rank < t.rank) : Below t'.measure t.measure := by
  unfold PoolTask.measure
  rw [h1]
  exact .right _ h2

theorem own_below {free : Bool} {t t' : PoolTask} {a : PoolAct} (hf : t.Fine) (ho : a.own = true) (h : t.step free a = some t') :
    Below t'.measure t.measure := by
  obtain ⟨pl, β, t⟩ := t
  obtain ⟨hp, hw⟩ := hf
  have hw : ∀ (q : Query) (cb : CbState q.Ans) (k : q.Ans → Prog β), t.phase = .waiting q cb k → cb.waiter = .waiting ∧ q.toResolver = true := hw
  cases a with
  | start p => cases h
  | foreign i j q b => cases ho
  | take j =>
    simp only [PoolTask.step] at h
    split at h <;> cases h
    rename_i hc
    obtain ⟨rfl, -⟩ := hc
    refine below_rank rfl ?_
    rcases hp with ⟨p, hp⟩ | hp
    · simp only at hp
      simp only [PoolTask.rank, TaskPhase.rank, hp]
      omega
    · obtain ⟨q, cb, k, h1, h2⟩ := ready_iff.1 hp
      simp only at h1
      simp only [PoolTask.rank, TaskPhase.rank, h1, h2, if_true]
      omega
  | draw j m =>
    simp only [PoolTask.step] at h
    split at h
    · obtain ⟨u, h1, rfl⟩ := Option.map_eq_some_iff.1 h
      obtain ⟨k, g1, g2⟩ := step_draw_phase h1
      refine .left _ _ ?_
      unfold PoolTask.remaining TaskPhase.remaining
      simp only [g1, g2]
      exact .mk (Query.random) k m
    · cases h
  | call j =>
    simp only [PoolTask.step] at h
    split at h
    · rename_i e
      subst e
      obtain ⟨u, h1, rfl⟩ := Option.map_eq_some_iff.1 h
      obtain ⟨q, k, g1, g2, g3⟩ := step_call_phase h1
      refine below_rank ?_ ?_
      · show u.phase.remaining = t.phase.remaining
        rw [g1, g3]
        rfl
      · simp only [PoolTask.rank, TaskPhase.rank, g1, g3]
        omega
    · cases h
  | back j =>
    simp only [PoolTask.step] at h
    split at h
    · rename_i e
      subst e
      split at h
      · rename_i q cb k e
        cases h
        refine below_rank rfl ?_
        simp only [PoolTask.rank, TaskPhase.rank, e]
        split <;> omega
      · rename_i r e
        cases h
        refine below_rank rfl ?_
        simp only [PoolTask.rank, TaskPhase.rank, e]
        omega
      · cases h
    · cases h
  | poll j =>
    simp only [PoolTask.step] at h
    split at h
    · rename_i e
      subst e
      obtain ⟨u, h1, h2⟩ := Option.map_eq_some_iff.1 h
      obtain ⟨q, cb, k, g1, hr⟩ := step_poll_phase hw h1
      have g1 : t.phase = TaskPhase.waiting (α := β) q cb k := g1
      rcases hr with ⟨g2, a, g3⟩ | ⟨g2, rfl⟩
      · have g3 : u.phase = TaskPhase.running (α := β) (k a) := g3
        rw [g3] at h2
        cases h2
        refine .left _ _ ?_
        unfold PoolTask.remaining TaskPhase.remaining
        simp only [g1, g3]
        exact .mk q k a
      · rw [g1] at h2
        cases h2
        refine below_rank rfl ?_
        simp only [PoolTask.rank, TaskPhase.rank, g1, g2]
        simp
    · cases h
  | finish j =>
    simp only [PoolTask.step] at h
    split at h
    · rename_i e
      subst e
      split at h
      · rename_i r e
        obtain ⟨u, h1, rfl⟩ := Option.map_eq_some_iff.1 h
        obtain ⟨r', g1, g2, g3⟩ := step_finish_phase h1
        refine below_rank ?_ ?_
        · show u.phase.remaining = t.phase.remaining
          rw [g1, g2]
          rfl
        · show u.phase.rank (placeAtEnd r) < t.phase.rank .busy
          rw [g1, g2]
          cases placeAtEnd r <;> simp [TaskPhase.rank]
      · cases h
    · cases h

theorem foreign_below {free : Bool} {t t' : PoolTask} {i j : Nat} {q : Query} {b : ForeignAct q.Ans} (hf : t.Fine)
    (h : t.step free (.foreign i j q b) = some t') : t'.measure = t.measure ∨ Below t'.measure t.measure := by
  obtain ⟨pl, β, t⟩ := t
  obtain ⟨hp, hw⟩ := hf
  simp only [PoolTask.step] at h
  obtain ⟨u, h1, rfl⟩ := Option.map_eq_some_iff.1 h
  rcases step_foreign_phase h1 with ⟨g1, -⟩ | ⟨q', cb, cb', k, g1, g2, g3, g4⟩
  · have hr : u.ready = t.ready := by unfold Task.ready; rw [g1]
    refine .inl ?_
    have hpl : (if pl = .parked ∧ u.ready = true then Place.queued else pl) = pl := by
      rw [if_neg]
      rintro ⟨rfl, e⟩
      obtain ⟨q, cb, k, e1, e2⟩ := hp
      rw [hr] at e
      obtain ⟨q', cb', k', e3, e4⟩ := ready_iff.1 e
      rw [e3] at e1
      cases e1
      rw [e4] at e2
      cases e2
    rw [hpl]
    simp only [PoolTask.measure, PoolTask.remaining, PoolTask.rank, g1]
  · have hrem : PoolTask.remaining ⟨if pl = .parked ∧ u.ready = true then .queued else pl, β, u⟩ = PoolTask.remaining ⟨pl, β, t⟩ := by
      show u.phase.remaining = t.phase.remaining
      rw [g1, g2]
      rfl
    have hle : PoolTask.rank ⟨if pl = .parked ∧ u.ready = true then .queued else pl, β, u⟩ ≤ PoolTask.rank ⟨pl, β, t⟩ := by
      have hu : u.ready = cb'.ready := by unfold Task.ready; rw [g2]
      rw [hu]
      cases hr' : cb'.ready with
      | true =>
        cases pl <;> simp only [PoolTask.rank, TaskPhase.rank, g1, g2, hr', reduceCtorEq, false_and, if_false, and_self, if_true] <;>
          first | omega | (split <;> omega)
      | false =>
        have hr : cb.ready = false := by
          cases h : cb.ready with
          | false => rfl
          | true => rw [g4 h] at hr'; cases hr'
        cases pl <;> simp [PoolTask.rank, TaskPhase.rank, g1, g2, hr', hr]
    rcases Nat.lt_or_eq_of_le hle with hlt | heq
    · exact .inr (below_rank hrem hlt)
    · refine .inl ?_
      unfold PoolTask.measure
      rw [hrem, heq]

/-! ## Executions -/

theorem eventually_still.{u} {W : Type u} {R : W → W → Prop} (wf : WellFounded R) (m : Nat → W) (own : Nat → Prop) (N : Nat)
    (h1 : ∀ i, N ≤ i → own i → R (m (i + 1)) (m i)) (h2 : ∀ i, N ≤ i → m (i + 1) = m i ∨ R (m (i + 1)) (m i)) :
    ∃ N', N ≤ N' ∧ ∀ i, N' ≤ i → ¬ own i := by
  have down : ∀ (M : Nat), N ≤ M → ∀ d, m (M + d) = m M ∨ Relation.TransGen R (m (M + d)) (m M) := by
    intro M hM d
    induction d with
    | zero => exact .inl rfl
    | succ d ih =>
      rcases h2 (M + d) (by omega) with e | e
      · rw [show M + (d + 1) = M + d + 1 from rfl, e]
        exact ih
      · refine .inr ?_
        rcases ih with ih | ih
        · rw [ih] at e
          exact .single e
        · exact .trans (.single e) ih
  have key : ∀ (w : W) (M : Nat), N ≤ M → m M = w → ∃ N', M ≤ N' ∧ ∀ i, N' ≤ i → ¬ own i := by
    intro w
    induction w using wf.transGen.induction with
    | _ w ih =>
      intro M hM hw
      by_cases h : ∃ i, M ≤ i ∧ own i
      · obtain ⟨i, hi, ho⟩ := h
        have e1 := h1 i (by omega) ho
        have : Relation.TransGen R (m (i + 1)) w := by
          subst hw
          rcases down M hM (i - M) with e | e
          · rw [show M + (i - M) = i by omega] at e
            rw [e] at e1
            exact .single e1
          · rw [show M + (i - M) = i by omega] at e
            exact .trans (.single e1) e
        obtain ⟨N', g1, g2⟩ := ih _ this (i + 1) (by omega) rfl
        exact ⟨N', by omega, g2⟩
      · exact ⟨M, Nat.le_refl _, fun i hi ho => h ⟨i, hi, ho⟩⟩
  exact key _ N (Nat.le_refl _) rfl

variable {n : Nat} {f : Nat → Option PoolAct} {s : Nat → List PoolTask}

theorem exec_reach (hx : Execution n f s) (i : Nat) : ∃ H, poolRun n H [] = some (s i) := by
  induction i with
  | zero => exact ⟨[], by rw [hx.1]; rfl⟩
  | succ i ih =>
    obtain ⟨H, hH⟩ := ih
    have := hx.2 i
    split at this
    · rename_i a ha
      refine ⟨H ++ [a], ?_⟩
      rw [poolRun_append, hH]
      simp only [Option.bind_some, poolRun, this]
    · exact ⟨H, by rw [hH, this]⟩

theorem exec_fine (hx : Execution n f s) (i : Nat) : ∀ t ∈ s i, PoolTask.Fine t := by
  obtain ⟨H, hH⟩ := exec_reach hx i
  exact fine_run (by simp) hH

/-- One moment, for one task: nothing happens to it, or a step of its own. -/
theorem exec_task (hx : Execution n f s) (i x : Nat) (t : PoolTask) (ht : (s i)[x]? = some t) :
    ∃ t', (s (i + 1))[x]? = some t' ∧
      ((∃ a, f i = some a ∧ a.who = some x ∧ t.step (decide (inUse (s i) < n)) a = some t') ∨
        t' = t ∧ ∀ a, f i = some a → a.who ≠ some x) := by
  have := hx.2 i
  split at this
  · rename_i a ha
    rcases poolStep_cases this with ⟨β, p, rfl, e⟩ | ⟨j, u, u', hw, hu, hs, e⟩
    · refine ⟨t, ?_, .inr ⟨rfl, ?_⟩⟩
      · rw [e, List.getElem?_append_left]
        · exact ht
        · rcases Nat.lt_or_ge x (s i).length with h | h
          · exact h
          · rw [List.getElem?_eq_none h] at ht; cases ht
      · intro a h
        rw [ha] at h
        cases h
        simp [PoolAct.who]
    · by_cases hj : j = x
      · subst hj
        rw [hu] at ht
        cases ht
        refine ⟨u', ?_, .inl ⟨a, ha, hw, hs⟩⟩
        rw [e, List.getElem?_set]
        rw [if_pos rfl, if_pos]
        rcases Nat.lt_or_ge j (s i).length with h | h
        · exact h
        · rw [List.getElem?_eq_none h] at hu; cases hu
      · refine ⟨t, ?_, .inr ⟨rfl, ?_⟩⟩
        · rw [e, List.getElem?_set, if_neg hj]
          exact ht
        · intro b h e'
          rw [ha] at h
          cases h
          rw [hw] at e'
          cases e'
          exact hj rfl
  · rename_i hn
    rw [this]
    exact ⟨t, ht, .inr ⟨rfl, fun a h => by rw [hn] at h; cases h⟩⟩

theorem exec_exists (hx : Execution n f s) (N x : Nat) (hl : x < (s N).length) (i : Nat) (hi : N ≤ i) : ∃ t, (s i)[x]? = some t := by
  obtain ⟨d, rfl⟩ := Nat.exists_eq_add_of_le hi
  clear hi
  induction d with
  | zero => exact ⟨_, List.getElem?_eq_getElem hl⟩
  | succ d ih =>
    obtain ⟨t, ht⟩ := ih
    obtain ⟨t', h', -⟩ := exec_task hx (N + d) x t ht
    exact ⟨t', h'⟩

/-- From some moment on the binding does nothing for operation `x`. -/
theorem exec_still_one (hx : Execution n f s) (N x : Nat) (hl : x < (s N).length) :
    ∃ N', N ≤ N' ∧ ∀ i, N' ≤ i → ¬ ∃ a, f i = some a ∧ a.who = some x ∧ a.own = true := by
  let m : Nat → AnyProg × Nat := fun i =>
    match (s i)[x]? with
    | some t => t.measure
    | none => (⟨Unit, .ret (.ok ())⟩, 0)
  refine eventually_still below_wf m _ N ?_ ?_
  · rintro i hi ⟨a, ha, hw, ho⟩
    obtain ⟨t, ht⟩ := exec_exists hx N x hl i hi
    obtain ⟨t', ht', h⟩ := exec_task hx i x t ht
    have hm : m i = t.measure := by simp only [m, ht]
    have hm' : m (i + 1) = t'.measure := by simp only [m, ht']
    rw [hm, hm']
    rcases h with ⟨b, hb, -, hs⟩ | ⟨-, h⟩
    · rw [ha] at hb
      cases hb
      exact own_below (exec_fine hx i t (List.mem_of_getElem? ht)) ho hs
    · exact absurd hw (h a ha)
  · intro i hi
    obtain ⟨t, ht⟩ := exec_exists hx N x hl i hi
    obtain ⟨t', ht', h⟩ := exec_task hx i x t ht
    have hm : m i = t.measure := by simp only [m, ht]
    have hm' : m (i + 1) = t'.measure := by simp only [m, ht']
    rw [hm, hm']
    have hfine := exec_fine hx i t (List.mem_of_getElem? ht)
    rcases h with ⟨a, -, -, hs⟩ | ⟨rfl, -⟩
    · by_cases ho : a.own = true
      · exact .inr (own_below hfine ho hs)
      · cases a with
        | start p => cases hs
        | foreign i j q b => exact foreign_below hfine hs
        | _ => exact absurd rfl ho
    · exact .inl rfl

theorem exec_length (hx : Execution n f s) (N : Nat) (hN : ∀ i, N ≤ i → ∀ (β : Type) (p : Prog β), f i ≠ some (.start p)) (i : Nat)
    (hi : N ≤ i) : (s i).length = (s N).length := by
  obtain ⟨d, rfl⟩ := Nat.exists_eq_add_of_le hi
  clear hi
  induction d with
  | zero => rfl
  | succ d ih =>
    rw [← ih]
    have := hx.2 (N + d)
    split at this
    · rename_i a ha
      rcases poolStep_cases this with ⟨β, p, rfl, e⟩ | ⟨j, u, u', hw, hu, hs, e⟩
      · exact absurd ha (hN _ (by omega) β p)
      · rw [show N + (d + 1) = N + d + 1 from rfl, e, List.length_set]
    · rw [show N + (d + 1) = N + d + 1 from rfl, this]

/-- From some moment on the binding does nothing. -/
theorem exec_still (hx : Execution n f s) (hc : CallsEnd f) :
    ∃ N, (∀ i, N ≤ i → ∀ (β : Type) (p : Prog β), f i ≠ some (.start p)) ∧ ∀ i a, N ≤ i → f i = some a → a.own = false := by
  obtain ⟨N, hN⟩ := hc
  have key : ∀ L, L ≤ (s N).length → ∃ N', N ≤ N' ∧ ∀ x, x < L → ∀ i, N' ≤ i → ¬ ∃ a, f i = some a ∧ a.who = some x ∧ a.own = true := by
    intro L
    induction L with
    | zero => exact fun _ => ⟨N, Nat.le_refl _, fun x h => absurd h (Nat.not_lt_zero _)⟩
    | succ L ih =>
      intro hL
      obtain ⟨N1, g1, g2⟩ := ih (by omega)
      obtain ⟨N2, g3, g4⟩ := exec_still_one hx N L (by omega)
      refine ⟨max N1 N2, by omega, fun x hx' i hi => ?_⟩
      rcases Nat.lt_succ_iff_lt_or_eq.1 hx' with h | rfl
      · exact g2 x h i (by omega)
      · exact g4 i (by omega)
  obtain ⟨N', g1, g2⟩ := key _ (Nat.le_refl _)
  refine ⟨N', fun i hi => hN i (by omega), fun i a hi ha => ?_⟩
  cases ho : a.own with
  | false => rfl
  | true =>
    have := hx.2 i
    rw [ha] at this
    rcases poolStep_cases this with ⟨β, p, rfl, e⟩ | ⟨j, u, u', hw, hu, hs, e⟩
    · cases ho
    · have hj : j < (s N).length := by
        rw [← exec_length hx N hN i (by omega)]
        rcases Nat.lt_or_ge j (s i).length with h | h
        · exact h
        · rw [List.getElem?_eq_none h] at hu; cases hu
      exact absurd ⟨a, ha, hw, ho⟩ (g2 j hj i hi)

end DIDComm
