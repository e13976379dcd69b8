import Verif.Proofs.PoolBlocked
import Verif.Props.UniffiSystem
import Verif.Props.NoPanic

/-!
# C97: operations of the uniffi binding on a limited number of threads
-/

set_option autoImplicit false

namespace DIDComm

variable {n : Nat}

/-- C97: there are as many threads as processors, but at least eight. -/
theorem C97_size (cpus : Nat) : 8 ≤ poolSize cpus ∧ cpus ≤ poolSize cpus ∧ (poolSize cpus = 8 ∨ poolSize cpus = cpus) := by
  unfold poolSize
  omega

/-- C97: however few the threads, the operations do what they do with a thread for each: all that was proved about operations that run at
the same time holds. -/
theorem C97_same (H : List PoolAct) (s : List PoolTask) (h : poolRun n H [] = some s) :
    systemRun (H.filterMap PoolAct.forget) [] = some (s.map PoolTask.forget) := pool_forget h

/-- C97: in particular each operation asks the questions of the core in order, each with a callback of its own, gets the answers given
to them, and calls back at most once, with the core's result. -/
theorem C97_operation (H : List PoolAct) (s : List PoolTask) (h : poolRun n H [] = some s) (i : Nat) (t : PoolTask) (ht : s[i]? = some t) :
    ∃ (p : Prog t.α) (acts : List TaskAct) (tr : List Event), (started (H.filterMap PoolAct.forget))[i]? = some ⟨t.α, p⟩ ∧
      acts = ownActs i (H.filterMap PoolAct.forget) ∧ Reached p tr t.task.phase ∧
      (∀ (j : Nat) (ev : Event), (toResolvers tr)[j]? = some ev →
        ev.ans = answerTo ev.query (foreignOn j ev.query acts) ∧ Settled (foreignOn j ev.query acts)) ∧
      draws tr = drawnBy acts ∧
      t.task.reports = match t.task.phase with
        | .ended r => uniffiReport r
        | _ => [] := by
  obtain ⟨p, h1, h2⟩ := poolReports h ht
  obtain ⟨tr, g1, -, g2, -, g3⟩ := C90_operation p _ _ h2
  refine ⟨p, _, tr, h1, rfl, g1, g2, g3, (C90_once p _ _ h2).1.trans ?_⟩
  cases t.task.phase <;> rfl

/-- C97: never are more threads used than there are. -/
theorem C97_threads (H : List PoolAct) (s : List PoolTask) (h : poolRun n H [] = some s) : inUse s ≤ n :=
  inUse_run (by simp [inUse]) h

/-- C97: no wake-up is lost and none is spurious: an operation that waits for an answer without being in the queue or on a thread waits
for one that the foreign side has not given; one that is back in the queue while it waits has its answer. -/
theorem C97_woken (H : List PoolAct) (s : List PoolTask) (h : poolRun n H [] = some s) (i : Nat) (t : PoolTask) (ht : s[i]? = some t)
    (q : Query) (cb : CbState q.Ans) (k : q.Ans → Prog t.α) (hp : t.task.phase = .waiting q cb k) :
    (t.place = .parked → ¬ Settled (foreignOn t.task.old.length q (ownActs i (H.filterMap PoolAct.forget)))) ∧
    (t.place = .queued → Settled (foreignOn t.task.old.length q (ownActs i (H.filterMap PoolAct.forget)))) := by
  obtain ⟨p, -, h1⟩ := poolReports h ht
  obtain ⟨t', g1, g2, g3⟩ := C90_waits p _ _ h1 q cb k hp
  have hf := fine_run (by simp) h t (List.mem_of_getElem? ht)
  obtain ⟨q', cb', k', e1, e2⟩ := step_poll_phase hf.waits g1
  have hpl := hf.place
  rw [hp] at e1
  cases e1
  constructor
  · intro e hs
    rw [e] at hpl
    obtain ⟨q0, cb0, k0, e3, e4⟩ := hpl
    rw [hp] at e3
    cases e3
    rcases e2 with ⟨e2, -⟩ | ⟨-, rfl⟩
    · rw [e4] at e2
      cases e2
    · have := g2 hs
      rw [hp] at this
      cases this
  · intro e
    rw [e] at hpl
    rcases hpl with ⟨p', hpl⟩ | hpl
    · rw [hp] at hpl
      cases hpl
    · obtain ⟨q0, cb0, k0, e3, e4⟩ := ready_iff.1 hpl
      rw [hp] at e3
      cases e3
      rcases e2 with ⟨-, a, e2⟩ | ⟨e2, -⟩
      · by_cases hs : Settled (foreignOn t.task.old.length q (ownActs i (H.filterMap PoolAct.forget)))
        · exact hs
        · rw [g3 hs, hp] at e2
          cases e2
      · rw [e4] at e2
        cases e2

/-- C97: an operation that has a thread, in the library or in foreign code, keeps it until it has to wait for an answer that the foreign
side has not given, or has ended. -/
theorem C97_kept (H : List PoolAct) (s : List PoolTask) (h : poolRun n H [] = some s) (a : PoolAct) (s' : List PoolTask)
    (hs : poolStep n s a = some s') (i : Nat) (t : PoolTask) (ht : s[i]? = some t) (hp : t.place = .busy ∨ t.place = .foreign) :
    ∃ t' : PoolTask, s'[i]? = some t' ∧
      (t'.place = .busy ∨ t'.place = .foreign ∨ t'.place = .parked ∧ t'.Unanswered ∨ t'.CalledBack ∨ t'.Panicked) := by
  have hrun : poolRun n (H ++ [a]) [] = some s' := by
    rw [poolRun_append, h]
    simp [poolRun, hs]
  have hall := fine_run (by simp) hrun
  rcases poolStep_cases hs with ⟨β, p, rfl, rfl⟩ | ⟨j, u, u', hw, hu, hst, rfl⟩
  · refine ⟨t, ?_, hp.elim .inl fun h => .inr (.inl h)⟩
    rw [List.getElem?_append_left (List.getElem?_eq_some_iff.1 ht).1]
    exact ht
  · by_cases e : j = i
    · subst e
      rw [ht] at hu
      cases hu
      have hlt := (List.getElem?_eq_some_iff.1 ht).1
      have hget : (s.set j u')[j]? = some u' := List.getElem?_set_self hlt
      refine ⟨u', hget, ?_⟩
      have hf := hall u' (List.mem_of_getElem? hget)
      have hpl := hf.place
      have hq : u'.place ≠ .queued := by
        cases a with
        | start p => cases hw
        | take k => simp only [PoolTask.step] at hst; split at hst <;> cases hst; simp
        | draw k m =>
          simp only [PoolTask.step] at hst
          split at hst
          · obtain ⟨v, -, rfl⟩ := Option.map_eq_some_iff.1 hst; simp
          · cases hst
        | call k =>
          simp only [PoolTask.step] at hst
          split at hst
          · obtain ⟨v, -, rfl⟩ := Option.map_eq_some_iff.1 hst; simp
          · cases hst
        | back k =>
          simp only [PoolTask.step] at hst
          split at hst
          · split at hst <;> cases hst <;> simp
          · cases hst
        | poll k =>
          simp only [PoolTask.step] at hst
          split at hst
          · obtain ⟨v, -, hv⟩ := Option.map_eq_some_iff.1 hst
            split at hv <;> cases hv <;> simp
          · cases hst
        | finish k =>
          simp only [PoolTask.step] at hst
          split at hst
          · split at hst
            · rename_i r _
              obtain ⟨v, -, rfl⟩ := Option.map_eq_some_iff.1 hst
              rcases r with (_ | _ | _) | _ <;> simp [placeAtEnd]
            · cases hst
          · cases hst
        | foreign k j q b =>
          simp only [PoolTask.step] at hst
          obtain ⟨v, -, rfl⟩ := Option.map_eq_some_iff.1 hst
          dsimp only
          split
          · rename_i e
            rcases hp with hp | hp <;> · rw [hp] at e; cases e.1
          · rcases hp with hp | hp <;> simp [hp]
      cases e : u'.place with
      | queued => exact absurd e hq
      | busy => exact .inl rfl
      | foreign => exact .inr (.inl rfl)
      | parked =>
        rw [e] at hpl
        exact .inr (.inr (.inl ⟨rfl, hpl⟩))
      | done =>
        rw [e] at hpl
        obtain ⟨r, h1, h2⟩ := hpl
        exact .inr (.inr (.inr (.inl (calledBack hrun hget h1 h2))))
      | lost =>
        rw [e] at hpl
        exact .inr (.inr (.inr (.inr hpl)))
    · refine ⟨t, ?_, hp.elim .inl fun h => .inr (.inl h)⟩
      rw [List.getElem?_set_ne e]
      exact ht

/-- C97: if the binding can do nothing, every operation has called back, or panicked, or waits for the foreign side to answer — unless
all threads were lost to panics, and then others may be in the queue. -/
theorem C97_progress (H : List PoolAct) (s : List PoolTask) (h : poolRun n H [] = some s) (hc : ¬ CanAct n s) (t : PoolTask) (ht : t ∈ s) :
    t.CalledBack ∨ t.Panicked ∨ t.Unanswered ∨ t.place = .queued ∧ panics s = n := by
  have hall := fine_run (by simp) h
  have hf := hall t ht
  obtain ⟨i, hi⟩ := List.getElem?_of_mem ht
  have hn := C97_threads H s h
  have hpl := hf.place
  cases e : t.place with
  | queued =>
    refine .inr (.inr (.inr ⟨rfl, ?_⟩))
    have h1 : ¬ inUse s < n := fun hlt => hc (canAct_of_alone (queued_can hi e hlt))
    have h2 : panics s = inUse s := by
      unfold panics inUse
      apply List.countP_congr
      intro u hu
      obtain ⟨j, hj⟩ := List.getElem?_of_mem hu
      cases eu : u.place with
      | busy => exact absurd (canAct_of_alone (busy_can hj (hall u hu) eu)) hc
      | foreign => exact absurd (foreign_can hj (hall u hu) eu) hc
      | _ => simp [Place.holds]
    omega
  | busy => exact absurd (canAct_of_alone (busy_can hi hf e)) hc
  | foreign => exact absurd (foreign_can hi hf e) hc
  | parked =>
    rw [e] at hpl
    exact .inr (.inr (.inl hpl))
  | done =>
    rw [e] at hpl
    obtain ⟨r, h1, h2⟩ := hpl
    exact .inl (calledBack h hi h1 h2)
  | lost =>
    rw [e] at hpl
    exact .inr (.inl hpl)

/-- C97: if the binding can do nothing unless foreign code returns, then every operation has called back, panicked, waits for the foreign
side to answer or is in foreign code, or it is in the queue because all threads are in foreign code or lost. -/
theorem C97_alone (H : List PoolAct) (s : List PoolTask) (h : poolRun n H [] = some s) (hc : ¬ CanActAlone n s) (t : PoolTask) (ht : t ∈ s) :
    t.CalledBack ∨ t.Panicked ∨ t.Unanswered ∨ t.place = .foreign ∨ t.place = .queued ∧ blocked s = n := by
  have hall := fine_run (by simp) h
  have hf := hall t ht
  obtain ⟨i, hi⟩ := List.getElem?_of_mem ht
  have hn := C97_threads H s h
  have hpl := hf.place
  cases e : t.place with
  | queued =>
    refine .inr (.inr (.inr (.inr ⟨rfl, ?_⟩)))
    have h1 : ¬ inUse s < n := fun hlt => hc (queued_can hi e hlt)
    have h2 : (s.countP fun t => decide (t.place = .busy)) = 0 := by
      rw [List.countP_eq_zero]
      intro u hu eu
      obtain ⟨j, hj⟩ := List.getElem?_of_mem hu
      exact hc (busy_can hj (hall u hu) (by simpa using eu))
    have h3 := inUse_eq s
    omega
  | busy => exact absurd (busy_can hi hf e) hc
  | foreign => exact .inr (.inr (.inr (.inl rfl)))
  | parked =>
    rw [e] at hpl
    exact .inr (.inr (.inl hpl))
  | done =>
    rw [e] at hpl
    obtain ⟨r, h1, h2⟩ := hpl
    exact .inl (calledBack h hi h1 h2)
  | lost =>
    rw [e] at hpl
    exact .inr (.inl hpl)

/-- C97: the binding never goes on for ever on its own: once no more operations are called, there is a moment after which it does
nothing, whatever the foreign side does with callbacks. -/
theorem C97_quiet (f : Nat → Option PoolAct) (s : Nat → List PoolTask) (hx : Execution n f s) (hc : CallsEnd f) :
    ∃ N, ∀ i a, N ≤ i → f i = some a → a.own = false := by
  obtain ⟨N, -, h⟩ := exec_still hx hc
  exact ⟨N, h⟩

/-- C97: all operations end, however many they are and however few the threads: if threads run what they can, foreign code that is
called returns, every answer comes sooner or later, and fewer operations panic than there are threads, then there is a moment from which
on every operation has called back, or panicked. -/
theorem C97_all_end (f : Nat → Option PoolAct) (s : Nat → List PoolTask) (hx : Execution n f s) (hc : CallsEnd f) (hg : Goes n f s)
    (ha : AnswersCome s) (hp : ∀ i, panics (s i) < n) : ∃ N, ∀ i, N ≤ i → ∀ t ∈ s i, t.CalledBack ∨ t.Panicked := by
  obtain ⟨N, hN, hown⟩ := exec_still hx hc
  have quiet : ∀ M, N ≤ M → ¬ ∀ i, M ≤ i → CanAct n (s i) := by
    intro M hM h
    obtain ⟨i, a, h1, h2, h3⟩ := hg M h
    rw [hown i a (by omega) h2] at h3
    cases h3
  obtain ⟨i, hi, hcan⟩ : ∃ i, N ≤ i ∧ ¬ CanAct n (s i) := by
    have := quiet N (Nat.le_refl _)
    simpa using this
  -- after `i`, places change only from waiting to the queue
  have move : ∀ (d x : Nat) (t : PoolTask), (s (i + d))[x]? = some t → ∃ t' : PoolTask, (s (i + d + 1))[x]? = some t' ∧
      (t'.place = t.place ∨ t.place = .parked ∧ t'.place = .queued) := by
    intro d x t ht
    obtain ⟨t', h1, ⟨a, h2, h3, h4⟩ | ⟨rfl, -⟩⟩ := exec_task hx (i + d) x t ht
    · refine ⟨t', h1, ?_⟩
      have ho := hown (i + d) a (by omega) h2
      cases a with
      | foreign i' j q b => exact foreign_place h4
      | start p => cases h3
      | _ => cases ho
    · exact ⟨t', h1, .inl rfl⟩
  have use : ∀ d, inUse (s (i + d)) = inUse (s i) ∧ (s (i + d)).length = (s i).length := by
    intro d
    induction d with
    | zero => exact ⟨rfl, rfl⟩
    | succ d ih =>
      rw [← ih.1, ← ih.2]
      have := hx.2 (i + d)
      split at this
      · rename_i a e
        refine ⟨(blocked_foreign (hown (i + d) a (by omega) e) this).2.2, ?_⟩
        rw [← ih.2] at ih
        rw [exec_length hx N hN (i + (d + 1)) (by omega), exec_length hx N hN (i + d) (by omega)]
      · rw [show i + (d + 1) = i + d + 1 from rfl, this]
        exact ⟨rfl, rfl⟩
  obtain ⟨H, hH⟩ := exec_reach hx i
  have hall := exec_fine hx i
  have hno : ∀ (x : Nat) (t : PoolTask), (s i)[x]? = some t → t.place = .done ∨ t.place = .lost := by
    intro x t ht
    have hm := List.mem_of_getElem? ht
    have hf := hall t hm
    cases e : t.place with
    | done => exact .inl rfl
    | lost => exact .inr rfl
    | busy => exact absurd (canAct_of_alone (busy_can ht hf e)) hcan
    | foreign => exact absurd (foreign_can ht hf e) hcan
    | queued =>
      have hfree : inUse (s i) < n := by
        have h2 : inUse (s i) = panics (s i) := by
          unfold panics inUse
          apply List.countP_congr
          intro u hu
          obtain ⟨j, hj⟩ := List.getElem?_of_mem hu
          cases eu : u.place with
          | busy => exact absurd (canAct_of_alone (busy_can hj (hall u hu) eu)) hcan
          | foreign => exact absurd (foreign_can hj (hall u hu) eu) hcan
          | _ => simp [Place.holds]
        rw [h2]
        exact hp i
      exact absurd (canAct_of_alone (queued_can ht e hfree)) hcan
    | parked =>
      exfalso
      have hfree : inUse (s i) < n := by
        have h2 : inUse (s i) = panics (s i) := by
          unfold panics inUse
          apply List.countP_congr
          intro u hu
          obtain ⟨j, hj⟩ := List.getElem?_of_mem hu
          cases eu : u.place with
          | busy => exact absurd (canAct_of_alone (busy_can hj (hall u hu) eu)) hcan
          | foreign => exact absurd (foreign_can hj (hall u hu) eu) hcan
          | _ => simp [Place.holds]
        rw [h2]
        exact hp i
      have hpl := hf.place
      rw [e] at hpl
      obtain ⟨j, tj, hj, htj, hnu⟩ := ha i x t ht hpl
      -- from `i` on the task waits or is in the queue
      have stay : ∀ d, ∃ t' : PoolTask, (s (i + d))[x]? = some t' ∧ (t'.place = .parked ∨ t'.place = .queued) := by
        intro d
        induction d with
        | zero => exact ⟨t, ht, .inl e⟩
        | succ d ih =>
          obtain ⟨t1, h1, h2⟩ := ih
          obtain ⟨t2, h3, h4⟩ := move d x t1 h1
          refine ⟨t2, h3, ?_⟩
          rcases h4 with h4 | ⟨-, h4⟩
          · rw [h4]
            exact h2
          · exact .inr h4
      have hqj : tj.place = .queued := by
        obtain ⟨t1, h1, h2⟩ := stay (j - i)
        rw [show i + (j - i) = j by omega, htj] at h1
        cases h1
        rcases h2 with h2 | h2
        · have := (exec_fine hx j tj (List.mem_of_getElem? htj)).place
          rw [h2] at this
          exact absurd this hnu
        · exact h2
      have later : ∀ d, ∃ t' : PoolTask, (s (j + d))[x]? = some t' ∧ t'.place = .queued := by
        intro d
        induction d with
        | zero => exact ⟨tj, htj, hqj⟩
        | succ d ih =>
          obtain ⟨t1, h1, h2⟩ := ih
          have hij : j + d = i + (j - i + d) := by omega
          rw [hij] at h1
          obtain ⟨t2, h3, h4⟩ := move _ x t1 h1
          refine ⟨t2, by rw [show j + (d + 1) = i + (j - i + d) + 1 by omega]; exact h3, ?_⟩
          rcases h4 with h4 | ⟨h4, -⟩
          · rw [h4, h2]
          · rw [h2] at h4
            cases h4
      refine quiet j (by omega) fun k hk => ?_
      obtain ⟨t1, h1, h2⟩ := later (k - j)
      rw [show j + (k - j) = k by omega] at h1
      refine canAct_of_alone (queued_can h1 h2 ?_)
      have := (use (k - i)).1
      rw [show i + (k - i) = k by omega] at this
      rw [this]
      exact hfree
  refine ⟨i, fun k hk t ht => ?_⟩
  obtain ⟨x, hxt⟩ := List.getElem?_of_mem ht
  have hlen := (use (k - i)).2
  rw [show i + (k - i) = k by omega] at hlen
  have hlt : x < (s i).length := by
    rw [← hlen]
    rcases Nat.lt_or_ge x (s k).length with h | h
    · exact h
    · rw [List.getElem?_eq_none h] at hxt; cases hxt
  have ended : ∀ d, ∃ t' : PoolTask, (s (i + d))[x]? = some t' ∧ (t'.place = .done ∨ t'.place = .lost) := by
    intro d
    induction d with
    | zero => exact ⟨_, List.getElem?_eq_getElem hlt, hno x _ (List.getElem?_eq_getElem hlt)⟩
    | succ d ih =>
      obtain ⟨t1, h1, h2⟩ := ih
      obtain ⟨t2, h3, h4⟩ := move d x t1 h1
      refine ⟨t2, h3, ?_⟩
      rcases h4 with h4 | ⟨h4, -⟩
      · rw [h4]
        exact h2
      · rw [h4] at h2
        rcases h2 with h2 | h2 <;> cases h2
  obtain ⟨t1, h1, h2⟩ := ended (k - i)
  rw [show i + (k - i) = k by omega, hxt] at h1
  cases h1
  obtain ⟨Hk, hHk⟩ := exec_reach hx k
  have hpl := (exec_fine hx k t ht).place
  rcases h2 with h2 | h2
  · rw [h2] at hpl
    obtain ⟨r, g1, g2⟩ := hpl
    exact .inl (calledBack hHk hxt g1 g2)
  · rw [h2] at hpl
    exact .inr hpl

/-- A question, and its answer as the result. -/
def World.lookup (d : Str) : Prog (Option DIDDoc) :=
  .ask (.resolve d) fun
    | .ok x => .ret (.ok x)
    | .error k => .ret (.error (.kind k))

/-- Two such operations on one thread: the first waits for its answer while the second is run; the resolver answers the second during
the call, and the first after the second has ended. -/
def World.sharedThread : List PoolAct :=
  [.start (World.lookup World.bob), .start (World.lookup World.alice), .take 0, .call 0, .back 0, .poll 0, .take 1, .call 1,
    .foreign 1 0 (.resolve World.alice) (.take 0 (.ok none)), .foreign 1 0 (.resolve World.alice) (.send 0), .back 1, .poll 1, .finish 1,
    .back 1, .foreign 0 0 (.resolve World.bob) (.take 0 (.error .ioError)), .foreign 0 0 (.resolve World.bob) (.send 0), .take 0, .poll 0,
    .finish 0, .back 0]

/-- The first is parked while the second runs. -/
example : ((poolRun 1 (World.sharedThread.take 8) []).map fun s => s.map PoolTask.place) = some [.parked, .foreign] ∧
    ((poolRun 1 (World.sharedThread.take 16) []).map fun s => s.map PoolTask.place) = some [.queued, .done] := by decide +kernel

theorem calm_all_done {s : List PoolTask} (h : ∀ t ∈ s, PoolTask.place t = .done) : ¬ CanAct n s := by
  rintro ⟨a, ho, hs⟩
  obtain ⟨s', hs⟩ := Option.isSome_iff_exists.1 hs
  rcases poolStep_cases hs with ⟨β, p, rfl, rfl⟩ | ⟨i, t, t', hw, ht, hst, rfl⟩
  · cases ho
  · have := h t (List.mem_of_getElem? ht)
    rcases own_needs ho hst with h | ⟨h, -⟩ | ⟨h, -⟩ <;> rw [this] at h <;> cases h

/-- The hypotheses of C97_all_end are met by it, on one thread. -/
example : ∃ f s, Execution 1 f s ∧ CallsEnd f ∧ Goes 1 f s ∧ AnswersCome s ∧ (∀ i, panics (s i) < 1) ∧ ∃ i, (s i).length = 2 := by
  have hplaces : ((poolRun 1 World.sharedThread []).map fun s => s.map PoolTask.place) = some [.done, .done] := by decide +kernel
  obtain ⟨s0, h0, hp⟩ := Option.map_eq_some_iff.1 hplaces
  have hdone : ∀ t ∈ s0, PoolTask.place t = .done := by
    intro t ht
    have : t.place ∈ s0.map PoolTask.place := List.mem_map_of_mem ht
    rw [hp] at this
    simpa using this
  obtain ⟨S, h1, h2, h3, h4⟩ := exec_of_run h0
  refine ⟨_, S, h1, h2, ?_, ?_, ?_, World.sharedThread.length, ?_⟩
  · intro N h
    have := h (max N World.sharedThread.length) (by omega)
    rw [h3 _ (by omega)] at this
    exact absurd this (calm_all_done hdone)
  · intro i x t ht hu
    obtain ⟨t', ht'⟩ := exec_exists h1 i x (by
      rcases Nat.lt_or_ge x (S i).length with h | h
      · exact h
      · rw [List.getElem?_eq_none h] at ht; cases ht) (max i World.sharedThread.length) (by omega)
    refine ⟨_, t', by omega, ht', ?_⟩
    rintro ⟨q, cb, k, e, -⟩
    have hm := List.mem_of_getElem? ht'
    have hf := (exec_fine h1 _ t' hm).place
    rw [h3 _ (by omega)] at hm
    rw [hdone t' hm] at hf
    obtain ⟨r, hf, -⟩ := hf
    rw [e] at hf
    cases hf
  · intro i
    have hall : ∀ i < 21, (poolRun 1 (World.sharedThread.take i) []).map panics = some 0 := by decide +kernel
    have : panics (S i) = 0 := by
      have h5 := h4 i
      by_cases hi : i < 21
      · have := hall i hi
        rw [h5] at this
        simpa using this
      · have h6 := hall 20 (by omega)
        rw [List.take_of_length_le (by show 20 ≤ i; omega)] at h5
        rw [List.take_of_length_le (by show 20 ≤ 20; omega), h5] at h6
        simpa using h6
    omega
  · rw [h3 _ (Nat.le_refl _)]
    have := congrArg List.length hp
    simpa using this

/-- C97: when all threads are in foreign code or lost, then until foreign code returns no operation goes on: none calls back, and those
called meanwhile do not begin.  So resolvers that keep the thread until another operation of the binding has ended can wait for ever. -/
theorem C97_exhausted (H : List PoolAct) (s : List PoolTask) (h : poolRun n H [] = some s) (hb : blocked s = n) (more : List PoolAct)
    (s' : List PoolTask) (hm : poolRun n more s = some s') (hback : ∀ a ∈ more, PoolAct.isBack a = false) :
    (∀ a ∈ more, PoolAct.own a = false) ∧
      (∀ (i : Nat) (t : PoolTask), s[i]? = some t →
        ∃ t' : PoolTask, s'[i]? = some t' ∧ t'.task.reports.length = t.task.reports.length) ∧
      ∀ (i : Nat) (t : PoolTask), s.length ≤ i → s'[i]? = some t → t.place = .queued ∧ ∃ p, t.task = Task.new p := by
  obtain ⟨h1, -, -, -, h5, h6⟩ := blocked_run (C97_threads H s h) hb hm (.inl hback)
  exact ⟨h1, h5, h6⟩

/-- C97: that happens: as many operations as there are threads, each with a question for a resolver. -/
theorem C97_exhaustible {α : Type} (q : Query) (k : q.Ans → Prog α) (hq : q.toResolver = true) :
    ∃ (H : List PoolAct) (s : List PoolTask), poolRun n H [] = some s ∧ blocked s = n ∧ s.length = n ∧ panics s = 0 := by
  have := pool_repeat (n := n) (.ask q k) .call ⟨.foreign, α, { Task.new (.ask q k) with phase := .waiting q .new k }⟩ rfl (fun _ => rfl)
    (fun i => by cases q <;> first | exact ⟨rfl, rfl⟩ | cases hq) n (Nat.le_refl _)
  refine ⟨_, _, this, ?_, List.length_replicate, ?_⟩
  · simp [blocked, List.countP_replicate]
  · simp [panics, List.countP_replicate]

/-- The hypotheses of C97_exhausted are met with eight threads, by eight operations that each look a document up. -/
example : ∃ (H : List PoolAct) (s : List PoolTask), poolRun (poolSize 4) H [] = some s ∧ blocked s = poolSize 4 ∧ s.length = 8 := by
  obtain ⟨H, s, h1, h2, h3, -⟩ := C97_exhaustible (n := poolSize 4) (.resolve World.bob)
    (fun _ => (.ret (.ok ()) : Prog Unit)) rfl
  exact ⟨H, s, h1, h2, h3⟩

/-- C97_kept: an operation in foreign code, and the return from there. -/
example : ∃ (s s' : List PoolTask) (t t' : PoolTask),
    poolRun (poolSize 4) [.start (.ask (.resolve World.bob) fun _ => (.ret (.ok ()) : Prog Unit)), .take 0, .call 0] [] = some s ∧
      poolStep (poolSize 4) s (.back 0) = some s' ∧ s[0]? = some t ∧ t.place = .foreign ∧ s'[0]? = some t' ∧ t'.place = .busy :=
  ⟨_, _, _, _, rfl, rfl, rfl, rfl, rfl, rfl⟩

/-- C97: an operation that panics takes its thread with it: when as many have panicked as there were threads, no operation ever goes on
again, whatever happens: none calls back, and those called later do not begin. -/
theorem C97_dead (H : List PoolAct) (s : List PoolTask) (h : poolRun n H [] = some s) (hp : panics s = n) (more : List PoolAct)
    (s' : List PoolTask) (hm : poolRun n more s = some s') :
    (∀ a ∈ more, PoolAct.own a = false) ∧
      (∀ (i : Nat) (t : PoolTask), s[i]? = some t →
        ∃ t' : PoolTask, s'[i]? = some t' ∧ t'.task.reports.length = t.task.reports.length) ∧
      ∀ (i : Nat) (t : PoolTask), s.length ≤ i → s'[i]? = some t → t.place = .queued ∧ ∃ p, t.task = Task.new p := by
  have hn := C97_threads H s h
  have h1 := panics_le_blocked s
  have h2 := blocked_le_inUse s
  obtain ⟨g1, -, -, -, g5, g6⟩ := blocked_run hn (by omega) hm (.inr hp)
  exact ⟨g1, g5, g6⟩

/-- C97: that happens: `wrap_in_forward` without routing keys, called as often as there are threads. -/
theorem C97_killed (C : Crypto) (msg : Str) (headers : List (Str × Value)) (to : Str) (alg : AnonCryptAlg) :
    ∃ s, poolRun n ((List.range n).flatMap fun i =>
        [.start (wrapInForward C msg (some headers) to [] alg), .take i, .finish i]) [] = some s ∧ panics s = n := by
  have hw : wrapInForward C msg (some headers) to [] alg = .ret (.error .panic) := rfl
  have := pool_repeat (n := n) (wrapInForward C msg (some headers) to [] alg) .finish
    ⟨.lost, Str, ⟨.ended (.error .panic), [], []⟩⟩ rfl (fun _ => rfl) (fun i => ⟨rfl, rfl⟩) n (Nat.le_refl _)
  exact ⟨_, this, by simp [panics, List.countP_replicate]⟩

end DIDComm
