import Verif.Proofs.PoolEnds

/-! # Threads that are not available -/

set_option autoImplicit false

namespace DIDComm

variable {n : Nat} {f : Nat → Option PoolAct} {s : Nat → List PoolTask}

theorem inUse_eq (s : List PoolTask) : inUse s = blocked s + s.countP fun t => decide (t.place = .busy) := by
  unfold inUse blocked
  induction s with
  | nil => rfl
  | cons t s ih =>
    rw [List.countP_cons, List.countP_cons, List.countP_cons, ih]
    obtain ⟨pl, β, t⟩ := t
    cases pl <;> simp [Place.holds] <;> omega

theorem panics_le_blocked (s : List PoolTask) : panics s ≤ blocked s := by
  unfold panics blocked
  apply List.countP_mono_left
  intro t _ h
  simp only [decide_eq_true_eq] at h ⊢
  exact .inr h

theorem blocked_le_inUse (s : List PoolTask) : blocked s ≤ inUse s := by
  rw [inUse_eq]
  omega

theorem busy_count {s : List PoolTask} {i : Nat} {t : PoolTask} (ht : s[i]? = some t) (hb : t.place = .busy) :
    0 < s.countP fun t => decide (t.place = .busy) := by
  rw [List.countP_pos_iff]
  exact ⟨t, List.mem_of_getElem? ht, by simp [hb]⟩

/-- What the foreign side does with callbacks moves a task at most from waiting to the queue. -/
theorem foreign_place {free : Bool} {t t' : PoolTask} {i j : Nat} {q : Query} {b : ForeignAct q.Ans}
    (h : t.step free (.foreign i j q b) = some t') : t'.place = t.place ∨ t.place = .parked ∧ t'.place = .queued := by
  simp only [PoolTask.step] at h
  obtain ⟨u, h1, rfl⟩ := Option.map_eq_some_iff.1 h
  simp only
  split
  · rename_i hc
    exact .inr ⟨hc.1, rfl⟩
  · exact .inl rfl

theorem foreign_reports {free : Bool} {t t' : PoolTask} {i j : Nat} {q : Query} {b : ForeignAct q.Ans}
    (h : t.step free (.foreign i j q b) = some t') : t'.task.reports.length = t.task.reports.length := by
  simp only [PoolTask.step] at h
  obtain ⟨u, h1, rfl⟩ := Option.map_eq_some_iff.1 h
  simp only [Task.step] at h1
  split at h1
  · obtain ⟨s, -, rfl⟩ := Option.map_eq_some_iff.1 h1
    rfl
  · split at h1
    · split at h1
      · obtain ⟨s, hs, rfl⟩ := Option.map_eq_some_iff.1 h1
        rfl
      · cases h1
    · cases h1

/-- An act of the binding needs a task on a thread, or a task in the queue and a free thread, or foreign code that returns. -/
theorem own_needs {free : Bool} {t t' : PoolTask} {a : PoolAct} (ho : a.own = true) (h : t.step free a = some t') :
    t.place = .busy ∨ t.place = .queued ∧ free = true ∨ t.place = .foreign ∧ a.isBack = true := by
  cases a with
  | start p => cases ho
  | foreign i j q b => cases ho
  | take j =>
    simp only [PoolTask.step] at h
    split at h
    · rename_i hc
      exact .inr (.inl hc)
    · cases h
  | back j =>
    simp only [PoolTask.step] at h
    split at h
    · rename_i hc
      exact .inr (.inr ⟨hc, rfl⟩)
    · cases h
  | _ =>
    simp only [PoolTask.step] at h
    split at h
    · rename_i hc
      exact .inl hc
    · cases h

theorem blocked_own {s s' : List PoolTask} {a : PoolAct} (hn : inUse s ≤ n) (hb : blocked s = n) (h : poolStep n s a = some s')
    (ho : a.own = true) : a.isBack = true ∧ ∃ t ∈ s, PoolTask.place t = .foreign := by
  have he := inUse_eq s
  rcases poolStep_cases h with ⟨β, p, rfl, rfl⟩ | ⟨i, t, t', hw, ht, hs, rfl⟩
  · cases ho
  · rcases own_needs ho hs with hp | ⟨-, hp⟩ | ⟨hp, hk⟩
    · have := busy_count ht hp
      omega
    · simp only [decide_eq_true_eq] at hp
      omega
    · exact ⟨hk, t, List.mem_of_getElem? ht, hp⟩

theorem blocked_foreign {s s' : List PoolTask} {a : PoolAct} (ho : a.own = false) (h : poolStep n s a = some s') :
    blocked s' = blocked s ∧ panics s' = panics s ∧ inUse s' = inUse s := by
  rcases poolStep_cases h with ⟨β, p, rfl, rfl⟩ | ⟨i, t, t', hw, ht, hs, rfl⟩
  · simp [blocked, panics, inUse, List.countP_append, Place.holds]
  · cases a with
    | foreign i' j q b =>
      have hp := foreign_place hs
      have h1 := countP_set (fun t : PoolTask => decide (t.place = .foreign ∨ t.place = .lost)) s i t t' ht
      have h2 := countP_set (fun t : PoolTask => decide (t.place = .lost)) s i t t' ht
      have h3 := countP_set (fun t : PoolTask => t.place.holds) s i t t' ht
      unfold blocked panics inUse
      rcases hp with hp | ⟨hp, hp'⟩
      · rw [hp] at h1 h2 h3
        omega
      · rw [hp, hp'] at h1 h2 h3
        simp only [Place.holds, reduceCtorEq, or_self, decide_false, Bool.false_eq_true, if_false, Nat.add_zero] at h1 h2 h3
        exact ⟨h1, h2, h3⟩
    | start p => cases hw
    | _ => cases ho

theorem snocInduction.{u} {β : Type u} {P : List β → Prop} (nil : P []) (snoc : ∀ l a, P l → P (l ++ [a])) (l : List β) : P l := by
  rw [← List.reverse_reverse l]
  generalize l.reverse = m
  induction m with
  | nil => exact nil
  | cons a m ih => rw [List.reverse_cons]; exact snoc _ _ ih

/-- While nothing comes back to it, a binding without threads does nothing. -/
theorem blocked_run {H : List PoolAct} {s s' : List PoolTask} (hn : inUse s ≤ n) (hb : blocked s = n) (h : poolRun n H s = some s')
    (hback : (∀ a ∈ H, PoolAct.isBack a = false) ∨ panics s = n) :
    (∀ a ∈ H, PoolAct.own a = false) ∧ blocked s' = n ∧ inUse s' ≤ n ∧ (panics s = n → panics s' = n) ∧
      (∀ (i : Nat) (t : PoolTask), s[i]? = some t →
        ∃ t' : PoolTask, s'[i]? = some t' ∧ t'.task.reports.length = t.task.reports.length) ∧
      ∀ (i : Nat) (t : PoolTask), s.length ≤ i → s'[i]? = some t → t.place = .queued ∧ ∃ p, t.task = Task.new p := by
  induction H using snocInduction generalizing s' with
  | nil =>
    cases h
    refine ⟨by simp, hb, hn, id, fun i t ht => ⟨t, ht, rfl⟩, fun i t hi ht => ?_⟩
    rw [List.getElem?_eq_none hi] at ht
    cases ht
  | snoc H a ih =>
    rw [poolRun_append] at h
    obtain ⟨s1, h1, h2⟩ := Option.bind_eq_some_iff.1 h
    simp only [poolRun, Option.bind_eq_some_iff] at h2
    obtain ⟨s2, h2, e⟩ := h2
    cases e
    obtain ⟨g1, g2, g3, g4, g5, g6⟩ := ih h1 (hback.imp (fun h b hm => h b (List.mem_append_left _ hm)) id)
    have ho : a.own = false := by
      cases ho : a.own with
      | false => rfl
      | true =>
        obtain ⟨e1, t, ht, e2⟩ := blocked_own g3 g2 h2 ho
        rcases hback with hback | hback
        · rw [hback a (by simp)] at e1
          cases e1
        · have : panics s1 < blocked s1 := by
            obtain ⟨i, hi⟩ := List.getElem?_of_mem ht
            have h1 := countP_set (fun t : PoolTask => decide (t.place = .foreign ∨ t.place = .lost)) s1 i t { t with place := .done } hi
            have h2 := countP_set (fun t : PoolTask => decide (t.place = .lost)) s1 i t { t with place := .done } hi
            have h3 := panics_le_blocked (s1.set i { t with place := .done })
            unfold panics blocked at *
            simp only [e2, reduceCtorEq, or_self, or_false, decide_false, decide_true, Bool.false_eq_true, if_false, if_true,
              Nat.add_zero] at h1 h2
            omega
          have := g4 hback
          omega
    obtain ⟨k1, k2, k3⟩ := blocked_foreign ho h2
    refine ⟨?_, by rw [k1, g2], by rw [k3]; exact g3, fun e => by rw [k2, g4 e], ?_, ?_⟩
    · intro b hm
      rcases List.mem_append.1 hm with hm | hm
      · exact g1 b hm
      · rw [List.mem_singleton] at hm
        subst hm
        exact ho
    · intro i t ht
      obtain ⟨t1, h1, e1⟩ := g5 i t ht
      rcases poolStep_cases h2 with ⟨β, p, rfl, rfl⟩ | ⟨j, u, u', hw, hu, hs, rfl⟩
      · refine ⟨t1, ?_, e1⟩
        rw [List.getElem?_append_left]
        · exact h1
        · rcases Nat.lt_or_ge i s1.length with h | h
          · exact h
          · rw [List.getElem?_eq_none h] at h1; cases h1
      · by_cases hj : j = i
        · subst hj
          rw [hu] at h1
          cases h1
          refine ⟨u', ?_, ?_⟩
          · rw [List.getElem?_set, if_pos rfl, if_pos]
            rcases Nat.lt_or_ge j s1.length with h | h
            · exact h
            · rw [List.getElem?_eq_none h] at hu; cases hu
          · rw [← e1]
            cases a with
            | foreign i' j' q b => exact foreign_reports hs
            | start p => cases hw
            | _ => cases ho
        · exact ⟨t1, by rw [List.getElem?_set, if_neg hj]; exact h1, e1⟩
    · intro i t hi ht
      rcases poolStep_cases h2 with ⟨β, p, rfl, rfl⟩ | ⟨j, u, u', hw, hu, hs, rfl⟩
      · rw [List.getElem?_append] at ht
        split at ht
        · exact g6 i t hi ht
        · rw [List.getElem?_singleton] at ht
          split at ht
          · cases ht
            exact ⟨rfl, p, rfl⟩
          · cases ht
      · rw [List.getElem?_set] at ht
        split at ht
        · rename_i e
          subst e
          split at ht
          · cases ht
            obtain ⟨-, p, hp⟩ := g6 j u hi hu
            cases a with
            | foreign i' j' q b =>
              simp only [PoolTask.step] at hs
              rw [hp] at hs
              simp [Task.step, Task.new] at hs
            | start p => cases hw
            | _ => cases ho
          · cases ht
        · exact g6 i t hi ht

/-- The same task again and again: each is started, taken, and brought to the same place. -/
theorem pool_repeat {α : Type} (p : Prog α) (e : Nat → PoolAct) (x : PoolTask) (hx : x.place.holds = true) (hw : ∀ i, (e i).who = some i)
    (he : ∀ i, PoolTask.step false ⟨.busy, α, Task.new p⟩ (e i) = some x ∧ PoolTask.step true ⟨.busy, α, Task.new p⟩ (e i) = some x)
    (k : Nat) (hk : k ≤ n) :
    poolRun n ((List.range k).flatMap fun i => [.start p, .take i, e i]) [] = some (List.replicate k x) := by
  induction k with
  | zero => rfl
  | succ k ih =>
    rw [List.range_succ, List.flatMap_append, poolRun_append, ih (by omega)]
    have hin : inUse (List.replicate k x ++ [⟨.queued, α, Task.new p⟩]) < n := by
      unfold inUse
      rw [List.countP_append, List.countP_replicate, if_pos hx]
      simp [Place.holds]
      omega
    simp only [Option.bind_some, List.flatMap_cons, List.flatMap_nil, List.append_nil, poolRun]
    rw [show poolStep n (List.replicate k x) (.start p) = some (List.replicate k x ++ [⟨.queued, α, Task.new p⟩]) from rfl]
    simp only [Option.bind_some]
    rw [(poolStep_who (a := .take k) (i := k) rfl).2 ⟨⟨.queued, α, Task.new p⟩, ⟨.busy, α, Task.new p⟩, by simp, by
      simp [PoolTask.step, hin], rfl⟩]
    simp only [Option.bind_some]
    have hset : (List.replicate k x ++ [(⟨.queued, α, Task.new p⟩ : PoolTask)]).set k ⟨.busy, α, Task.new p⟩ =
        List.replicate k x ++ [⟨.busy, α, Task.new p⟩] := by
      rw [List.set_append_right _ _ (by simp)]
      simp
    rw [hset, (poolStep_who (hw k)).2 ⟨⟨.busy, α, Task.new p⟩, x, by simp, by
      cases decide (inUse (List.replicate k x ++ [⟨.busy, α, Task.new p⟩]) < n)
      · exact (he k).1
      · exact (he k).2, rfl⟩]
    simp only [Option.bind_some]
    rw [List.set_append_right _ _ (by simp)]
    simp [List.replicate_succ']

/-- A history that comes to an end, as an execution in which nothing happens any more. -/
theorem exec_of_run {H : List PoolAct} {s0 : List PoolTask} (h : poolRun n H [] = some s0) :
    ∃ S, Execution n (fun i => H[i]?) S ∧ CallsEnd (fun i => H[i]?) ∧ (∀ i, H.length ≤ i → S i = s0) ∧
      ∀ i, poolRun n (H.take i) [] = some (S i) := by
  have hpre : ∀ i, poolRun n (H.take i) [] = some ((poolRun n (H.take i) []).getD []) := by
    intro i
    rw [← List.take_append_drop i H, poolRun_append] at h
    obtain ⟨s1, h1, -⟩ := Option.bind_eq_some_iff.1 h
    rw [h1]
    rfl
  generalize hS : (fun i => (poolRun n (H.take i) []).getD []) = S
  have hpre : ∀ i, poolRun n (H.take i) [] = some (S i) := fun i => by rw [hpre i, ← hS]
  refine ⟨S, ⟨?_, fun i => ?_⟩, ⟨H.length, fun i hi β p e => ?_⟩, fun i hi => ?_, hpre⟩
  · have := hpre 0
    simp only [List.take_zero, poolRun] at this
    exact (Option.some.inj this).symm
  · have h1 := hpre i
    have h2 := hpre (i + 1)
    simp only
    split
    · rename_i a ha
      rw [List.take_add_one, ha, poolRun_append, h1] at h2
      simp only [Option.bind_some, Option.toList_some, poolRun, Option.bind_eq_some_iff] at h2
      obtain ⟨s2, h3, e⟩ := h2
      rw [h3, Option.some.inj e]
    · rename_i ha
      rw [List.take_add_one, ha] at h2
      simp only [Option.toList_none, List.append_nil] at h2
      rw [h1] at h2
      exact (Option.some.inj h2).symm
  · simp only at e
    rw [List.getElem?_eq_none hi] at e
    cases e
  · have h1 := hpre i
    rw [List.take_of_length_le hi, h] at h1
    exact (Option.some.inj h1).symm

end DIDComm
