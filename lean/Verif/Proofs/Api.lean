import Verif.Spec.Api
import Verif.Props.Pool
import Verif.Props.JsSystem

/-! # What a call of a binding can come to: proofs -/

set_option autoImplicit false

namespace DIDComm

variable {α : Type}

/-- A run with the answers of `E` is the run with `E` and its random values. -/
theorem run_of_runs {E : Env} {p : Prog α} {tr : List Event} {r : Res α} (h : Runs p tr r) (ha : Answers E tr) :
    ∃ rnd, p.run E rnd = (tr, r) := by
  induction h with
  | ret r => exact ⟨fun _ => 0, rfl⟩
  | ask q k a tr r _ ih =>
    obtain ⟨rnd, hr⟩ := ih fun ev hm => ha ev (List.mem_cons_of_mem _ hm)
    have h0 := ha ⟨q, a⟩ List.mem_cons_self
    cases q with
    | random =>
      refine ⟨fun n => match n with | 0 => a | n + 1 => rnd n, ?_⟩
      simp only [Prog.run]
      rw [hr]
    | resolve d => cases h0; exact ⟨rnd, by simp only [Prog.run]; rw [hr]⟩
    | getSecret d => cases h0; exact ⟨rnd, by simp only [Prog.run]; rw [hr]⟩
    | findSecrets d => cases h0; exact ⟨rnd, by simp only [Prog.run]; rw [hr]⟩

/-! ## uniffi -/

/-- A task alone on one thread can be taken to its end. -/
theorem poolRealise (E : Env) (p : Prog α) : ∀ (rnd : Nat → Nat) (t : Task α), t.phase = .running p →
    ∃ H place t', poolRun 1 H [⟨.busy, α, t⟩] = some [⟨place, α, t'⟩] ∧ t'.phase = .ended (p.run E.throughUniffi rnd).2 ∧
      CompletesFrom E t.old.length (ownActs 0 (H.filterMap PoolAct.forget)) := by
  induction p with
  | ret r =>
    intro rnd t hp
    refine ⟨[.finish 0], placeAtEnd r, { t with phase := .ended r, reports := t.reports ++ uniffiReport r }, ?_, ?_, ?_⟩
    · simp [poolRun, poolStep, PoolAct.who, PoolTask.step, Task.step, hp]
    · rfl
    · intro j q
      exact ⟨fun _ => rfl, fun i v h => (by cases h), fun h => (by cases h)⟩
  | ask q k ih =>
    intro rnd t hp
    by_cases hq : q.toResolver = true
    · have key : ∃ H place t', poolRun 1 H [⟨.busy, α, t⟩] = some [⟨place, α, t'⟩] ∧
          t'.phase = .ended ((k (seen q (E.answer q))).run E.throughUniffi rnd).2 ∧
          CompletesFrom E t.old.length (ownActs 0 (H.filterMap PoolAct.forget)) := by
        let cb1 : CbState q.Ans := { (CbState.new : CbState q.Ans) with sender := .held 0 (E.answer q), called := fun j => if j = 0 then true else false }
        let cb2 : CbState q.Ans := { cb1 with sender := .gone, content := some (E.answer q), returned := fun k => if k = 0 then some (.ok ()) else none }
        let cb3 : CbState q.Ans := { cb2 with waiter := .got (E.answer q) }
        let t0 : Task α := { t with phase := .waiting q .new k }
        let t1 : Task α := { t with phase := .waiting q cb1 k }
        let t2 : Task α := { t with phase := .waiting q cb2 k }
        let t3 : Task α := { t with phase := .running (k (seen q (E.answer q))), old := t.old ++ [⟨q, cb3⟩] }
        have s0 : t.step .call = some t0 := by
          cases q with
          | random => cases hq
          | resolve d => simp only [Task.step, hp]; rfl
          | getSecret d => simp only [Task.step, hp]; rfl
          | findSecrets d => simp only [Task.step, hp]; rfl
        have s1 : t0.step (.foreign t.old.length q (.take 0 (E.answer q))) = some t1 :=
          task_foreign_current (t := t0) (cb' := cb1) rfl rfl
        have s2 : t1.step (.foreign t.old.length q (.send 0)) = some t2 :=
          task_foreign_current (t := t1) (cb' := cb2) rfl rfl
        have s3 : t2.step .poll = some t3 := task_poll_current (t := t2) (cb' := cb3) rfl rfl (adapter_got hq _)
        have p0 : poolStep 1 [⟨.busy, α, t⟩] (.call 0) = some [⟨.foreign, α, t0⟩] := by
          simp [poolStep, PoolAct.who, PoolTask.step, s0]
        have p1 : poolStep 1 [⟨.foreign, α, t0⟩] (.foreign 0 t.old.length q (.take 0 (E.answer q))) = some [⟨.foreign, α, t1⟩] := by
          simp [poolStep, PoolAct.who, PoolTask.step, s1]
        have p2 : poolStep 1 [⟨.foreign, α, t1⟩] (.foreign 0 t.old.length q (.send 0)) = some [⟨.foreign, α, t2⟩] := by
          simp [poolStep, PoolAct.who, PoolTask.step, s2]
        have p2' : poolStep 1 [⟨.foreign, α, t2⟩] (.back 0) = some [⟨.busy, α, t2⟩] := by
          simp [poolStep, PoolAct.who, PoolTask.step, t2]
        have p3 : poolStep 1 [⟨.busy, α, t2⟩] (.poll 0) = some [⟨.busy, α, t3⟩] := by
          simp only [poolStep, PoolAct.who, PoolTask.step, s3, List.getElem?_cons_zero, if_true, Option.map_some]
          rfl
        obtain ⟨H, place, t', g1, g2, g3⟩ := ih (seen q (E.answer q)) rnd t3 rfl
        refine ⟨.call 0 :: .foreign 0 t.old.length q (.take 0 (E.answer q)) :: .foreign 0 t.old.length q (.send 0) :: .back 0 :: .poll 0 :: H,
          place, t', ?_, g2, ?_⟩
        · simp only [poolRun, p0, p1, p2, p2', p3, Option.bind_some, g1]
        · intro j q'
          obtain ⟨c1, c2, c3⟩ := g3 j q'
          have hl : t3.old.length = t.old.length + 1 := by simp [t3]
          rw [hl] at c1
          simp only [List.filterMap_cons, PoolAct.forget, ownActs, if_true]
          rw [foreignOn_quiet rfl]
          generalize ownActs 0 (H.filterMap PoolAct.forget) = acts at c1 c2 c3
          by_cases hj : t.old.length = j ∧ q = q'
          · obtain ⟨rfl, rfl⟩ := hj
            have hnil := c1 (Nat.lt_succ_self _)
            have e : foreignOn t.old.length q (.foreign t.old.length q (.take 0 (E.answer q)) :: .foreign t.old.length q (.send 0) :: .poll :: acts)
                = [.take 0 (E.answer q), .send 0] := by
              simp only [foreignOn, and_self, dif_pos]
              rw [hnil]
              rfl
            rw [e]
            refine ⟨fun h => absurd h (Nat.lt_irrefl _), fun i v h => ?_, by simp⟩
            cases h
            rfl
          · have e : foreignOn j q' (.foreign t.old.length q (.take 0 (E.answer q)) :: .foreign t.old.length q (.send 0) :: .poll :: acts)
                = foreignOn j q' acts := by
              simp only [foreignOn, hj, dif_neg, not_false_iff]
            rw [e]
            exact ⟨fun h => c1 (by omega), c2, c3⟩
      rw [seen_answer] at key
      cases q with
      | random => cases hq
      | resolve d => exact key
      | getSecret d => exact key
      | findSecrets d => exact key
    · cases q with
      | random =>
        obtain ⟨H, place, t', g1, g2, g3⟩ := ih (rnd 0) (fun n => rnd (n + 1)) { t with phase := .running (k (rnd 0)) } rfl
        refine ⟨.draw 0 (rnd 0) :: H, place, t', ?_, ?_, ?_⟩
        · have e : poolStep 1 [⟨.busy, α, t⟩] (.draw 0 (rnd 0)) = some [⟨.busy, α, { t with phase := .running (k (rnd 0)) }⟩] := by
            simp [poolStep, PoolAct.who, PoolTask.step, Task.step, hp]
          simp only [poolRun, e, Option.bind_some]
          exact g1
        · exact g2
        · intro j q
          simp only [List.filterMap_cons, PoolAct.forget, ownActs, if_true]
          rw [foreignOn_quiet rfl]
          exact g3 j q
      | resolve d => exact absurd rfl hq
      | getSecret d => exact absurd rfl hq
      | findSecrets d => exact absurd rfl hq

theorem started_append (l l' : List SystemAct) : started (l ++ l') = started l ++ started l' := by
  induction l with
  | nil => rfl
  | cons a r ih => cases a <;> simp [started, ih]

/-- What a call of the uniffi binding can come to is what the core can come to. -/
theorem uniffiOutcome_iff {E : Env} {p : Prog α} {x : Callback α} :
    UniffiOutcome E (.start p) x ↔ ∃ r, MayEnd E.throughUniffi p r ∧ x ∈ uniffiReport r := by
  constructor
  · rintro ⟨n, before, after, s, place, t, h1, h2, h3, h4⟩
    obtain ⟨p', g1, g2⟩ := poolReports h1 h2
    have e : (started ((before ++ PoolAct.start p :: after).filterMap PoolAct.forget))[(started (before.filterMap PoolAct.forget)).length]? =
        some ⟨α, p⟩ := by
      rw [List.filterMap_append, started_append]
      simp [PoolAct.forget, started]
    rw [e] at g1
    cases g1
    obtain ⟨tr, k1, k2, -⟩ := C90_faithful E p _ _ g2 h3
    have k3 := (C90_once p _ _ g2).1
    simp only at k1 k3
    rw [k3] at h4
    cases hp : t.phase with
    | ended r => rw [hp] at h4 k1; exact ⟨r, ⟨tr, k2, k1⟩, h4⟩
    | running p' => rw [hp] at h4; cases h4
    | waiting q cb k => rw [hp] at h4; cases h4
  · rintro ⟨r, ⟨tr, ha, hr⟩, hx⟩
    obtain ⟨rnd, hrun⟩ := run_of_runs hr ha
    obtain ⟨H, place, t', g1, g2, g3⟩ := poolRealise E p rnd (Task.new p) rfl
    rw [hrun] at g2
    have h1 : poolRun 1 ([] ++ .start p :: .take 0 :: H) [] = some [⟨place, α, t'⟩] := by
      simpa [poolRun, poolStep, PoolAct.who, PoolTask.step, inUse, Place.holds] using g1
    have e : ownActs 0 (([] ++ PoolAct.start p :: .take 0 :: H).filterMap PoolAct.forget) = ownActs 0 (H.filterMap PoolAct.forget) := by
      simp [List.filterMap_cons, PoolAct.forget, ownActs]
    refine ⟨1, [], .take 0 :: H, _, place, t', h1, rfl, ?_, ?_⟩
    · show Faithful E (ownActs 0 (([] ++ PoolAct.start p :: .take 0 :: H).filterMap PoolAct.forget))
      rw [e]
      exact fun j q => ⟨(g3 j q).2.1, fun hd => absurd hd (g3 j q).2.2⟩
    · obtain ⟨p', k1, k2⟩ := poolReports h1 (i := 0) rfl
      have := (C90_once p' _ _ k2).1
      simp only [g2] at this
      rw [this]
      exact hx

/-! ## JavaScript -/

theorem jsPhase_step {f64 : Str → Option Str} {s s' : JsSystem} {a : JsAct} (h : s.step f64 a = some s') {i : Nat} {t' : JsTask α}
    (ht : s'.tasks[i]? = some ⟨α, t'⟩) :
    (s.tasks.length = i ∧ ∃ (objs : List Nat) (body : List Str → Prog α), a = .start objs body ∧ t' = JsTask.new objs body) ∨
    s.tasks[i]? = some ⟨α, t'⟩ ∨
    ∃ t b, a = .task i b ∧ s.tasks[i]? = some ⟨α, t⟩ ∧ t.step f64 s.heap b = some t' := by
  cases a with
  | start objs body =>
    cases h
    rcases Nat.lt_trichotomy i s.tasks.length with hi | hi | hi
    · rw [List.getElem?_append_left hi] at ht
      exact .inr (.inl ht)
    · subst hi
      rw [List.getElem?_append_right (Nat.le_refl _)] at ht
      simp only [Nat.sub_self, List.getElem?_cons_zero, Option.some.injEq, AnyJsTask.mk.injEq] at ht
      obtain ⟨rfl, ht⟩ := ht
      cases ht
      exact .inl ⟨rfl, objs, body, rfl, rfl⟩
    · rw [List.getElem?_eq_none (by simp; omega)] at ht
      cases ht
  | settle n x =>
    simp only [JsSystem.step] at h
    split at h <;> cases h <;> exact .inr (.inl ht)
  | assign o x => cases h; exact .inr (.inl ht)
  | task j b =>
    simp only [JsSystem.step] at h
    split at h
    · rename_i u hu
      simp only [Option.map_eq_some_iff] at h
      obtain ⟨u', hs, rfl⟩ := h
      by_cases hj : j = i
      · subst hj
        simp only [List.getElem?_set, if_true] at ht
        split at ht
        · obtain ⟨β, u⟩ := u
          cases ht
          exact .inr (.inr ⟨u, b, rfl, hu, hs⟩)
        · cases ht
      · simp only [List.getElem?_set_ne hj] at ht
        exact .inr (.inl ht)
    · cases h

/-- With promises settled as `J` replies, an operation gets the answers that the core sees of `J`. -/
theorem jsReplies_answers {f64 : Str → Option Str} {J : JsEnv} {first : Nat → Str} {full : List JsAct} {i : Nat}
    (hJ : JsReplies f64 J first full i) {objs : List Nat} {body : List Str → Prog α} :
    ∀ (H rest : List JsAct) (s : JsSystem) (t : JsTask α), full = H ++ rest → JsSystem.run f64 H (.init first) = some s →
      (jsStarted full)[i]? = some ⟨α, objs, body⟩ → s.tasks[i]? = some ⟨α, t⟩ → ∀ B, beforeBegin i H = some B →
      ∃ tr, JsReached (body (objs.map fun o => objectAfter o (first o) B)) tr t.phase ∧ Answers (J.env f64) tr ∧
        ∀ q n k, t.phase = .waiting q n k → q ≠ .random ∧ ∀ x, settledWith n full = some x → J.reply q = some x := by
  intro H
  induction hH : H.length generalizing H with
  | zero =>
    intro rest s t _ _ _ _ B hB
    rw [List.length_eq_zero_iff.1 hH] at hB
    cases hB
  | succ m ih =>
    intro rest s t hfull hrun hst ht B hB
    obtain ⟨H1, a, rfl⟩ : ∃ H1 a, H = H1 ++ [a] := by
      rcases List.eq_nil_or_concat H with rfl | ⟨H1, a, rfl⟩
      · cases hH
      · exact ⟨H1, a, by simp⟩
    have hlen : H1.length = m := by simpa using hH
    have hrun0 := hrun
    rw [jsRun_append] at hrun
    obtain ⟨s1, hs1, hstep⟩ := Option.bind_eq_some_iff.1 hrun
    simp only [JsSystem.run, Option.bind_fun_some] at hstep
    have hfull' : full = H1 ++ (a :: rest) := by rw [hfull]; simp
    have hinv := jsSysInv hs1
    have hi1 : ∀ u, s1.tasks[i]? = some ⟨α, u⟩ → (jsStarted H1)[i]? = some ⟨α, objs, body⟩ := by
      intro u hu
      have hlt : i < (jsStarted H1).length := by
        rw [← hinv.length]; exact (List.getElem?_eq_some_iff.1 hu).1
      rw [hfull', jsStarted_append, List.getElem?_append_left hlt] at hst
      exact hst
    -- the operation before the last act
    have same : s1.tasks[i]? = some ⟨α, t⟩ → beforeBegin i H1 = some B → _ := fun hu hB1 =>
      ih H1 hlen (a :: rest) s1 t hfull' hs1 hst hu B hB1
    rcases jsPhase_step hstep ht with ⟨hl, objs', body', rfl, rfl⟩ | hu | ⟨u, b, rfl, hu, hub⟩
    · -- just called: it cannot have begun
      have h0 := (hinv.future i (by rw [← hinv.length]; omega)).2
      rw [beforeBegin_append, h0] at hB
      simp [beforeBegin] at hB
    · -- not concerned
      cases hB1 : beforeBegin i H1 with
      | some B1 =>
        have : B1 = B := by
          rw [beforeBegin_stays hB1] at hB; exact Option.some.inj hB
        subst this
        exact same hu hB1
      | none =>
        obtain ⟨u', k1, k2⟩ := hinv.tasks i _ (hi1 _ hu)
        rw [hu] at k1
        cases k1
        obtain ⟨k3, -⟩ := k2.called hB1
        -- still only called, although it has begun
        obtain ⟨u2, m1, m2⟩ := (jsSysInv hrun0).tasks i ⟨α, objs, body⟩ (by
          have hlt : i < (jsStarted (H1 ++ [a])).length := by
            rw [← (jsSysInv hrun0).length]; exact (List.getElem?_eq_some_iff.1 ht).1
          rw [hfull, jsStarted_append, List.getElem?_append_left hlt] at hst
          exact hst)
        rw [ht] at m1
        cases m1
        obtain ⟨tr, m3, -⟩ := m2.began B hB
        rw [k3] at m3
        exact m3.elim
    · have hob := hinv.objects
      cases b with
      | begin =>
        have hB1 : beforeBegin i H1 = none := by
          cases hB1 : beforeBegin i H1 with
          | none => rfl
          | some B1 =>
            obtain ⟨tr, g1, -⟩ := ih H1 hlen _ s1 u hfull' hs1 hst hu B1 hB1
            simp only [JsTask.step] at hub
            split at hub
            · rename_i e; rw [e] at g1; exact g1.elim
            · cases hub
        have hBH : B = H1 := by
          rw [beforeBegin_append, hB1] at hB
          simpa [beforeBegin] using hB.symm
        subst hBH
        obtain ⟨u', k1, k2⟩ := hinv.tasks i _ (hi1 _ hu)
        rw [hu] at k1
        cases k1
        obtain ⟨k3, -⟩ := k2.called hB1
        simp only [JsTask.step, k3, Option.some.injEq] at hub
        subst hub
        refine ⟨[], ?_, (by intro ev h; cases h), (by intro q n k h; cases h)⟩
        have e : (fun o => objectAfter o (first o) B) = s1.heap.objects := funext fun o => (hob o).symm
        rw [e]
        exact .here _
      | draw d =>
        have hB1 : beforeBegin i H1 = some B := by
          rw [beforeBegin_append] at hB
          simpa [beforeBegin] using hB
        obtain ⟨tr, g1, g2, -⟩ := ih H1 hlen _ s1 u hfull' hs1 hst hu B hB1
        simp only [JsTask.step] at hub
        split at hub
        · rename_i k e
          cases hub
          rw [e] at g1
          refine ⟨tr ++ [(⟨.random, d⟩ : Event)], path_snoc g1 rfl d, ?_, by intro q n k h; cases h⟩
          intro ev hm
          rcases List.mem_append.1 hm with hm | hm
          · exact g2 ev hm
          · rw [List.mem_singleton.1 hm]; trivial
        · cases hub
      | call n =>
        have hB1 : beforeBegin i H1 = some B := by
          rw [beforeBegin_append] at hB
          simpa [beforeBegin] using hB
        obtain ⟨tr, g1, g2, -⟩ := ih H1 hlen _ s1 u hfull' hs1 hst hu B hB1
        simp only [JsTask.step] at hub
        split at hub
        · cases hub
        · rename_i q k hne e
          cases hub
          rw [e] at g1
          refine ⟨tr, g1, g2, ?_⟩
          intro q' n' k' h
          cases h
          refine ⟨fun hq => ?_, hJ H1 n rest s1 α u q k hfull' hs1 hu e⟩
          subst hq
          exact hne k rfl HEq.rfl
        · cases hub
      | poll =>
        have hB1 : beforeBegin i H1 = some B := by
          rw [beforeBegin_append] at hB
          simpa [beforeBegin] using hB
        obtain ⟨tr, g1, g2, g3⟩ := ih H1 hlen _ s1 u hfull' hs1 hst hu B hB1
        simp only [JsTask.step] at hub
        split at hub
        · rename_i q n k e
          obtain ⟨hq, hx⟩ := g3 q n k e
          split at hub
          · rename_i x hpx
            simp only [Option.map_eq_some_iff] at hub
            obtain ⟨a, ha, rfl⟩ := hub
            rw [e] at g1
            rw [hinv.promises n] at hpx
            have hr := hx x (by rw [hfull']; exact settledWith_mono hpx _)
            refine ⟨tr ++ [(⟨q, a⟩ : Event)], path_snoc g1 rfl a, ?_, by intro q n k h; cases h⟩
            intro ev hm
            rcases List.mem_append.1 hm with hm | hm
            · exact g2 ev hm
            · rw [List.mem_singleton.1 hm]
              cases q with
              | random => exact absurd rfl hq
              | resolve d => cases hr; cases ha; rfl
              | getSecret d => cases hr; cases ha; rfl
              | findSecrets d => cases hr; cases ha; rfl
          · cases hub
            exact ⟨tr, g1, g2, g3⟩
        · cases hub
      | finish =>
        have hB1 : beforeBegin i H1 = some B := by
          rw [beforeBegin_append] at hB
          simpa [beforeBegin] using hB
        obtain ⟨tr, g1, g2, -⟩ := ih H1 hlen _ s1 u hfull' hs1 hst hu B hB1
        simp only [JsTask.step] at hub
        split at hub
        · rename_i r e
          cases hub
          rw [e] at g1
          refine ⟨tr, ?_, g2, by intro q n k h; cases h⟩
          have := path_runs g1 (.ret r)
          rwa [List.append_nil] at this
        · cases hub

/-- An operation that is running, alone, can be taken to its end, with promises numbered from `N` on. -/
theorem jsRealise {f64 : Str → Option Str} (J : JsEnv) (p : Prog α) : ∀ (rnd : Nat → Nat) (heap : JsHeap) (N : Nat) (st : List (Except Str α)),
    (∀ n, N ≤ n → heap.promises n = none) →
    ∃ l s t, JsSystem.run f64 l ⟨heap, [⟨α, ⟨.running p, st⟩⟩]⟩ = some s ∧ s.tasks[0]? = some ⟨α, t⟩ ∧
      t.phase = .ended (p.run (J.env f64) rnd).2 ∧ t.settled = st ++ wasmReport (p.run (J.env f64) rnd).2 ∧
      (∀ n, JsAct.task 0 (.call n) ∈ l → N ≤ n) ∧
      ∀ (H1 : List JsAct) (n : Nat) (H2 : List JsAct) (s : JsSystem) (β : Type) (t : JsTask β) (q : Query) (k : q.Ans → Prog β),
        l = H1 ++ .task 0 (.call n) :: H2 → JsSystem.run f64 H1 ⟨heap, [⟨α, ⟨.running p, st⟩⟩]⟩ = some s → s.tasks[0]? = some ⟨β, t⟩ →
        t.phase = .running (.ask q k) → ∀ x, settledWith n l = some x → J.reply q = some x := by
  induction p with
  | ret r =>
    intro rnd heap N st hN
    refine ⟨[.task 0 .finish], _, _, rfl, rfl, rfl, rfl, by simp, ?_⟩
    intro H1 n H2 s β t q k h
    rcases H1 with _ | ⟨a, _ | ⟨b, H1⟩⟩ <;> simp at h
  | ask q k ih =>
    intro rnd heap N st hN
    have go : ∀ (x : Except Thrown JsValue) (a : q.Ans), q ≠ .random → wasmAnswer f64 q x = some a → J.reply q = some x →
        Prog.run (J.env f64) rnd (.ask q k) = (⟨q, a⟩ :: (Prog.run (J.env f64) rnd (k a)).1, (Prog.run (J.env f64) rnd (k a)).2) →
        ∃ l s t, JsSystem.run f64 l ⟨heap, [⟨α, ⟨.running (.ask q k), st⟩⟩]⟩ = some s ∧ s.tasks[0]? = some ⟨α, t⟩ ∧
          t.phase = .ended (Prog.run (J.env f64) rnd (.ask q k)).2 ∧ t.settled = st ++ wasmReport (Prog.run (J.env f64) rnd (.ask q k)).2 ∧
          (∀ n, JsAct.task 0 (.call n) ∈ l → N ≤ n) ∧
          ∀ (H1 : List JsAct) (n : Nat) (H2 : List JsAct) (s : JsSystem) (β : Type) (t : JsTask β) (q' : Query) (k' : q'.Ans → Prog β),
            l = H1 ++ .task 0 (.call n) :: H2 → JsSystem.run f64 H1 ⟨heap, [⟨α, ⟨.running (.ask q k), st⟩⟩]⟩ = some s →
            s.tasks[0]? = some ⟨β, t⟩ → t.phase = .running (.ask q' k') → ∀ x, settledWith n l = some x → J.reply q' = some x := by
      intro x a hq ha hx he
      obtain ⟨l, s, t, g1, g3, g4, g5, g6, g7⟩ := ih a rnd { heap with promises := fun m => if m = N then some x else heap.promises m } (N + 1) st
        (by intro n hn; simp only [if_neg (show n ≠ N by omega)]; exact hN n (by omega))
      have run3 : ∀ l', JsSystem.run f64 (.task 0 (.call N) :: .settle N x :: .task 0 .poll :: l') ⟨heap, [⟨α, ⟨.running (.ask q k), st⟩⟩]⟩ =
          JsSystem.run f64 l' ⟨{ heap with promises := fun m => if m = N then some x else heap.promises m }, [⟨α, ⟨.running (k a), st⟩⟩]⟩ := by
        intro l'
        cases q with
        | random => exact absurd rfl hq
        | resolve d => simp [JsSystem.run, JsSystem.step, JsTask.step, hN N (Nat.le_refl _), ha]
        | getSecret d => simp [JsSystem.run, JsSystem.step, JsTask.step, hN N (Nat.le_refl _), ha]
        | findSecrets d => simp [JsSystem.run, JsSystem.step, JsTask.step, hN N (Nat.le_refl _), ha]
      refine ⟨.task 0 (.call N) :: .settle N x :: .task 0 .poll :: l, s, t, by rw [run3]; exact g1, g3, by rw [he]; exact g4,
        by rw [he]; exact g5, ?_, ?_⟩
      · intro n hn
        simp only [List.mem_cons, JsAct.task.injEq, JsTaskAct.call.injEq, true_and, reduceCtorEq, and_false, false_or] at hn
        rcases hn with rfl | hn
        · exact Nat.le_refl _
        · exact Nat.le_of_succ_le (g6 n hn)
      · intro H1 n H2 s' β t' q' k' hl hr ht hp y hy
        rcases H1 with _ | ⟨a1, _ | ⟨a2, _ | ⟨a3, H1⟩⟩⟩
        · simp only [List.nil_append, List.cons.injEq, JsAct.task.injEq, JsTaskAct.call.injEq, true_and] at hl
          obtain ⟨rfl, -⟩ := hl
          cases hr
          simp only [List.getElem?_cons_zero, Option.some.injEq, AnyJsTask.mk.injEq] at ht
          obtain ⟨rfl, ht⟩ := ht
          cases ht
          cases hp
          simp only [settledWith, if_true, Option.some.injEq] at hy
          rw [← hy]
          exact hx
        · simp at hl
        · simp at hl
        · simp only [List.cons_append, List.cons.injEq] at hl
          obtain ⟨rfl, rfl, rfl, hl⟩ := hl
          rw [run3] at hr
          have hn : N + 1 ≤ n := g6 n (by rw [hl]; simp)
          simp only [settledWith, if_neg (show N ≠ n by omega)] at hy
          exact g7 H1 n H2 s' β t' q' k' hl hr ht hp y hy
    cases q with
    | random =>
      obtain ⟨l, s, t, g1, g3, g4, g5, g6, g7⟩ := ih (rnd 0) (fun n => rnd (n + 1)) heap N st hN
      refine ⟨.task 0 (.draw (rnd 0)) :: l, s, t, by simpa [JsSystem.run, JsSystem.step, JsTask.step] using g1, g3, g4, g5, ?_, ?_⟩
      · intro n hn
        simp only [List.mem_cons, JsAct.task.injEq, reduceCtorEq, and_false, false_or] at hn
        exact g6 n hn
      · intro H1 n H2 s' β t' q' k' hl hr ht hp y hy
        rcases H1 with _ | ⟨a1, H1⟩
        · simp at hl
        · simp only [List.cons_append, List.cons.injEq] at hl
          obtain ⟨rfl, hl⟩ := hl
          exact g7 H1 n H2 s' β t' q' k' hl (by simpa [JsSystem.run, JsSystem.step, JsTask.step] using hr) ht hp y hy
    | resolve d => exact go (J.resolve d) _ (by simp) rfl rfl rfl
    | getSecret d => exact go (J.getSecret d) _ (by simp) rfl rfl rfl
    | findSecrets d => exact go (J.findSecrets d) _ (by simp) rfl rfl rfl

/-- What a call of the JavaScript binding can come to is what the core can come to. -/
theorem jsOutcome_iff {f64 : Str → Option Str} {J : JsEnv} {objs : List Nat} {body : List Str → Prog α} {objects : Nat → Str}
    {x : Except Str α} :
    JsOutcome f64 J (.start objs body) objects x ↔ ∃ r, MayEnd (J.env f64) (body (objs.map objects)) r ∧ x ∈ wasmReport r := by
  constructor
  · rintro ⟨first, before, after, s, t, B, h1, h2, h3, h4, h5, h6⟩
    have hc : (jsStarted (before ++ .start objs body :: after))[(jsStarted before).length]? = some ⟨α, objs, body⟩ := by
      rw [jsStarted_append]
      simp [jsStarted]
    obtain ⟨tr, g1, g2, -⟩ := jsReplies_answers h5 _ [] s t (List.append_nil _).symm h1 hc h2 B h3
    have e : (objs.map fun o => objectAfter o (first o) B) = objs.map objects := List.map_congr_left fun o _ => h4 o
    rw [e] at g1
    rw [(C95_once first _ s h1 _ ⟨α, objs, body⟩ hc t h2).1] at h6
    cases hp : t.phase with
    | ended r => rw [hp] at h6 g1; exact ⟨r, ⟨tr, g2, g1⟩, h6⟩
    | called o b => rw [hp] at h6; cases h6
    | running p' => rw [hp] at h6; cases h6
    | waiting q n k => rw [hp] at h6; cases h6
  · rintro ⟨r, ⟨tr, ha, hr⟩, hx⟩
    obtain ⟨rnd, hrun⟩ := run_of_runs hr ha
    obtain ⟨l, s, t, g1, g3, g4, g5, -, g7⟩ := jsRealise (f64 := f64) J (body (objs.map objects)) rnd ⟨fun _ => none, objects⟩ 0 [] (fun _ _ => rfl)
    rw [hrun] at g5
    have run2 : ∀ l', JsSystem.run f64 (.start objs body :: .task 0 .begin :: l') (.init objects) =
        JsSystem.run f64 l' ⟨⟨fun _ => none, objects⟩, [⟨α, ⟨.running (body (objs.map objects)), []⟩⟩]⟩ := by
      intro l'
      simp [JsSystem.run, JsSystem.step, JsTask.step, JsSystem.init, JsTask.new]
    refine ⟨objects, [], .task 0 .begin :: l, s, t, [.start objs body], ?_, g3, ?_, fun o => rfl, ?_, by rw [g5]; exact hx⟩
    · rw [List.nil_append, run2]
      exact g1
    · simp [beforeBegin, jsStarted]
    · intro H1 n H2 s' β t' q k hl hs ht hp y hy
      rcases H1 with _ | ⟨a1, _ | ⟨a2, H1⟩⟩
      · simp at hl
      · simp at hl
      · simp only [List.nil_append, List.cons_append, List.cons.injEq] at hl
        obtain ⟨rfl, rfl, hl⟩ := hl
        rw [run2] at hs
        exact g7 H1 n H2 s' β t' q k hl hs ht hp y (by simpa [settledWith] using hy)

end DIDComm
