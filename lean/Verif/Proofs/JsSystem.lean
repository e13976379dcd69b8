import Verif.Spec.JsSystem
import Verif.Proofs.UniffiSystem

/-! # Operations of the JavaScript binding that run at the same time: invariants -/

set_option autoImplicit false

namespace DIDComm

theorem jsRun_append (f64 : Str → Option Str) (l l' : List JsAct) (s : JsSystem) :
    JsSystem.run f64 (l ++ l') s = (JsSystem.run f64 l s).bind (JsSystem.run f64 l') := by
  induction l generalizing s with
  | nil => rfl
  | cons a r ih =>
    simp only [List.cons_append, JsSystem.run]
    cases s.step f64 a with
    | none => rfl
    | some s1 => exact ih s1

theorem jsStarted_append (l l' : List JsAct) : jsStarted (l ++ l') = jsStarted l ++ jsStarted l' := by
  induction l with
  | nil => rfl
  | cons a r ih => cases a <;> simp [jsStarted, ih]

theorem jsOwn_append (i : Nat) (l l' : List JsAct) : jsOwn i (l ++ l') = jsOwn i l ++ jsOwn i l' := by
  induction l with
  | nil => rfl
  | cons a r ih =>
    cases a with
    | task j a => simp only [List.cons_append, jsOwn]; split <;> simp [ih]
    | start objs body => simpa [jsOwn] using ih
    | settle n x => simpa [jsOwn] using ih
    | assign o x => simpa [jsOwn] using ih

theorem promisesOf_append (l l' : List JsTaskAct) : promisesOf (l ++ l') = promisesOf l ++ promisesOf l' := by
  induction l with
  | nil => rfl
  | cons a r ih => cases a <;> simp [promisesOf, ih]

theorem jsDrawn_append (l l' : List JsTaskAct) : jsDrawn (l ++ l') = jsDrawn l ++ jsDrawn l' := by
  induction l with
  | nil => rfl
  | cons a r ih => cases a <;> simp [jsDrawn, ih]

theorem settledWith_append (n : Nat) (l l' : List JsAct) : settledWith n (l ++ l') = (settledWith n l).or (settledWith n l') := by
  induction l with
  | nil => rfl
  | cons a r ih =>
    cases a with
    | settle m x => simp only [List.cons_append, settledWith]; split <;> simp [ih]
    | start objs body => simpa [settledWith] using ih
    | task j a => simpa [settledWith] using ih
    | assign o x => simpa [settledWith] using ih

theorem objectAfter_append (o : Nat) (first : Str) (l l' : List JsAct) :
    objectAfter o first (l ++ l') = objectAfter o (objectAfter o first l) l' := by
  induction l generalizing first with
  | nil => rfl
  | cons a r ih => cases a <;> simp [objectAfter, ih]

theorem beforeBegin_append (i : Nat) (l l' : List JsAct) :
    beforeBegin i (l ++ l') = (beforeBegin i l).or ((beforeBegin i l').map (l ++ ·)) := by
  induction l with
  | nil => simp [beforeBegin]
  | cons a r ih =>
    have go : ∀ x : JsAct, Option.map (x :: ·) (beforeBegin i (r ++ l')) =
        (Option.map (x :: ·) (beforeBegin i r)).or ((beforeBegin i l').map (x :: r ++ ·)) := by
      intro x
      rw [ih]
      cases beforeBegin i r <;> cases beforeBegin i l' <;> simp
    cases a with
    | task j a =>
      cases a with
      | begin =>
        simp only [List.cons_append, beforeBegin]
        split
        · simp
        · exact go _
      | draw n => exact go _
      | call n => exact go _
      | poll => exact go _
      | finish => exact go _
    | start objs body => exact go _
    | settle n x => exact go _
    | assign o x => exact go _

theorem settledWith_mono {n : Nat} {l : List JsAct} {x : Except Thrown JsValue} (h : settledWith n l = some x) (l' : List JsAct) :
    settledWith n (l ++ l') = some x := by
  rw [settledWith_append, h]; rfl

/-- Where an operation is, after the history `H`. -/
structure JsInv {α : Type} (f64 : Str → Option Str) (first : Nat → Str) (H : List JsAct) (i : Nat) (objs : List Nat)
    (body : List Str → Prog α) (t : JsTask α) : Prop where
  called : beforeBegin i H = none → t.phase = .called objs body ∧ jsOwn i H = []
  began : ∀ B, beforeBegin i H = some B → ∃ tr, JsReached (body (objs.map fun o => objectAfter o (first o) B)) tr t.phase ∧
    (∀ (j : Nat) (ev : Event), (toResolvers tr)[j]? = some ev →
      ∃ n x, (promisesOf (jsOwn i H))[j]? = some n ∧ settledWith n H = some x ∧ wasmAnswer f64 ev.query x = some ev.ans) ∧
    (match t.phase with
      | .waiting q n _ => q.toResolver = true ∧ ∃ l, promisesOf (jsOwn i H) = l ++ [n] ∧ l.length = (toResolvers tr).length
      | _ => (promisesOf (jsOwn i H)).length = (toResolvers tr).length) ∧
    draws tr = jsDrawn (jsOwn i H)
  settled : t.settled = match t.phase with
    | .ended r => wasmReport r
    | _ => []

/-- The whole system after the history `H`. -/
structure JsSysInv (f64 : Str → Option Str) (first : Nat → Str) (H : List JsAct) (s : JsSystem) : Prop where
  promises : ∀ n, s.heap.promises n = settledWith n H
  objects : ∀ o, s.heap.objects o = objectAfter o (first o) H
  length : s.tasks.length = (jsStarted H).length
  tasks : ∀ (i : Nat) (c : JsCall), (jsStarted H)[i]? = some c →
    ∃ t, s.tasks[i]? = some ⟨c.α, t⟩ ∧ JsInv f64 first H i c.objs c.body t
  future : ∀ i, (jsStarted H).length ≤ i → jsOwn i H = [] ∧ beforeBegin i H = none

/-- Events that do not concern an operation leave it where it is. -/
theorem JsInv.other {α : Type} {f64 : Str → Option Str} {first : Nat → Str} {H : List JsAct} {i : Nat} {objs : List Nat}
    {body : List Str → Prog α} {t : JsTask α} (h : JsInv f64 first H i objs body t) {a : JsAct} (ho : jsOwn i [a] = [])
    (hb : beforeBegin i [a] = none) : JsInv f64 first (H ++ [a]) i objs body t := by
  have e1 : jsOwn i (H ++ [a]) = jsOwn i H := by rw [jsOwn_append, ho, List.append_nil]
  have e2 : beforeBegin i (H ++ [a]) = beforeBegin i H := by rw [beforeBegin_append, hb]; simp
  refine ⟨by rw [e1, e2]; exact h.called, fun B hB => ?_, h.settled⟩
  rw [e2] at hB
  obtain ⟨tr, g1, g2, g3, g4⟩ := h.began B hB
  refine ⟨tr, g1, fun j ev hev => ?_, by rw [e1]; exact g3, by rw [e1]; exact g4⟩
  obtain ⟨n, x, k1, k2, k3⟩ := g2 j ev hev
  exact ⟨n, x, by rw [e1]; exact k1, settledWith_mono k2 _, k3⟩

theorem toResolver_of_ne {q : Query} (h : q ≠ .random) : q.toResolver = true := by
  cases q <;> first | rfl | exact absurd rfl h

theorem jsOwn_self (i : Nat) (H : List JsAct) (a : JsTaskAct) : jsOwn i (H ++ [.task i a]) = jsOwn i H ++ [a] := by
  rw [jsOwn_append]; simp [jsOwn]

theorem settledWith_task (n i : Nat) (H : List JsAct) (a : JsTaskAct) : settledWith n (H ++ [.task i a]) = settledWith n H := by
  rw [settledWith_append]; simp [settledWith]

/-- An operation that has begun stays so. -/
theorem beforeBegin_stays {i : Nat} {H B : List JsAct} (h : beforeBegin i H = some B) (l : List JsAct) : beforeBegin i (H ++ l) = some B := by
  rw [beforeBegin_append, h]; rfl

/-- A step of an operation. -/
theorem JsInv.own {α : Type} {f64 : Str → Option Str} {first : Nat → Str} {H : List JsAct} {i : Nat} {objs : List Nat}
    {body : List Str → Prog α} {t t' : JsTask α} (h : JsInv f64 first H i objs body t) (heap : JsHeap)
    (hp : ∀ n, heap.promises n = settledWith n H) (ho : ∀ o, heap.objects o = objectAfter o (first o) H) {a : JsTaskAct}
    (hs : t.step f64 heap a = some t') : JsInv f64 first (H ++ [.task i a]) i objs body t' := by
  cases hB : beforeBegin i H with
  | none =>
    obtain ⟨h1, h2⟩ := h.called hB
    cases a with
    | begin =>
      simp only [JsTask.step, h1, Option.some.injEq] at hs
      subst hs
      have e : beforeBegin i (H ++ [.task i .begin]) = some H := by
        rw [beforeBegin_append, hB]; simp [beforeBegin]
      refine ⟨fun hn => (by rw [e] at hn; cases hn), fun B hB' => ?_, ?_⟩
      · rw [e] at hB'
        cases hB'
        refine ⟨[], ?_, fun j ev hev => by simp [toResolvers] at hev, ?_, ?_⟩
        · have : objs.map heap.objects = objs.map fun o => objectAfter o (first o) H := List.map_congr_left fun o _ => ho o
          simp only [JsReached, this]
          exact .here _
        · simp [jsOwn_self, h2, promisesOf, toResolvers]
        · simp [jsOwn_self, h2, jsDrawn, draws]
      · have := h.settled
        rw [h1] at this
        exact this
    | draw n => simp [JsTask.step, h1] at hs
    | call n => simp [JsTask.step, h1] at hs
    | poll => simp [JsTask.step, h1] at hs
    | finish => simp [JsTask.step, h1] at hs
  | some B =>
    obtain ⟨tr, g1, g2, g3, g4⟩ := h.began B hB
    have hset := h.settled
    have e : beforeBegin i (H ++ [.task i a]) = some B := beforeBegin_stays hB _
    have wrap : ∀ (tr' : List Event), JsReached (body (objs.map fun o => objectAfter o (first o) B)) tr' t'.phase →
        (∀ (j : Nat) (ev : Event), (toResolvers tr')[j]? = some ev →
          ∃ n x, (promisesOf (jsOwn i (H ++ [.task i a])))[j]? = some n ∧ settledWith n (H ++ [.task i a]) = some x ∧
            wasmAnswer f64 ev.query x = some ev.ans) →
        (match t'.phase with
          | .waiting q n _ => q.toResolver = true ∧ ∃ l, promisesOf (jsOwn i (H ++ [.task i a])) = l ++ [n] ∧ l.length = (toResolvers tr').length
          | _ => (promisesOf (jsOwn i (H ++ [.task i a]))).length = (toResolvers tr').length) →
        draws tr' = jsDrawn (jsOwn i (H ++ [.task i a])) →
        (t'.settled = match t'.phase with
          | .ended r => wasmReport r
          | _ => []) → JsInv f64 first (H ++ [.task i a]) i objs body t' := by
      intro tr' k1 k2 k3 k4 k5
      refine ⟨fun hn => (by rw [e] at hn; cases hn), fun B' hB' => ?_, k5⟩
      rw [e] at hB'
      cases hB'
      exact ⟨tr', k1, k2, k3, k4⟩
    have keep : ∀ (l : List JsTaskAct), promisesOf [a] = [] → ∀ (j : Nat) (ev : Event), (toResolvers tr)[j]? = some ev →
          ∃ n x, (promisesOf (jsOwn i (H ++ [.task i a])))[j]? = some n ∧ settledWith n (H ++ [.task i a]) = some x ∧
            wasmAnswer f64 ev.query x = some ev.ans := by
      intro l ha j ev hev
      obtain ⟨n, x, k1, k2, k3⟩ := g2 j ev hev
      exact ⟨n, x, by rw [jsOwn_self, promisesOf_append, ha, List.append_nil]; exact k1, settledWith_mono k2 _, k3⟩
    cases a with
    | begin =>
      simp only [JsTask.step] at hs
      split at hs
      · rename_i heq
        rw [heq] at g1
        exact g1.elim
      · cases hs
    | draw n =>
      simp only [JsTask.step] at hs
      split at hs
      · rename_i k heq
        cases hs
        rw [heq] at g1 g3 hset
        simp only [JsReached] at g1
        refine wrap (tr ++ [(⟨.random, n⟩ : Event)]) (show Path _ _ _ from path_snoc g1 rfl n) ?_ ?_ ?_ hset
        · have : toResolvers (tr ++ [(⟨.random, n⟩ : Event)]) = toResolvers tr := by
            rw [toResolvers_append]; simp [toResolvers, Query.toResolver]
          rw [this]
          exact keep [] rfl
        · simp only [jsOwn_self, promisesOf_append, toResolvers_append]
          simpa [promisesOf, toResolvers, Query.toResolver] using g3
        · rw [jsOwn_self, jsDrawn_append, draws_snoc, g4]; rfl
      · cases hs
    | call n =>
      simp only [JsTask.step] at hs
      split at hs
      · cases hs
      · rename_i q k hne heq
        cases hs
        rw [heq] at g1 g3 hset
        simp only [JsReached] at g1
        refine wrap tr g1 ?_ ?_ ?_ hset
        · intro j ev hev
          obtain ⟨n', x, k1, k2, k3⟩ := g2 j ev hev
          refine ⟨n', x, ?_, settledWith_mono k2 _, k3⟩
          rw [jsOwn_self, promisesOf_append, List.getElem?_append_left (List.getElem?_eq_some_iff.1 k1).1]
          exact k1
        · refine ⟨toResolver_of_ne fun hq => ?_, promisesOf (jsOwn i H), ?_, g3⟩
          · subst hq
            exact hne k rfl HEq.rfl
          · rw [jsOwn_self, promisesOf_append]; rfl
        · rw [jsOwn_self, jsDrawn_append, g4]; simp [jsDrawn]
      · cases hs
    | poll =>
      simp only [JsTask.step] at hs
      split at hs
      · rename_i q n k heq
        split at hs
        · rename_i x hx
          rw [Option.map_eq_some_iff] at hs
          obtain ⟨ans, ha, rfl⟩ := hs
          rw [heq] at g1 g3 hset
          simp only [JsReached] at g1
          obtain ⟨hq, l, hl, hlen⟩ := g3
          have et : toResolvers (tr ++ [⟨q, ans⟩]) = toResolvers tr ++ [⟨q, ans⟩] := by
            rw [toResolvers_append]; simp [toResolvers, hq]
          refine wrap (tr ++ [(⟨q, ans⟩ : Event)]) (show Path _ _ _ from path_snoc g1 rfl ans) ?_ ?_ ?_ hset
          · rw [et]
            intro j ev hev
            by_cases hj : j < (toResolvers tr).length
            · rw [List.getElem?_append_left hj] at hev
              exact keep [] rfl j ev hev
            · rw [List.getElem?_append_right (Nat.le_of_not_lt hj)] at hev
              obtain ⟨hj', he⟩ := List.getElem?_eq_some_iff.1 hev
              simp only [List.length_singleton] at hj'
              have hj2 : j = (toResolvers tr).length := by omega
              subst hj2
              simp only [Nat.sub_self, List.getElem_cons_zero] at he
              subst he
              refine ⟨n, x, ?_, ?_, ha⟩
              · rw [jsOwn_self, promisesOf_append, hl, ← hlen]
                simp [promisesOf]
              · rw [settledWith_task, ← hp, hx]
          · simp only [jsOwn_self, promisesOf_append, hl, et]
            simp [promisesOf, hlen]
          · rw [jsOwn_self, jsDrawn_append, draws_snoc, g4]
            cases q with
            | random => cases hq
            | _ => rfl
        · cases hs
          rw [heq] at g3 hset
          refine wrap tr g1 (keep [] rfl) ?_ ?_ ?_
          · rw [heq]
            simp only [jsOwn_self, promisesOf_append]
            simpa [promisesOf] using g3
          · rw [jsOwn_self, jsDrawn_append, g4]; simp [jsDrawn]
          · rw [heq]; exact hset
      · cases hs
    | finish =>
      simp only [JsTask.step] at hs
      split at hs
      · rename_i r heq
        cases hs
        rw [heq] at g1 g3 hset
        simp only [JsReached] at g1
        refine wrap tr ?_ (keep [] rfl) ?_ ?_ ?_
        · simp only [JsReached]
          have := path_runs g1 (.ret r)
          simpa using this
        · simp only [jsOwn_self, promisesOf_append]
          simpa [promisesOf] using g3
        · rw [jsOwn_self, jsDrawn_append, g4]; simp [jsDrawn]
        · simp [hset]
      · cases hs

theorem jsOwn_task_ne {i j : Nat} (a : JsTaskAct) (h : j ≠ i) : jsOwn i [.task j a] = [] ∧ beforeBegin i [.task j a] = none := by
  constructor
  · simp [jsOwn, h]
  · cases a <;> simp [beforeBegin, h]

/-- A step of the system. -/
theorem JsSysInv.step {f64 : Str → Option Str} {first : Nat → Str} {H : List JsAct} {s s' : JsSystem} (h : JsSysInv f64 first H s)
    {a : JsAct} (hs : s.step f64 a = some s') : JsSysInv f64 first (H ++ [a]) s' := by
  cases a with
  | start objs body =>
    cases hs
    refine ⟨fun n => ?_, fun o => ?_, ?_, fun i c hc => ?_, fun i hi => ?_⟩
    · rw [settledWith_append, h.promises]; simp [settledWith]
    · rw [objectAfter_append]; exact h.objects o
    · simp [jsStarted_append, jsStarted, h.length]
    · rw [jsStarted_append] at hc
      by_cases hi : i < (jsStarted H).length
      · rw [List.getElem?_append_left hi] at hc
        obtain ⟨t, h1, h2⟩ := h.tasks i c hc
        refine ⟨t, ?_, h2.other rfl rfl⟩
        rw [List.getElem?_append_left (by rw [h.length]; exact hi)]
        exact h1
      · rw [List.getElem?_append_right (Nat.le_of_not_lt hi)] at hc
        obtain ⟨hj', he⟩ := List.getElem?_eq_some_iff.1 hc
        simp only [jsStarted, List.length_singleton] at hj'
        have hi2 : i = (jsStarted H).length := by omega
        subst hi2
        simp only [jsStarted, Nat.sub_self, List.getElem_cons_zero] at he
        subst he
        obtain ⟨f1, f2⟩ := h.future _ (Nat.le_refl _)
        refine ⟨JsTask.new objs body, ?_, ⟨fun _ => ⟨rfl, ?_⟩, fun B hB => ?_, rfl⟩⟩
        · simp [h.length]
        · rw [jsOwn_append, f1]; rfl
        · rw [beforeBegin_append, f2] at hB; simp [beforeBegin] at hB
    · rw [jsStarted_append] at hi
      simp only [jsStarted, List.length_append, List.length_singleton] at hi
      obtain ⟨f1, f2⟩ := h.future i (by omega)
      exact ⟨by rw [jsOwn_append, f1]; rfl, by rw [beforeBegin_append, f2]; simp [beforeBegin]⟩
  | task i a =>
    simp only [JsSystem.step] at hs
    split at hs
    · rename_i t0 ht0
      rw [Option.map_eq_some_iff] at hs
      obtain ⟨t', ht', rfl⟩ := hs
      have hstart : jsStarted (H ++ [.task i a]) = jsStarted H := by rw [jsStarted_append]; simp [jsStarted]
      refine ⟨fun n => ?_, fun o => ?_, ?_, fun j c hc => ?_, fun j hj => ?_⟩
      · rw [settledWith_task]; exact h.promises n
      · rw [objectAfter_append]; exact h.objects o
      · simp [hstart, h.length]
      · rw [hstart] at hc
        obtain ⟨t, h1, h2⟩ := h.tasks j c hc
        by_cases hij : i = j
        · subst hij
          rw [h1] at ht0
          cases ht0
          refine ⟨t', ?_, h2.own s.heap h.promises h.objects ht'⟩
          simp [(List.getElem?_eq_some_iff.1 h1).1]
        · obtain ⟨o1, o2⟩ := jsOwn_task_ne a hij
          refine ⟨t, ?_, h2.other o1 o2⟩
          simp only [List.getElem?_set_ne hij]
          exact h1
      · rw [hstart] at hj
        have hlt := (List.getElem?_eq_some_iff.1 ht0).1
        rw [h.length] at hlt
        obtain ⟨f1, f2⟩ := h.future j hj
        obtain ⟨o1, o2⟩ := jsOwn_task_ne (i := j) a (show i ≠ j by omega)
        exact ⟨by rw [jsOwn_append, f1, o1]; rfl, by rw [beforeBegin_append, f2, o2]; rfl⟩
    · cases hs
  | settle n x =>
    have hstart : jsStarted (H ++ [.settle n x]) = jsStarted H := by rw [jsStarted_append]; simp [jsStarted]
    have key : s'.tasks = s.tasks ∧ s'.heap.objects = s.heap.objects ∧ ∀ m, s'.heap.promises m = settledWith m (H ++ [.settle n x]) := by
      simp only [JsSystem.step] at hs
      split at hs
      · rename_i y hy
        cases hs
        refine ⟨rfl, rfl, fun m => ?_⟩
        rw [settledWith_append, ← h.promises]
        by_cases hm : n = m
        · subst hm; rw [hy]; rfl
        · simp [settledWith, hm]
      · rename_i hy
        cases hs
        refine ⟨rfl, rfl, fun m => ?_⟩
        rw [settledWith_append, ← h.promises]
        by_cases hm : m = n
        · subst hm; simp [hy, settledWith]
        · simp [settledWith, hm, Ne.symm hm]
    obtain ⟨k1, k2, k3⟩ := key
    refine ⟨k3, fun o => ?_, by rw [k1, hstart]; exact h.length, fun j c hc => ?_, fun j hj => ?_⟩
    · rw [k2, objectAfter_append]; exact h.objects o
    · rw [hstart] at hc
      obtain ⟨t, h1, h2⟩ := h.tasks j c hc
      exact ⟨t, by rw [k1]; exact h1, h2.other rfl rfl⟩
    · rw [hstart] at hj
      obtain ⟨f1, f2⟩ := h.future j hj
      exact ⟨by rw [jsOwn_append, f1]; rfl, by rw [beforeBegin_append, f2]; simp [beforeBegin]⟩
  | assign o text =>
    have hstart : jsStarted (H ++ [.assign o text]) = jsStarted H := by rw [jsStarted_append]; simp [jsStarted]
    cases hs
    refine ⟨fun n => ?_, fun m => ?_, by rw [hstart]; exact h.length, fun j c hc => ?_, fun j hj => ?_⟩
    · rw [settledWith_append, ← h.promises]; simp [settledWith]
    · rw [objectAfter_append, ← h.objects]
      simp only [objectAfter]
      by_cases hm : m = o
      · simp [hm]
      · simp [hm, Ne.symm hm]
    · rw [hstart] at hc
      obtain ⟨t, h1, h2⟩ := h.tasks j c hc
      exact ⟨t, h1, h2.other rfl rfl⟩
    · rw [hstart] at hj
      obtain ⟨f1, f2⟩ := h.future j hj
      exact ⟨by rw [jsOwn_append, f1]; rfl, by rw [beforeBegin_append, f2]; simp [beforeBegin]⟩

theorem jsSysInv_run {f64 : Str → Option Str} {first : Nat → Str} {l : List JsAct} :
    ∀ {H : List JsAct} {s s' : JsSystem}, JsSysInv f64 first H s → JsSystem.run f64 l s = some s' → JsSysInv f64 first (H ++ l) s' := by
  induction l with
  | nil => intro H s s' h hr; cases hr; simpa using h
  | cons a r ih =>
    intro H s s' h hr
    simp only [JsSystem.run, Option.bind_eq_some_iff] at hr
    obtain ⟨s1, h1, h2⟩ := hr
    have := ih (h.step h1) h2
    simpa using this

theorem jsSysInv {f64 : Str → Option Str} {first : Nat → Str} {H : List JsAct} {s : JsSystem}
    (h : JsSystem.run f64 H (JsSystem.init first) = some s) : JsSysInv f64 first H s := by
  have := jsSysInv_run (H := []) (s := JsSystem.init first) (f64 := f64) (first := first)
    ⟨fun _ => rfl, fun _ => rfl, rfl, fun i c hc => by simp [jsStarted] at hc, fun _ _ => ⟨rfl, rfl⟩⟩ h
  simpa using this

end DIDComm
