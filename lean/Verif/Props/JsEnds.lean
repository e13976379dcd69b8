import Verif.Spec.JsEnds
import Verif.Props.JsSystem

/-!
# C99: the promises of JavaScript operations are settled

An operation of the JavaScript binding ends if it is run and the promises of its resolvers are settled, whatever other operations do, and
however many there are.
-/

set_option autoImplicit false

namespace DIDComm

variable {f64 : Str → Option Str} {first : Nat → Str} {f : Nat → Option JsAct} {s : Nat → JsSystem} {i : Nat}

theorem JsExecution.next (hx : JsExecution f64 first f s) {j : Nat} {α : Type} {t : JsTask α} (ht : (s j).tasks[i]? = some ⟨α, t⟩) :
    (s (j + 1)).tasks[i]? = some ⟨α, t⟩ ∧ (∀ a, f j ≠ some (.task i a)) ∨
    ∃ a t', f j = some (.task i a) ∧ t.step f64 (s j).heap a = some t' ∧ (s (j + 1)).tasks[i]? = some ⟨α, t'⟩ := by
  have h := hx.2 j
  cases hf : f j with
  | none =>
    rw [hf] at h
    exact .inl ⟨by rw [h]; exact ht, by simp⟩
  | some a =>
    rw [hf] at h
    dsimp only at h
    cases a with
    | start objs body =>
      have h := Option.some.inj h
      exact .inl ⟨by rw [← h, List.getElem?_append_left (List.getElem?_eq_some_iff.1 ht).1]; exact ht, by simp⟩
    | settle n x =>
      simp only [JsSystem.step] at h
      split at h
      · have h := Option.some.inj h
        exact .inl ⟨by rw [← h]; exact ht, by simp⟩
      · have h := Option.some.inj h
        exact .inl ⟨by rw [← h]; exact ht, by simp⟩
    | assign o text =>
      have h := Option.some.inj h
      exact .inl ⟨by rw [← h]; exact ht, by simp⟩
    | task l a =>
      simp only [JsSystem.step] at h
      split at h
      · rename_i t0 ht0
        obtain ⟨t', h1, h2⟩ := Option.map_eq_some_iff.1 h
        rw [← h2]
        by_cases e : l = i
        · subst e
          rw [ht] at ht0
          cases ht0
          exact .inr ⟨a, t', rfl, h1, List.getElem?_set_self (List.getElem?_eq_some_iff.1 ht).1⟩
        · exact .inl ⟨by rw [List.getElem?_set_ne e]; exact ht, by simp [e]⟩
      · cases h

theorem JsExecution.kept (hx : JsExecution f64 first f s) {j n : Nat} {x : Except Thrown JsValue} (h : (s j).heap.promises n = some x) :
    (s (j + 1)).heap.promises n = some x := by
  have hs := hx.2 j
  cases hf : f j with
  | none => rw [hf] at hs; rw [hs]; exact h
  | some a =>
    rw [hf] at hs
    dsimp only at hs
    cases a with
    | start objs body => have hs := Option.some.inj hs; rw [← hs]; exact h
    | assign o text => have hs := Option.some.inj hs; rw [← hs]; exact h
    | settle m x' =>
      simp only [JsSystem.step] at hs
      split at hs
      · have hs := Option.some.inj hs; rw [← hs]; exact h
      · rename_i hm
        have hs := Option.some.inj hs
        rw [← hs]
        dsimp only
        split
        · rename_i e; subst e; rw [h] at hm; cases hm
        · exact h
    | task l a =>
      simp only [JsSystem.step] at hs
      split at hs
      · obtain ⟨t', -, h2⟩ := Option.map_eq_some_iff.1 hs
        rw [← h2]; exact h
      · cases hs

theorem JsExecution.keptAll (hx : JsExecution f64 first f s) {j n : Nat} {x : Except Thrown JsValue} (h : (s j).heap.promises n = some x)
    (j' : Nat) (hj : j ≤ j') : (s j').heap.promises n = some x := by
  induction hj with
  | refl => exact h
  | step _ ih => exact hx.kept ih

/-- The history up to a moment. -/
theorem JsExecution.history (hx : JsExecution f64 first f s) (j : Nat) : ∃ H, JsSystem.run f64 H (.init first) = some (s j) := by
  induction j with
  | zero => exact ⟨[], by rw [hx.1]; rfl⟩
  | succ j ih =>
    obtain ⟨H, hH⟩ := ih
    have h := hx.2 j
    cases hf : f j with
    | none => rw [hf] at h; exact ⟨H, by rw [h]; exact hH⟩
    | some a =>
      rw [hf] at h
      exact ⟨H ++ [a], by rw [jsRun_append, hH]; simpa [JsSystem.run] using h⟩

/-- An operation that can go on as long as nothing happens to it comes to a moment when something happens to it. -/
theorem JsExecution.acts (hx : JsExecution f64 first f s) (hr : IsRun f s i) {M : Nat} {α : Type} {t : JsTask α}
    (ht : (s M).tasks[i]? = some ⟨α, t⟩)
    (hc : ∀ j, M ≤ j → (s j).tasks[i]? = some ⟨α, t⟩ → (s j).CanGoOn i) :
    ∃ j a t', M ≤ j ∧ t.step f64 (s j).heap a = some t' ∧ (s (j + 1)).tasks[i]? = some ⟨α, t'⟩ := by
  refine Classical.byContradiction fun hno => ?_
  have stay : ∀ d, (s (M + d)).tasks[i]? = some ⟨α, t⟩ := by
    intro d
    induction d with
    | zero => exact ht
    | succ d ih =>
      rcases hx.next ih with ⟨h, -⟩ | ⟨a, t', -, h1, h2⟩
      · exact h
      · exact absurd ⟨M + d, a, t', by omega, h1, h2⟩ hno
  have stay' : ∀ j, M ≤ j → (s j).tasks[i]? = some ⟨α, t⟩ := fun j hj => by
    have := stay (j - M)
    rwa [Nat.add_sub_cancel' hj] at this
  obtain ⟨j, a, hj, hf⟩ := hr M fun j hj => hc j hj (stay' j hj)
  rcases hx.next (stay' j hj) with ⟨-, h⟩ | ⟨a', t', -, h1, h2⟩
  · exact h a hf
  · exact hno ⟨j, a', t', hj, h1, h2⟩

theorem canGoOn_of {S : JsSystem} {α : Type} {t : JsTask α} (ht : S.tasks[i]? = some ⟨α, t⟩) (he : ∀ r, t.phase ≠ .ended r)
    (hw : ∀ q n k, t.phase = .waiting q n k → (S.heap.promises n).isSome = true) : S.CanGoOn i := by
  refine ⟨⟨_, ht⟩, ?_, ?_⟩
  · rintro ⟨β, t', r, h1, h2⟩
    rw [ht] at h1
    cases h1
    exact he r h2
  · rintro n ⟨β, t', q, k, h1, h2⟩
    rw [ht] at h1
    cases h1
    exact hw q n k h2

theorem jsEnds_running (hx : JsExecution f64 first f s) (hr : IsRun f s i) (hp : PromisesSettle s i) {α : Type} (p : Prog α) :
    ∀ (M : Nat) (t : JsTask α), (s M).tasks[i]? = some ⟨α, t⟩ → t.phase = .running p → ∃ N, (s N).Ended i := by
  induction p with
  | ret r =>
    intro M t ht hph
    obtain ⟨j, a, t', -, h1, h2⟩ := hx.acts hr ht fun j _ h => canGoOn_of h (by simp [hph]) (by simp [hph])
    cases a <;> simp only [JsTask.step, hph] at h1 <;> cases h1
    exact ⟨j + 1, α, _, r, h2, rfl⟩
  | ask q k ih =>
    intro M t ht hph
    obtain ⟨j, a, t', -, h1, h2⟩ := hx.acts hr ht fun j _ h => canGoOn_of h (by simp [hph]) (by simp [hph])
    by_cases hq : q = .random
    · subst hq
      cases a <;> simp only [JsTask.step, hph] at h1 <;> cases h1
      exact ih _ (j + 1) _ h2 rfl
    · obtain ⟨n, ht'⟩ : ∃ n, t' = { t with phase := .waiting q n k } := by
        cases a <;> simp only [JsTask.step, hph] at h1
        · cases h1
        · cases q <;> first | exact absurd rfl hq | cases h1
        · cases q <;> first | exact absurd rfl hq | (cases h1; exact ⟨_, rfl⟩)
        · cases h1
        · cases h1
      subst ht'
      obtain ⟨j0, hj0⟩ := hp (j + 1) n ⟨α, _, q, k, h2, rfl⟩
      obtain ⟨x, hx0⟩ := Option.isSome_iff_exists.1 hj0
      -- the operation waits until the promise is settled, or goes on
      have wait : ∀ d, (∃ N, (s N).Ended i) ∨ (s (j + 1 + d)).tasks[i]? = some ⟨α, { t with phase := .waiting q n k }⟩ := by
        intro d
        induction d with
        | zero => exact .inr h2
        | succ d ihd =>
          rcases ihd with h | h
          · exact .inl h
          · rcases hx.next h with ⟨h, -⟩ | ⟨a, t', -, h1, h3⟩
            · exact .inr h
            · cases a <;> simp only [JsTask.step] at h1
              case poll =>
                split at h1
                · obtain ⟨b, -, hb⟩ := Option.map_eq_some_iff.1 h1
                  cases hb
                  exact .inl (ih _ _ _ h3 rfl)
                · cases h1; exact .inr h3
              all_goals cases h1
      rcases wait (j0 + 1) with h | h
      · exact h
      · obtain ⟨j', a', t'', hj', h1', h2'⟩ := hx.acts hr h fun j' hj' h' => canGoOn_of h' (by simp) (by
          intro q' n' k' e
          cases e
          rw [hx.keptAll hx0 j' (by omega)]
          rfl)
        cases a' <;> simp only [JsTask.step] at h1'
        case poll =>
          rw [hx.keptAll hx0 j' (by omega)] at h1'
          obtain ⟨b, -, hb⟩ := Option.map_eq_some_iff.1 h1'
          cases hb
          exact ih _ _ _ h2' rfl
        all_goals cases h1'

theorem jsEnds (hx : JsExecution f64 first f s) (hr : IsRun f s i) (hp : PromisesSettle s i) (M : Nat) (hc : (s M).Called i) :
    ∃ N, (s N).Ended i := by
  obtain ⟨⟨α, t⟩, ht⟩ := hc
  obtain ⟨H, hH⟩ := hx.history M
  cases hph : t.phase with
  | ended r => exact ⟨M, α, t, r, ht, hph⟩
  | running p => exact jsEnds_running hx hr hp p M t ht hph
  | called objs body =>
    obtain ⟨j, a, t', -, h1, h2⟩ := hx.acts hr ht fun j _ h => canGoOn_of h (by simp [hph]) (by simp [hph])
    cases a <;> simp only [JsTask.step, hph] at h1 <;> cases h1
    exact jsEnds_running hx hr hp _ (j + 1) _ h2 rfl
  | waiting q n k =>
    obtain ⟨j0, hj0⟩ := hp M n ⟨α, t, q, k, ht, hph⟩
    obtain ⟨x, hx0⟩ := Option.isSome_iff_exists.1 hj0
    have wait : ∀ d, (∃ N, (s N).Ended i) ∨ (s (M + d)).tasks[i]? = some ⟨α, t⟩ := by
      intro d
      induction d with
      | zero => exact .inr ht
      | succ d ihd =>
        rcases ihd with h | h
        · exact .inl h
        · rcases hx.next h with ⟨h, -⟩ | ⟨a, t', -, h1, h3⟩
          · exact .inr h
          · cases a <;> simp only [JsTask.step, hph] at h1
            case poll =>
              split at h1
              · obtain ⟨b, -, hb⟩ := Option.map_eq_some_iff.1 h1
                cases hb
                exact .inl (jsEnds_running hx hr hp _ _ _ h3 rfl)
              · cases h1; exact .inr h3
            all_goals cases h1
    rcases wait j0 with h | h
    · exact h
    · obtain ⟨j', a', t'', hj', h1', h2'⟩ := hx.acts hr h fun j' hj' h' => canGoOn_of h' (by simp [hph]) (by
        intro q' n' k' e
        rw [hph] at e
        cases e
        rw [hx.keptAll hx0 j' (by omega)]
        rfl)
      cases a' <;> simp only [JsTask.step, hph] at h1'
      case poll =>
        rw [hx.keptAll hx0 j' (by omega)] at h1'
        obtain ⟨b, -, hb⟩ := Option.map_eq_some_iff.1 h1'
        cases hb
        exact jsEnds_running hx hr hp _ _ _ h2' rfl
      all_goals cases h1'

theorem endsOnce_of_ended (hx : JsExecution f64 first f s) {N : Nat} (h : (s N).Ended i) : EndsOnce s i := by
  obtain ⟨α, t, r, ht, hph⟩ := h
  have stay : ∀ j, N ≤ j → (s j).tasks[i]? = some ⟨α, t⟩ := by
    intro j hj
    induction hj with
    | refl => exact ht
    | step _ ih =>
      rcases hx.next ih with ⟨h, -⟩ | ⟨a, t', -, h1, -⟩
      · exact h
      · cases a <;> simp [JsTask.step, hph] at h1
  refine ⟨N, α, r, fun j hj => ⟨t, stay j hj, hph, ?_⟩⟩
  obtain ⟨H, hH⟩ := hx.history j
  have inv := jsSysInv hH
  have hlt := (List.getElem?_eq_some_iff.1 (stay j hj)).1
  rw [inv.length] at hlt
  obtain ⟨⟨β, objs, body⟩, hcall⟩ : ∃ c, (jsStarted H)[i]? = some c := ⟨_, List.getElem?_eq_getElem hlt⟩
  obtain ⟨t', h1, h2⟩ := inv.tasks i _ hcall
  rw [stay j hj] at h1
  cases h1
  have hset := h2.settled
  rw [hph] at hset
  rw [hset]
  rcases r with (_ | _ | _) | _ <;> rfl

/-- C99: an operation that is called and run ends, and settles its promise once (or panics), if every promise it waits for is settled
sooner or later: whatever other operations do, however many there are, and whatever the application does with its objects. -/
theorem C99_ends (hx : JsExecution f64 first f s) (i M : Nat) (hc : (s M).Called i) (hr : IsRun f s i) (hp : PromisesSettle s i) :
    EndsOnce s i := by
  obtain ⟨N, h⟩ := jsEnds hx hr hp M hc
  exact endsOnce_of_ended hx h

/-- C99: in particular resolvers may use the library themselves, as deeply as they like: all operations end if the promises an operation
waits for are settled once the operations it depends on have ended, as long as no operation depends on itself, however indirectly. -/
theorem C99_nested (hx : JsExecution f64 first f s) (rank : Nat → Nat) (hr : ∀ i, IsRun f s i)
    (hp : ∀ i, (∀ i', rank i' < rank i → ∀ M, (s M).Called i' → ∃ N, (s N).Ended i') → PromisesSettle s i) (i M : Nat)
    (hc : (s M).Called i) : EndsOnce s i := by
  have key : ∀ (d i : Nat), rank i < d → ∀ M, (s M).Called i → ∃ N, (s N).Ended i := by
    intro d
    induction d with
    | zero => intro i h; omega
    | succ d ih =>
      intro i hi M hc
      exact jsEnds hx (hr i) (hp i fun i' h' => ih i' (by omega)) M hc
  obtain ⟨N, h⟩ := key (rank i + 1) i (by omega) M hc
  exact endsOnce_of_ended hx h

/-- C99 (exception): operations that wait for each other wait for ever: if at some moment each operation of a group waits for a promise
that is settled only after an operation of the group has ended, then none of them ever ends. -/
theorem C99_deadlock (hx : JsExecution f64 first f s) (group : Nat → Prop) (promise : Nat → Nat) (M : Nat)
    (hw : ∀ i, group i → (s M).WaitsFor i (promise i))
    (hp : ∀ i j, group i → ((s j).heap.promises (promise i)).isSome = true → ∃ i' j', group i' ∧ j' ≤ j ∧ (s j').Ended i') :
    ∀ i j, group i → ¬ (s j).Ended i := by
  -- who has ended stays so
  have still : ∀ i j j', j ≤ j' → (s j).Ended i → (s j').Ended i := by
    intro i j j' hj h
    induction hj with
    | refl => exact h
    | step _ ih =>
      obtain ⟨α, t, r, ht, hph⟩ := ih
      rcases hx.next ht with ⟨h, -⟩ | ⟨a, t', -, h1, -⟩
      · exact ⟨α, t, r, h, hph⟩
      · cases a <;> simp [JsTask.step, hph] at h1
  have not_both : ∀ i n j, (s j).WaitsFor i n → ¬ (s j).Ended i := by
    rintro i n j ⟨α, t, q, k, ht, hph⟩ ⟨β, t', r, ht', hph'⟩
    rw [ht] at ht'
    cases ht'
    rw [hph] at hph'
    cases hph'
  have before : ∀ j, j ≤ M → ∀ i, group i → ¬ (s j).Ended i := fun j hj i hi h => not_both _ _ _ (hw i hi) (still i j M hj h)
  have all : ∀ d, (∀ j, j ≤ M + d → ∀ i, group i → ¬ (s j).Ended i) ∧ ∀ i, group i → (s (M + d)).WaitsFor i (promise i) := by
    intro d
    induction d with
    | zero => exact ⟨before, hw⟩
    | succ d ih =>
      have hnext : ∀ i, group i → (s (M + d + 1)).WaitsFor i (promise i) := by
        intro i hi
        obtain ⟨α, t, q, k, ht, hph⟩ := ih.2 i hi
        rcases hx.next ht with ⟨h, -⟩ | ⟨a, t', -, h1, h2⟩
        · exact ⟨α, t, q, k, h, hph⟩
        · cases a <;> simp only [JsTask.step, hph] at h1
          case poll =>
            split at h1
            · rename_i x hx0
              obtain ⟨i', j', g1, g2, g3⟩ := hp i (M + d) hi (by rw [hx0]; rfl)
              exact absurd g3 (ih.1 j' g2 i' g1)
            · cases h1; exact ⟨α, t, q, k, h2, hph⟩
          all_goals cases h1
      refine ⟨fun j hj i hi => ?_, hnext⟩
      by_cases e : j ≤ M + d
      · exact ih.1 j e i hi
      · have : j = M + d + 1 := by omega
        subst this
        exact not_both _ _ _ (hnext i hi)
  intro i j hi
  exact (all j).1 j (by omega) i hi

/-! ## Examples -/

/-- What happens, and then nothing. -/
def World.script (f64 : Str → Option Str) (first : Nat → Str) (l : List JsAct) (j : Nat) : JsSystem :=
  (JsSystem.run f64 (l.take j) (.init first)).getD (.init first)

theorem World.script_runs (f64 : Str → Option Str) (first : Nat → Str) (l : List JsAct) (j : Nat)
    (h : (JsSystem.run f64 l (.init first)).isSome = true) :
    JsSystem.run f64 (l.take j) (.init first) = some (World.script f64 first l j) := by
  unfold World.script
  rw [← List.take_append_drop j l, jsRun_append] at h
  cases e : JsSystem.run f64 (l.take j) (.init first) with
  | none => rw [e] at h; cases h
  | some s => rfl

theorem World.script_execution (f64 : Str → Option Str) (first : Nat → Str) (l : List JsAct)
    (h : (JsSystem.run f64 l (.init first)).isSome = true) :
    JsExecution f64 first (fun j => l[j]?) (World.script f64 first l) := by
  refine ⟨by simp [World.script, JsSystem.run], fun j => ?_⟩
  have h1 := World.script_runs f64 first l j h
  have h2 := World.script_runs f64 first l (j + 1) h
  rw [List.take_succ, jsRun_append, h1] at h2
  cases e : l[j]? with
  | none =>
    rw [e] at h2
    dsimp only
    rw [e]
    exact (Option.some.inj h2).symm
  | some a =>
    rw [e] at h2
    dsimp only
    rw [e]
    simpa [JsSystem.run] using h2

/-- An operation that looks Bob's document up. -/
def World.lookUp : Prog (Option DIDDoc) := .ask (.resolve World.bob) fun
  | .ok d => .ret (.ok d)
  | .error k => .ret (.error (.kind k))

/-- It is called, asks, and its resolver's promise is fulfilled with `null`. -/
def World.lookUpScript : List JsAct :=
  [.start [] fun _ => World.lookUp, .task 0 .begin, .task 0 (.call 7), .settle 7 (.ok ⟨b!"null", none⟩), .task 0 .poll, .task 0 .finish]

theorem World.lookUp_late (j : Nat) : World.script Toy.crypto.f64 (fun _ => []) World.lookUpScript (j + 6) =
    World.script Toy.crypto.f64 (fun _ => []) World.lookUpScript 6 := by
  unfold World.script
  rw [List.take_of_length_le (by simp [World.lookUpScript])]
  rfl

/-- C99_ends and C99_nested: that execution meets the hypotheses, and the operation does wait for its resolver. -/
example : ∃ (f : Nat → Option JsAct) (s : Nat → JsSystem), JsExecution Toy.crypto.f64 (fun _ => []) f s ∧ (s 1).Called 0 ∧
    (∀ i, IsRun f s i ∧ PromisesSettle s i) ∧ (s 3).WaitsFor 0 7 := by
  have only : ∀ j i, (World.script Toy.crypto.f64 (fun _ => []) World.lookUpScript j).Called i → i = 0 := by
    rintro j (_ | i) ⟨t, ht⟩
    · rfl
    · match j with
      | 0 | 1 | 2 | 3 | 4 | 5 => cases ht
      | j + 6 => rw [World.lookUp_late] at ht; cases ht
  refine ⟨_, _, World.script_execution _ _ World.lookUpScript rfl, ⟨_, rfl⟩, fun i => ⟨fun N hN => ?_, fun j n hw => ⟨6, ?_⟩⟩,
    ⟨_, _, _, _, rfl, rfl⟩⟩
  · have h := hN (N + 6) (by omega)
    cases only _ _ h.1
    rw [World.lookUp_late] at h
    exact absurd ⟨_, _, _, rfl, rfl⟩ h.2.1
  · have : n = 7 := by
      obtain ⟨α, t, q, k, h1, h2⟩ := hw
      cases only _ _ ⟨_, h1⟩
      match j with
      | 0 => cases h1
      | 1 => cases h1; cases h2
      | 2 => cases h1; cases h2
      | 3 => cases h1; cases h2; rfl
      | 4 => cases h1; cases h2; rfl
      | 5 => cases h1; cases h2
      | j + 6 => rw [World.lookUp_late] at h1; cases h1; cases h2
    subst this
    rfl

/-- C99_deadlock: the resolvers of two operations return promises that nobody settles. -/
example : ∃ (f : Nat → Option JsAct) (s : Nat → JsSystem), JsExecution Toy.crypto.f64 (fun _ => []) f s ∧
    (∀ i, i < 2 → (s 6).WaitsFor i i) ∧ ∀ i j, ((s j).heap.promises i).isSome = false := by
  refine ⟨_, _, World.script_execution _ _ [.start [] fun _ => World.lookUp, .start [] fun _ => World.lookUp, .task 0 .begin,
    .task 1 .begin, .task 0 (.call 0), .task 1 (.call 1)] rfl, fun i hi => ?_, fun i j => ?_⟩
  · match i with
    | 0 => exact ⟨_, _, _, _, rfl, rfl⟩
    | 1 => exact ⟨_, _, _, _, rfl, rfl⟩
  · match j with
    | 0 | 1 | 2 | 3 | 4 | 5 => rfl
    | j + 6 =>
      unfold World.script
      rw [List.take_of_length_le (by simp)]
      rfl

end DIDComm
