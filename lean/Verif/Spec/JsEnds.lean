import Verif.Spec.JsSystem

/-! # Vocabulary for infinite executions of the JavaScript binding -/

set_option autoImplicit false

namespace DIDComm

/-- An execution without end, from the beginning: at moment `j` the act `f j` happens, or nothing. -/
def JsExecution (f64 : Str → Option Str) (first : Nat → Str) (f : Nat → Option JsAct) (s : Nat → JsSystem) : Prop :=
  s 0 = .init first ∧ ∀ j, match f j with
    | some a => (s j).step f64 a = some (s (j + 1))
    | none => s (j + 1) = s j

/-- Operation number `i` has been called. -/
def JsSystem.Called (s : JsSystem) (i : Nat) : Prop := ∃ t, s.tasks[i]? = some t

/-- Operation number `i` has ended. -/
def JsSystem.Ended (s : JsSystem) (i : Nat) : Prop := ∃ (α : Type) (t : JsTask α) (r : Res α), s.tasks[i]? = some ⟨α, t⟩ ∧ t.phase = .ended r

/-- Operation number `i` waits for promise number `n` of a resolver. -/
def JsSystem.WaitsFor (s : JsSystem) (i n : Nat) : Prop :=
  ∃ (α : Type) (t : JsTask α) (q : Query) (k : q.Ans → Prog α), s.tasks[i]? = some ⟨α, t⟩ ∧ t.phase = .waiting q n k

/-- Operation number `i` can go on: it has been called, has not ended, and does not wait for a promise that is not settled. -/
def JsSystem.CanGoOn (s : JsSystem) (i : Nat) : Prop :=
  s.Called i ∧ ¬ s.Ended i ∧ ∀ n, s.WaitsFor i n → (s.heap.promises n).isSome = true

/-- Operation number `i` is run: if it could go on all the time, from some moment on, then something happens to it. -/
def IsRun (f : Nat → Option JsAct) (s : Nat → JsSystem) (i : Nat) : Prop :=
  ∀ N, (∀ j, N ≤ j → (s j).CanGoOn i) → ∃ (j : Nat) (a : JsTaskAct), N ≤ j ∧ f j = some (.task i a)

/-- Every promise operation number `i` waits for is settled sooner or later. -/
def PromisesSettle (s : Nat → JsSystem) (i : Nat) : Prop :=
  ∀ j n, (s j).WaitsFor i n → ∃ j', ((s j').heap.promises n).isSome = true

/-- From some moment on operation number `i` has ended, always with the same result, with which its own promise was settled, once; or
it panicked and its promise was not settled. -/
def EndsOnce (s : Nat → JsSystem) (i : Nat) : Prop :=
  ∃ (N : Nat) (α : Type) (r : Res α), ∀ j, N ≤ j → ∃ t : JsTask α, (s j).tasks[i]? = some ⟨α, t⟩ ∧ t.phase = .ended r ∧
    match r with
    | .ok a => t.settled = [.ok a]
    | .error (.kind k) => t.settled = [.error (asJs k)]
    | .error _ => t.settled = []

end DIDComm
