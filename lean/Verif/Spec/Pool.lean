import Verif.Model.Pool
import Verif.Spec.UniffiSystem

/-! # Vocabulary for operations on a limited number of threads -/

set_option autoImplicit false

namespace DIDComm

/-- An act of the pool as an act on the tasks, if it is one: which thread runs what is left out. -/
def PoolAct.forget : PoolAct → Option SystemAct
  | .start p => some (.start p)
  | .take _ => none
  | .draw i m => some (.task i (.draw m))
  | .call i => some (.task i .call)
  | .back _ => none
  | .poll i => some (.task i .poll)
  | .finish i => some (.task i .finish)
  | .foreign i j q a => some (.task i (.foreign j q a))

/-- The tasks without their places. -/
def PoolTask.forget (t : PoolTask) : AnyTask := ⟨t.α, t.task⟩

/-- Done by the binding, or a return of foreign code into it: not a call of an operation, nor something foreign code does with a
callback. -/
def PoolAct.own : PoolAct → Bool
  | .start _ => false
  | .foreign _ _ _ _ => false
  | _ => true

/-- Foreign code returns. -/
def PoolAct.isBack : PoolAct → Bool
  | .back _ => true
  | _ => false

/-- The binding can do something: there is an act of its own that is possible. -/
def CanAct (n : Nat) (s : List PoolTask) : Prop := ∃ a, PoolAct.own a = true ∧ (poolStep n s a).isSome = true

/-- The binding can do something without foreign code returning first. -/
def CanActAlone (n : Nat) (s : List PoolTask) : Prop :=
  ∃ a, PoolAct.own a = true ∧ PoolAct.isBack a = false ∧ (poolStep n s a).isSome = true

/-- The operation ended, and its caller was called back. -/
def PoolTask.CalledBack (t : PoolTask) : Prop := ∃ r, t.task.phase = .ended r ∧ t.task.reports = uniffiReport r ∧ t.task.reports.length = 1

/-- The operation ended by a panic. -/
def PoolTask.Panicked (t : PoolTask) : Prop := ∃ r, t.task.phase = .ended r ∧ uniffiReport r = []

/-- The operation waits for an answer that the foreign side has not given. -/
def PoolTask.Unanswered (t : PoolTask) : Prop := ∃ q cb k, t.task.phase = .waiting q cb k ∧ cb.ready = false

/-- The operations that panicked. -/
def panics (s : List PoolTask) : Nat := s.countP fun t => decide (t.place = .lost)

/-- The operations on a thread that is in foreign code, or was lost. -/
def blocked (s : List PoolTask) : Nat := s.countP fun t => decide (t.place = .foreign ∨ t.place = .lost)

/-- An execution on `n` threads without end, from the beginning: at moment `i` the act `f i` happens, or nothing. -/
def Execution (n : Nat) (f : Nat → Option PoolAct) (s : Nat → List PoolTask) : Prop :=
  s 0 = [] ∧ ∀ i, match f i with
    | some a => poolStep n (s i) a = some (s (i + 1))
    | none => s (i + 1) = s i

/-- From some moment on no operation is called any more. -/
def CallsEnd (f : Nat → Option PoolAct) : Prop := ∃ N, ∀ i, N ≤ i → ∀ (β : Type) (p : Prog β), f i ≠ some (.start p)

/-- Threads and foreign code make progress: it does not happen that the binding could do something all the time, from some moment on,
and nothing is done. -/
def Goes (n : Nat) (f : Nat → Option PoolAct) (s : Nat → List PoolTask) : Prop :=
  ∀ N, (∀ i, N ≤ i → CanAct n (s i)) → ∃ (i : Nat) (a : PoolAct), N ≤ i ∧ f i = some a ∧ a.own = true

/-- The foreign side gives every answer sooner or later. -/
def AnswersCome (s : Nat → List PoolTask) : Prop :=
  ∀ (i x : Nat) (t : PoolTask), (s i)[x]? = some t → t.Unanswered → ∃ (j : Nat) (t' : PoolTask), i ≤ j ∧ (s j)[x]? = some t' ∧ ¬ t'.Unanswered

end DIDComm
