import Verif.Model.Bindings

/-! # Vocabulary for the bindings -/

set_option autoImplicit false

namespace DIDComm

/-- The first completion of a callback: which call it was and with what result. -/
def firstTake {V : Type} : List (CbAction V) → Option (Nat × V)
  | [] => none
  | .take i v :: _ => some (i, v)
  | _ :: r => firstTake r

/-- Nobody sent anything. -/
def NothingSent {V : Type} (acts : List (CbAction V)) : Prop := ∀ i, CbAction.send i ∉ acts

/-- The operation calls back exactly once, in both bindings, with its result. -/
def ReportedOnce {α : Type} (r : Res α) : Prop :=
  (∃ a, r = .ok a ∧ uniffiReport r = [.success a] ∧ wasmReport r = [.ok a]) ∨
  (∃ k, r = .error (.kind k) ∧ uniffiReport r = [.error k] ∧ wasmReport r = [.error (asJs k)])

/-- The operation never calls back. -/
def NeverReported {α : Type} (r : Res α) : Prop := uniffiReport r = [] ∧ wasmReport r = []

end DIDComm
