import Verif.Spec.Reading

/-!
# The objects the language bindings hand out

What the JSON texts mean, in terms of `Verif.Spec.Reading`.
-/

set_option autoImplicit false

namespace DIDComm

/-- The message asks for `v` to be forwarded to `next`: it has the type of forward messages, a text `next` in its body and `v` as
the JSON data of its first attachment. -/
def AsksForward (m : Message) (next : Str) (v : Value) : Prop :=
  m.type_ = b!"https://didcomm.org/routing/2.0/forward" ∧
  (∃ l, m.body = .obj l ∧ l.lookup b!"next" = some (.str next)) ∧
  ∃ a r jws, m.attachments = some (a :: r) ∧ a.data = .json v jws

/-- An object with exactly the members `msg`, `next` and `forwarded_msg`: the message, where to, and what. -/
def IsParsedForward (f64 : Str → Option Str) (t : Tree) (m : Message) (next : Str) (v : Value) : Prop :=
  ∃ t1 t2 t3, IsMap t [(b!"msg", t1), (b!"next", t2), (b!"forwarded_msg", t3)] ∧
    IsMessage f64 t1 m ∧ IsText t2 next ∧ Means f64 t3 v

/-- An object with exactly the member `sign_by_kid`. -/
def IsSignedMetadata (t : Tree) (kid : Str) : Prop := ∃ t1, IsMap t [(b!"sign_by_kid", t1)] ∧ IsText t1 kid

end DIDComm
