import Verif.Model.UniffiSystem
import Verif.Spec.Bindings
import Verif.Spec.PackQuestions
import Verif.Spec.Secrecy

/-! # Vocabulary for operations that run at the same time -/

set_option autoImplicit false

namespace DIDComm

/-- `Path p tr p'`: with the questions and answers `tr`, the program `p` gets to `p'`. -/
inductive Path {α : Type} : Prog α → List Event → Prog α → Prop
  | here (p : Prog α) : Path p [] p
  | next (q : Query) (k : q.Ans → Prog α) (a : q.Ans) (tr : List Event) (p' : Prog α) (h : Path (k a) tr p') :
      Path (.ask q k) (⟨q, a⟩ :: tr) p'

/-- With the questions and answers `tr`, an operation that runs `p` gets to this phase. -/
def Reached {α : Type} (p : Prog α) (tr : List Event) : TaskPhase α → Prop
  | .running p' => Path p tr p'
  | .waiting q _ k => Path p tr (.ask q k)
  | .ended r => Runs p tr r

/-- What the foreign side did with callback number `j` of an operation, that was for the question `q`. -/
def foreignOn (j : Nat) (q : Query) : List TaskAct → List (CbAction q.Ans)
  | [] => []
  | .foreign j' q' a :: r =>
    if h : j' = j ∧ q' = q then (h.2 ▸ a).toCb :: foreignOn j q r else foreignOn j q r
  | _ :: r => foreignOn j q r

/-- What completing a callback comes to: its first completion, if that was a success, or `InvalidState`. -/
def completion {α : Type} (acts : List (CbAction (Except ErrorKind α))) : Except ErrorKind α :=
  match firstTake acts with
  | some (_, .ok a) => .ok a
  | _ => .error .invalidState

/-- The answer to a question whose callback the foreign side treated like this; of the ids found, the core gets those it asked
for. -/
def answerTo : (q : Query) → List (CbAction q.Ans) → q.Ans
  | .resolve _, acts => completion (α := Option DIDDoc) acts
  | .getSecret _, acts => completion (α := Option Secret) acts
  | .findSecrets ks, acts => (completion (α := List Str) acts).map fun found => ks.filter fun k => decide (k ∈ found)
  | .random, _ => (0 : Nat)

/-- The foreign side is through with a callback: the first completion was sent, or the callback was dropped uncompleted. -/
def Settled {V : Type} (acts : List (CbAction V)) : Prop :=
  (∃ i v, firstTake acts = some (i, v) ∧ CbAction.send i ∈ acts) ∨ (firstTake acts = none ∧ CbAction.dropCallback ∈ acts)

/-- The questions to resolvers with their answers. -/
def toResolvers (tr : List Event) : List Event := tr.filter fun ev => ev.query.toResolver

/-- The questions for which an operation gave callbacks to the foreign side, in order. -/
def Task.given {α : Type} (t : Task α) : List Query :=
  t.old.map GivenCb.query ++ match t.phase with
    | .waiting q _ _ => [q]
    | _ => []

/-- The random values drawn. -/
def drawnBy : List TaskAct → List Nat
  | [] => []
  | .draw n :: r => n :: drawnBy r
  | _ :: r => drawnBy r

/-- The operations started, in order. -/
def started : List SystemAct → List ((α : Type) × Prog α)
  | [] => []
  | .start p :: r => ⟨_, p⟩ :: started r
  | .task _ _ :: r => started r

/-- What happened to operation number `i`. -/
def ownActs (i : Nat) : List SystemAct → List TaskAct
  | [] => []
  | .start _ :: r => ownActs i r
  | .task j a :: r => if j = i then a :: ownActs i r else ownActs i r

/-- A result of a foreign resolver as the core sees it. -/
def blurred {α : Type} : Except ErrorKind α → Except ErrorKind α
  | .ok a => .ok a
  | .error _ => .error .invalidState

/-- Foreign resolvers as the core sees them through the binding: an error is `InvalidState`; of the ids found, those asked
for. -/
def Env.throughUniffi (E : Env) : Env where
  resolve d := blurred (E.resolve d)
  findSecrets ks := (blurred (E.findSecrets ks)).map fun found => ks.filter fun k => decide (k ∈ found)
  getSecret k := blurred (E.getSecret k)

/-- The answer of `E` to a question. -/
def Env.answer (E : Env) : (q : Query) → q.Ans
  | .resolve d => E.resolve d
  | .findSecrets ks => E.findSecrets ks
  | .getSecret k => E.getSecret k
  | .random => (0 : Nat)

/-- The foreign side completes callbacks, first, with what `E` answers, and drops none uncompleted. -/
def Faithful (E : Env) (acts : List TaskAct) : Prop :=
  ∀ (j : Nat) (q : Query), (∀ i v, firstTake (foreignOn j q acts) = some (i, v) → v = E.answer q) ∧
    (CbAction.dropCallback ∈ foreignOn j q acts → firstTake (foreignOn j q acts) ≠ none)

end DIDComm
