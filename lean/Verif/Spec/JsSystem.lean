import Verif.Model.JsSystem
import Verif.Spec.ReadingDocs
import Verif.Spec.UniffiSystem
import Verif.Spec.Receiver

/-! # Vocabulary for JavaScript resolvers and for operations of the JavaScript binding that run at the same time -/

set_option autoImplicit false

namespace DIDComm

/-! ## JavaScript resolvers -/

/-- A JavaScript error that says this kind by its name. -/
def NamesKind (k : ErrorKind) (t : Thrown) : Prop := t = .error (some (asJs k))

/-- The promise says what the answer says: it is rejected with an error of that name, or fulfilled with `null`, or with any JSON of the
object found. -/
def SaysObject {α : Type} (Is : Tree → α → Prop) (x : Except Thrown JsValue) : Except ErrorKind (Option α) → Prop
  | .error k => ∃ t, x = .error t ∧ NamesKind k t
  | .ok none => ∃ v, x = .ok v ∧ JsonText .null v.json
  | .ok (some a) => ∃ v t, x = .ok v ∧ JsonText t v.json ∧ Is t a

/-- The promise says which of the ids `ks` were found: it is rejected with an error of that name, or fulfilled with an array in which
exactly those of `ks` occur that were found, in any order, and possibly others. -/
def SaysFound (ks : List Str) (x : Except Thrown JsValue) : Except ErrorKind (List Str) → Prop
  | .error k => ∃ t, x = .error t ∧ NamesKind k t
  | .ok found => ∃ v l, x = .ok v ∧ v.elements = some l ∧ ∀ k ∈ ks, some k ∈ l ↔ k ∈ found

/-- The JavaScript resolvers `J` say what `E` says. -/
structure JsSays (f64 : Str → Option Str) (J : JsEnv) (E : Env) : Prop where
  resolve : ∀ d, SaysObject (IsDocument f64) (J.resolve d) (E.resolve d)
  getSecret : ∀ k, SaysObject (IsSecret f64) (J.getSecret k) (E.getSecret k)
  findSecrets : ∀ ks, SaysFound ks (J.findSecrets ks) (E.findSecrets ks)

/-- What becomes of an error on its way through JavaScript: `SecretNotFound` is not known there. -/
def ErrorKind.throughJs : ErrorKind → ErrorKind
  | .secretNotFound => .invalidState
  | k => k

/-- Resolvers as the core sees them through JavaScript: `SecretNotFound` is `InvalidState`; of the ids found, those asked for, in the
order of the question. -/
def Env.throughJs (E : Env) : Env where
  resolve d := (E.resolve d).mapError ErrorKind.throughJs
  findSecrets ks := ((E.findSecrets ks).mapError ErrorKind.throughJs).map fun found => ks.filter fun k => decide (k ∈ found)
  getSecret k := (E.getSecret k).mapError ErrorKind.throughJs

/-- Resolvers about which JavaScript loses nothing: they never fail with `SecretNotFound`, and report found ids in the order of the
question. -/
structure JsProof (E : Env) : Prop where
  resolve : ∀ d, E.resolve d ≠ .error .secretNotFound
  getSecret : ∀ k, E.getSecret k ≠ .error .secretNotFound
  findSecrets : ∀ ks, E.findSecrets ks ≠ .error .secretNotFound
  order : ∀ ks found, E.findSecrets ks = .ok found → ks.filter (fun k => decide (k ∈ found)) = found

/-- With the resolvers `E` the operation can end with `r`. -/
def MayEnd {α : Type} (E : Env) (p : Prog α) (r : Res α) : Prop := ∃ tr, Answers E tr ∧ Runs p tr r

/-! ## Operations at the same time -/

/-- An operation as it is called: the objects it was given and what it does with their JSON. -/
structure JsCall : Type 1 where
  α : Type
  objs : List Nat
  body : List Str → Prog α

/-- The operations called, in order. -/
def jsStarted : List JsAct → List JsCall
  | [] => []
  | .start objs body :: r => ⟨_, objs, body⟩ :: jsStarted r
  | _ :: r => jsStarted r

/-- What happened to operation number `i`. -/
def jsOwn (i : Nat) : List JsAct → List JsTaskAct
  | [] => []
  | .task j a :: r => if j = i then a :: jsOwn i r else jsOwn i r
  | _ :: r => jsOwn i r

/-- What promise number `n` was settled with: the first time counts. -/
def settledWith (n : Nat) : List JsAct → Option (Except Thrown JsValue)
  | [] => none
  | .settle m x :: r => if m = n then some x else settledWith n r
  | _ :: r => settledWith n r

/-- The JSON of object number `o` after these events: the last change counts. -/
def objectAfter (o : Nat) (first : Str) : List JsAct → Str
  | [] => first
  | .assign m text :: r => objectAfter o (if m = o then text else first) r
  | _ :: r => objectAfter o first r

/-- What happened before operation number `i` first ran; nothing if it did not run. -/
def beforeBegin (i : Nat) : List JsAct → Option (List JsAct)
  | [] => none
  | .task j .begin :: r => if j = i then some [] else (beforeBegin i r).map (.task j .begin :: ·)
  | a :: r => (beforeBegin i r).map (a :: ·)

/-- The promises an operation got from resolvers, in order. -/
def promisesOf : List JsTaskAct → List Nat
  | [] => []
  | .call n :: r => n :: promisesOf r
  | _ :: r => promisesOf r

/-- The random values an operation drew. -/
def jsDrawn : List JsTaskAct → List Nat
  | [] => []
  | .draw n :: r => n :: jsDrawn r
  | _ :: r => jsDrawn r

/-- With the questions and answers `tr`, an operation that runs `p` gets to this phase. -/
def JsReached {α : Type} (p : Prog α) (tr : List Event) : JsPhase α → Prop
  | .called _ _ => False
  | .running p' => Path p tr p'
  | .waiting q _ k => Path p tr (.ask q k)
  | .ended r => Runs p tr r

/-- What the promise becomes that a JavaScript resolver of `J` returns when asked `q`. -/
def JsEnv.reply (J : JsEnv) : Query → Option (Except Thrown JsValue)
  | .resolve d => some (J.resolve d)
  | .getSecret k => some (J.getSecret k)
  | .findSecrets ks => some (J.findSecrets ks)
  | .random => none

/-- What matters to operation number `i`: what happened to it, promises settled and objects changed. -/
def concerns (i : Nat) : JsAct → Bool
  | .start _ _ => true
  | .task j _ => j == i
  | .settle _ _ => true
  | .assign _ _ => true

end DIDComm
