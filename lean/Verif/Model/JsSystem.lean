import Verif.Model.JsApi
import Verif.Model.Bindings
import Verif.Spec.Env

/-!
# JavaScript resolvers, and operations of the JavaScript binding running at the same time — /repo/wasm/src

Each call of the binding makes a future of the core and returns a promise for its end (`future_to_promise`).  A question to a resolver
calls the JavaScript function, which returns a promise; the future is polled until that promise is settled.  Everything runs on one
thread, but the futures, and the application, which settles the promises of its resolvers, take turns in any order.  A resolver may
return a promise it returned before, so that several questions, also of different operations, wait for one promise.  Options and other
objects given to an operation are read when its future first runs, which is after the call has returned.

Simplified: a resolver function returns a promise in one step.  One that throws instead is one that returns a rejected promise (`catch`,
/repo/wasm/src/did/did_resolver.rs L11-15).
-/

set_option autoImplicit false

namespace DIDComm

/-- The value a resolver's promise is fulfilled with: its JSON (`undefined` counts as `null`) and, if it is an array, which of its
elements are strings.  What is looked at by /repo/wasm/src/did/did_resolver.rs L57-62 and
/repo/wasm/src/secrets/secrets_resolver.rs L86-91, L111-122. -/
structure JsValue where
  json : Str
  elements : Option (List (Option Str))

/-- How `find_secrets` looks at the value — /repo/wasm/src/secrets/secrets_resolver.rs L111-122. -/
def JsValue.found (v : JsValue) : JsFound :=
  match v.elements with
  | some l => .array l
  | none => .other

/-- What a JavaScript resolver's promise became, as an answer for the core: `JsDIDResolver::resolve`,
`JsSecretsResolver::get_secret` and `find_secrets`.  /repo/wasm/src/did/did_resolver.rs L49-66,
/repo/wasm/src/secrets/secrets_resolver.rs L78-132.  Randomness is not asked from JavaScript. -/
def wasmAnswer (f64 : Str → Option Str) : (q : Query) → Except Thrown JsValue → Option q.Ans
  | .resolve _, x => some (wasmObject (α := DIDDoc) (x.map fun v => (wasmDoc f64 v.json).toOption))
  | .getSecret _, x => some (wasmObject (α := Secret) (x.map fun v => (wasmSecret f64 v.json).toOption))
  | .findSecrets ks, x => some (wasmFindSecrets ks (x.map JsValue.found))
  | .random, _ => none

/-- JavaScript resolvers whose promises become the same every time — the objects of type `DIDResolver`,
/repo/wasm/src/did/did_resolver.rs L8-16, and `SecretsResolver`, /repo/wasm/src/secrets/secrets_resolver.rs L9-22. -/
structure JsEnv where
  resolve : Str → Except Thrown JsValue
  getSecret : Str → Except Thrown JsValue
  findSecrets : List Str → Except Thrown JsValue

/-- The resolvers the core sees — /repo/wasm/src/did/did_resolver.rs L46-66 and
/repo/wasm/src/secrets/secrets_resolver.rs L75-132. -/
def JsEnv.env (f64 : Str → Option Str) (J : JsEnv) : Env where
  resolve d := wasmObject ((J.resolve d).map fun v => (wasmDoc f64 v.json).toOption)
  getSecret k := wasmObject ((J.getSecret k).map fun v => (wasmSecret f64 v.json).toOption)
  findSecrets ks := wasmFindSecrets ks ((J.findSecrets ks).map JsValue.found)

/-- What operations and the application share: the promises of the resolvers and the objects given as options, headers, routing keys
or algorithm, by their JSON, both numbered.  /repo/wasm/src/message/pack_encrypted.rs L22-24,
/repo/wasm/src/message/protocols/routing/mod.rs L36-39. -/
structure JsHeap where
  promises : Nat → Option (Except Thrown JsValue)
  objects : Nat → Str

/-- Where an operation is: called, but its future has not run; the core is running; the future waits for promise number `n`; or it has
ended.  The future of /repo/wasm/src/message/pack_encrypted.rs L30-62 and of the other operations. -/
inductive JsPhase (α : Type)
  | called (objs : List Nat) (body : List Str → Prog α)
  | running (p : Prog α)
  | waiting (q : Query) (n : Nat) (k : q.Ans → Prog α)
  | ended (r : Res α)

/-- An operation and what its own promise was settled with.  /repo/wasm/src/message/pack_encrypted.rs L30-62. -/
structure JsTask (α : Type) where
  phase : JsPhase α
  settled : List (Except Str α)

/-- An operation just called — /repo/wasm/src/message/pack_encrypted.rs L26-30: the message (`self.0.clone()`) and the texts given are
moved into the future, objects by reference. -/
def JsTask.new {α : Type} (objs : List Nat) (body : List Str → Prog α) : JsTask α := ⟨.called objs body, []⟩

/-- What can happen to an operation.  /repo/wasm/src/message/pack_encrypted.rs L30-62 and
/repo/wasm/src/did/did_resolver.rs L49-66. -/
inductive JsTaskAct
  /-- the future runs for the first time and reads the objects -/
  | begin
  /-- the core draws the random value `n` -/
  | draw (n : Nat)
  /-- an adapter calls the resolver, which returns promise number `n` -/
  | call (n : Nat)
  /-- the future that waits is polled -/
  | poll
  /-- the future ends, and the operation's promise is settled -/
  | finish

/-- One step of an operation; `none` if it is not possible.  `begin`: `options.into_serde()` inside the future,
/repo/wasm/src/message/pack_encrypted.rs L30-34, /repo/wasm/src/message/unpack.rs L30-34,
/repo/wasm/src/message/protocols/routing/mod.rs L44-58.  `call`, `poll`: `self.0.resolve(did).await` and the rest of the adapters,
/repo/wasm/src/did/did_resolver.rs L51-65, /repo/wasm/src/secrets/secrets_resolver.rs L80-95 and L97-131.  `finish`:
/repo/wasm/src/message/pack_encrypted.rs L45-61. -/
def JsTask.step {α : Type} (f64 : Str → Option Str) (h : JsHeap) (t : JsTask α) : JsTaskAct → Option (JsTask α)
  | .begin =>
    match t.phase with
    | .called objs body => some { t with phase := .running (body (objs.map h.objects)) }
    | _ => none
  | .draw n =>
    match t.phase with
    | .running (.ask .random k) => some { t with phase := .running (k n) }
    | _ => none
  | .call n =>
    match t.phase with
    | .running (.ask .random _) => none
    | .running (.ask q k) => some { t with phase := .waiting q n k }
    | _ => none
  | .poll =>
    match t.phase with
    | .waiting q n k =>
      match h.promises n with
      | some x => (wasmAnswer f64 q x).map fun a => { t with phase := .running (k a) }
      | none => some t
    | _ => none
  | .finish =>
    match t.phase with
    | .running (.ret r) => some { t with phase := .ended r, settled := t.settled ++ wasmReport r }
    | _ => none

/-- An operation with any type of result.  /repo/wasm/src/message/mod.rs: the operations differ only in the function of the core they
run. -/
structure AnyJsTask : Type 1 where
  α : Type
  task : JsTask α

/-- What is shared, and the operations called so far.  `future_to_promise` at /repo/wasm/src/message/pack_encrypted.rs L30 and in the
other operations. -/
structure JsSystem : Type 1 where
  heap : JsHeap
  tasks : List AnyJsTask

/-- Before anything: no promise is settled; the objects are whatever they are.  /repo/wasm/src/lib.rs. -/
def JsSystem.init (objects : Nat → Str) : JsSystem := ⟨⟨fun _ => none, objects⟩, []⟩

/-- What can happen: an operation is called with some objects, something happens to operation number `i`, the application settles
promise number `n`, or it changes object number `o`.  /repo/wasm/src/message/pack_encrypted.rs L16-62,
/repo/wasm/src/did/did_resolver.rs L49-66. -/
inductive JsAct : Type 1
  | start {α : Type} (objs : List Nat) (body : List Str → Prog α)
  | task (i : Nat) (a : JsTaskAct)
  | settle (n : Nat) (x : Except Thrown JsValue)
  | assign (o : Nat) (text : Str)

/-- One step.  A promise that is settled stays as it is, by the rules of JavaScript.  Operations share nothing but the heap: a message
is shared by reference and never changed, /repo/wasm/src/message/mod.rs L14-16. -/
def JsSystem.step (f64 : Str → Option Str) (s : JsSystem) : JsAct → Option JsSystem
  | .start objs body => some { s with tasks := s.tasks ++ [⟨_, JsTask.new objs body⟩] }
  | .task i a =>
    match s.tasks[i]? with
    | some t => (t.task.step f64 s.heap a).map fun t' => { s with tasks := s.tasks.set i ⟨t.α, t'⟩ }
    | none => none
  | .settle n x =>
    match s.heap.promises n with
    | some _ => some s
    | none => some { s with heap := { s.heap with promises := fun m => if m = n then some x else s.heap.promises m } }
  | .assign o text => some { s with heap := { s.heap with objects := fun m => if m = o then text else s.heap.objects m } }

/-- A history.  /repo/wasm/src/message/pack_encrypted.rs L16-62. -/
def JsSystem.run (f64 : Str → Option Str) : List JsAct → JsSystem → Option JsSystem
  | [], s => some s
  | a :: r, s => (s.step f64 a).bind (JsSystem.run f64 r)

/-- The call `Message.unpack(msg, .., options)`, with object number `o` as options — /repo/wasm/src/message/unpack.rs L18-54. -/
def JsAct.unpack (C : Crypto) (msg : Str) (o : Nat) : JsAct := .start [o] fun l => wasmUnpack C msg (l.headD [])

/-- The call `message.pack_encrypted(to, from, sign_by, .., options)` — /repo/wasm/src/message/pack_encrypted.rs L16-62. -/
def JsAct.packEncrypted (C : Crypto) (m : Message) (to : Str) (from_ signBy : Option Str) (o : Nat) : JsAct :=
  .start [o] fun l => wasmPackEncrypted C m to from_ signBy (l.headD [])

/-- The call `Message.wrap_in_forward(msg, headers, to, routing_keys, enc_alg_anon, ..)` —
/repo/wasm/src/message/protocols/routing/mod.rs L33-75. -/
def JsAct.wrapInForward (C : Crypto) (msg to : Str) (headers keys alg : Nat) : JsAct :=
  .start [headers, keys, alg] fun l => wasmWrapInForward C msg (l.headD []) to ((l.drop 1).headD []) ((l.drop 2).headD [])

end DIDComm
