import Verif.Model.Bindings

/-!
# Operations of the uniffi binding running at the same time — /repo/uniffi/src

Each call of the binding spawns a task on a shared executor.  A task runs the core; every question to a resolver hands the
foreign side a new callback and suspends the task until that callback is completed or dropped.  Tasks, and what the foreign side
does with any callback it was ever given, interleave in any order.

Simplified: the executor has a thread for every task that can go on (its threads are not blocked for ever by foreign code), and a
foreign resolver is called and returns in one step; what it does with the callback during the call is the same as what it does
right after.
-/

set_option autoImplicit false

namespace DIDComm

/-- What the foreign side can do with a callback: call number `i` of `success` or `error` takes the sender, call `i` sends, the last
reference is dropped.  The public functions of /repo/uniffi/src/common.rs L60-88. -/
inductive ForeignAct (V : Type)
  | take (i : Nat) (v : V)
  | send (i : Nat)
  | drop

/-- The same as an action on the callback.  /repo/uniffi/src/common.rs L60-88. -/
def ForeignAct.toCb {V : Type} : ForeignAct V → CbAction V
  | .take i v => .take i v
  | .send i => .send i
  | .drop => .dropCallback

/-- What an adapter returns to the core once its receiver is ready; `none` while it is not.
/repo/uniffi/src/did/did_resolver_adapter.rs L27-34 and /repo/uniffi/src/secrets/secrets_resolver_adapter.rs L28-53.
Randomness is not asked from the foreign side. -/
def adapterResult : (q : Query) → Waiter q.Ans → Option q.Ans
  | .resolve _, w => Waiter.result (α := Option DIDDoc) w
  | .getSecret _, w => Waiter.result (α := Option Secret) w
  | .findSecrets ks, w => (Waiter.result (α := List Str) w).map (Except.map (keepRequested ks))
  | .random, _ => none

/-- A callback given out, with the question it is for.  The `cb` of
/repo/uniffi/src/did/did_resolver_adapter.rs L25-27 and /repo/uniffi/src/secrets/secrets_resolver_adapter.rs L24-27, L37-40. -/
structure GivenCb where
  query : Query
  state : CbState query.Ans

/-- The foreign side acts on a callback for the question `q'`; a callback only takes results of its own type.
/repo/uniffi/src/common.rs L60-88. -/
def CbState.foreign {q' : Query} (s : CbState q'.Ans) (q : Query) (a : ForeignAct q.Ans) : Option (CbState q'.Ans) :=
  if h : q = q' then s.step (h ▸ a).toCb else none

/-- Where a task is: the core is running, the task waits for a callback, or it has ended.  The future of
/repo/uniffi/src/didcomm/pack_encrypted.rs L29-39 inside the task of L40-45. -/
inductive TaskPhase (α : Type)
  | running (p : Prog α)
  | waiting (q : Query) (cb : CbState q.Ans) (k : q.Ans → Prog α)
  | ended (r : Res α)

/-- A task: its phase, the callbacks it no longer waits for, oldest first, and its calls of its own result callback.
/repo/uniffi/src/didcomm/pack_encrypted.rs L29-45. -/
structure Task (α : Type) where
  phase : TaskPhase α
  old : List GivenCb
  reports : List (Callback α)

/-- A task just spawned — /repo/uniffi/src/didcomm/pack_encrypted.rs L25-40. -/
def Task.new {α : Type} (p : Prog α) : Task α := ⟨.running p, [], []⟩

/-- What can happen to a task.  /repo/uniffi/src/didcomm/pack_encrypted.rs L29-45 and /repo/uniffi/src/common.rs L41-88. -/
inductive TaskAct
  /-- the core draws the random value `n` -/
  | draw (n : Nat)
  /-- an adapter creates a callback and calls the foreign resolver -/
  | call
  /-- the executor polls the task that waits -/
  | poll
  /-- the task ends and calls back -/
  | finish
  /-- the foreign side acts on the callback number `j` of this task, counted from 0, with a result of the type for `q` -/
  | foreign (j : Nat) (q : Query) (a : ForeignAct q.Ans)

/-- One step of a task; `none` if it is not possible.  `call`: /repo/uniffi/src/did/did_resolver_adapter.rs L25-27,
/repo/uniffi/src/secrets/secrets_resolver_adapter.rs L24-27 and L37-40.  `poll`: /repo/uniffi/src/common.rs L44-48 and the rest of
the adapters.  `finish`: /repo/uniffi/src/didcomm/pack_encrypted.rs L40-45.  `foreign`: /repo/uniffi/src/common.rs L60-88, on a
callback the task waits for or on an old one. -/
def Task.step {α : Type} (t : Task α) : TaskAct → Option (Task α)
  | .draw n =>
    match t.phase with
    | .running (.ask .random k) => some { t with phase := .running (k n) }
    | _ => none
  | .call =>
    match t.phase with
    | .running (.ask .random _) => none
    | .running (.ask q k) => some { t with phase := .waiting q .new k }
    | _ => none
  | .poll =>
    match t.phase with
    | .waiting q cb k =>
      (cb.step .poll).map fun cb' =>
        match adapterResult q cb'.waiter with
        | some a => { t with phase := .running (k a), old := t.old ++ [⟨q, cb'⟩] }
        | none => { t with phase := .waiting q cb' k }
    | _ => none
  | .finish =>
    match t.phase with
    | .running (.ret r) => some { t with phase := .ended r, reports := t.reports ++ uniffiReport r }
    | _ => none
  | .foreign j q a =>
    match t.old[j]? with
    | some c => (c.state.foreign q a).map fun s => { t with old := t.old.set j ⟨c.query, s⟩ }
    | none =>
      match t.phase with
      | .waiting q' cb k =>
        if j = t.old.length then (cb.foreign q a).map fun cb' => { t with phase := .waiting q' cb' k } else none
      | _ => none

/-- A history of a task.  /repo/uniffi/src/didcomm/pack_encrypted.rs L29-45. -/
def Task.run {α : Type} : List TaskAct → Task α → Option (Task α)
  | [], t => some t
  | a :: r, t => (t.step a).bind (Task.run r)

/-- A task with any type of result.  /repo/uniffi/src/didcomm/mod.rs: the operations differ only in the function of the core they
run. -/
structure AnyTask : Type 1 where
  α : Type
  task : Task α

/-- What can happen to all tasks on the executor: a new operation is started, or something happens to task number `i`.
`EXECUTOR.spawn_ok`, /repo/uniffi/src/common.rs L17-23 and /repo/uniffi/src/didcomm/pack_encrypted.rs L40. -/
inductive SystemAct : Type 1
  | start {α : Type} (p : Prog α)
  | task (i : Nat) (a : TaskAct)

/-- One step of all tasks.  The tasks share nothing but the executor, /repo/uniffi/src/common.rs L17-23, and the foreign side. -/
def systemStep (s : List AnyTask) : SystemAct → Option (List AnyTask)
  | .start p => some (s ++ [⟨_, Task.new p⟩])
  | .task i a =>
    match s[i]? with
    | some t => (t.task.step a).map fun t' => s.set i ⟨t.α, t'⟩
    | none => none

/-- A history of all tasks.  /repo/uniffi/src/common.rs L17-23. -/
def systemRun : List SystemAct → List AnyTask → Option (List AnyTask)
  | [], s => some s
  | a :: r, s => (systemStep s a).bind (systemRun r)

end DIDComm
