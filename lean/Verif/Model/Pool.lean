import Verif.Model.UniffiSystem

/-!
# The threads of the uniffi binding — /repo/uniffi/src/common.rs L17-23

The tasks of `Model/UniffiSystem` on the binding's executor, a `futures::executor::ThreadPool` with a limited number of threads.  A
spawned or woken task is queued; a free thread takes it and polls it until it has to wait or has ended.  Foreign code — a resolver, or
the callback that gets the result — is called on the thread that runs the task and keeps it until it returns.  A task that waits for
its callback keeps no thread; it is woken when the callback's sender has sent or is dropped.  A task that panics takes its thread with
it: the pool neither catches panics nor replaces threads (behaviour of the futures crate, not in /repo).

Simplified: the queue is served in any order.  Foreign code does not panic.
-/

set_option autoImplicit false

namespace DIDComm

/-- The number of threads, from the number of processors — /repo/uniffi/src/common.rs L19-20. -/
def poolSize (cpus : Nat) : Nat := max 8 cpus

/-- Where a task is: in the queue, run by a thread, in foreign code on its thread, waiting without a thread, ended, or ended by a panic
that took the thread along.  /repo/uniffi/src/common.rs L17-23, /repo/uniffi/src/didcomm/pack_encrypted.rs L40-45. -/
inductive Place
  | queued
  | busy
  | foreign
  | parked
  | done
  | lost
  deriving DecidableEq

/-- The places that use up a thread.  /repo/uniffi/src/common.rs L17-23. -/
def Place.holds : Place → Bool
  | .busy => true
  | .foreign => true
  | .lost => true
  | _ => false

/-- A task and where it is.  /repo/uniffi/src/didcomm/pack_encrypted.rs L29-45. -/
structure PoolTask : Type 1 where
  place : Place
  α : Type
  task : Task α

/-- The threads that are not free.  /repo/uniffi/src/common.rs L17-23. -/
def inUse (s : List PoolTask) : Nat := s.countP fun t => t.place.holds

/-- A callback whose receiver is ready: a result was sent, or the sender is gone.  /repo/uniffi/src/common.rs L41-49. -/
def CbState.ready {V : Type} (s : CbState V) : Bool :=
  s.content.isSome || match s.sender with
    | .gone => true
    | _ => false

/-- The task waits for a callback that is ready.  /repo/uniffi/src/common.rs L44-48. -/
def Task.ready {α : Type} (t : Task α) : Bool :=
  match t.phase with
  | .waiting _ cb _ => cb.ready
  | _ => false

/-- What can happen.  /repo/uniffi/src/common.rs L17-23 and the acts of `TaskAct`. -/
inductive PoolAct : Type 1
  /-- an operation is called: its task is spawned, from any thread -/
  | start {α : Type} (p : Prog α)
  /-- a free thread takes task `i` from the queue -/
  | take (i : Nat)
  /-- the core of task `i` draws the random value `m` -/
  | draw (i m : Nat)
  /-- task `i` calls a foreign resolver with a new callback -/
  | call (i : Nat)
  /-- the foreign code that task `i` called returns -/
  | back (i : Nat)
  /-- task `i` looks whether its callback is ready -/
  | poll (i : Nat)
  /-- the core of task `i` has ended; its result callback is called, unless it panicked -/
  | finish (i : Nat)
  /-- foreign code acts on callback number `j` of task `i` -/
  | foreign (i j : Nat) (q : Query) (a : ForeignAct q.Ans)

/-- Where a task is after its core has ended with `r` — /repo/uniffi/src/didcomm/pack_encrypted.rs L40-45: the result callback is
foreign code; a panic unwinds the thread.  (The core never ends with `fuel`.) -/
def placeAtEnd {α : Type} : Res α → Place
  | .ok _ => .foreign
  | .error (.kind _) => .foreign
  | .error .panic => .lost
  | .error .fuel => .lost

/-- What becomes of task `t` with number `i` when it is alone concerned by the act; `none` if that is not possible.  `free` says whether
a thread is free.  /repo/uniffi/src/common.rs L17-23 and L41-88, /repo/uniffi/src/did/did_resolver_adapter.rs L24-34,
/repo/uniffi/src/didcomm/pack_encrypted.rs L29-45. -/
def PoolTask.step (free : Bool) (t : PoolTask) : PoolAct → Option PoolTask
  | .start _ => none
  | .take _ => if t.place = .queued ∧ free = true then some { t with place := .busy } else none
  | .draw _ m => if t.place = .busy then (t.task.step (.draw m)).map fun t' => ⟨.busy, t.α, t'⟩ else none
  | .call _ => if t.place = .busy then (t.task.step .call).map fun t' => ⟨.foreign, t.α, t'⟩ else none
  | .back _ =>
    if t.place = .foreign then
      match t.task.phase with
      | .waiting _ _ _ => some { t with place := .busy }
      | .ended _ => some { t with place := .done }
      | .running _ => none
    else none
  | .poll _ =>
    if t.place = .busy then
      (t.task.step .poll).map fun t' =>
        match t'.phase with
        | .waiting _ _ _ => ⟨.parked, t.α, t'⟩
        | _ => ⟨.busy, t.α, t'⟩
    else none
  | .finish _ =>
    if t.place = .busy then
      match t.task.phase with
      | .running (.ret r) => (t.task.step .finish).map fun t' => ⟨placeAtEnd r, t.α, t'⟩
      | _ => none
    else none
  | .foreign _ j q a =>
    (t.task.step (.foreign j q a)).map fun t' =>
      ⟨if t.place = .parked ∧ t'.ready = true then .queued else t.place, t.α, t'⟩

/-- The task an act is about.  /repo/uniffi/src/common.rs L17-23: every task is polled on its own. -/
def PoolAct.who : PoolAct → Option Nat
  | .start _ => none
  | .take i => some i
  | .draw i _ => some i
  | .call i => some i
  | .back i => some i
  | .poll i => some i
  | .finish i => some i
  | .foreign i _ _ _ => some i

/-- One step of all tasks on `n` threads.  /repo/uniffi/src/common.rs L17-23, `EXECUTOR.spawn_ok` at
/repo/uniffi/src/didcomm/pack_encrypted.rs L40. -/
def poolStep (n : Nat) (s : List PoolTask) : PoolAct → Option (List PoolTask)
  | .start p => some (s ++ [⟨.queued, _, Task.new p⟩])
  | a =>
    match a.who with
    | some i =>
      match s[i]? with
      | some t => (t.step (decide (inUse s < n)) a).map fun t' => s.set i t'
      | none => none
    | none => none

/-- A history.  /repo/uniffi/src/common.rs L17-23. -/
def poolRun (n : Nat) : List PoolAct → List PoolTask → Option (List PoolTask)
  | [], s => some s
  | a :: r, s => (poolStep n s a).bind (poolRun n r)

end DIDComm
