import Verif.Model.Prog

/-!
# The language bindings — /repo/uniffi/src, /repo/wasm/src

Modelled: the one-shot callback by which foreign resolvers answer, the adapters that turn foreign resolvers into the
resolvers the core asks, how an operation reports its end, and the error conversions of the JavaScript binding.  Not
modelled: the generated scaffolding, the thread pool, the conversion of JavaScript objects by serde (a parameter
below) and the doc texts.
-/

set_option autoImplicit false

namespace DIDComm

/-! ## uniffi: the callback -/

/-- Where the one sender of the channel is: in the callback's cell, in the hands of the call `i` that is about to send
`v`, or used up (sent or dropped) — /repo/uniffi/src/common.rs L51-88: the `Option<Sender>` and the local variable
`sender`. -/
inductive SenderAt (V : Type)
  | cell
  | held (i : Nat) (v : V)
  | gone

/-- The waiting side — /repo/uniffi/src/common.rs L41-49: still waiting, dropped, or finished with the value or with
`Canceled`. -/
inductive Waiter (V : Type)
  | waiting
  | dropped
  | got (v : V)
  | canceled

/-- A callback, its channel and the calls made.  `returned i` is what call `i` returned; `called i` says that it was
made.  /repo/uniffi/src/common.rs L41-88. -/
structure CbState (V : Type) where
  sender : SenderAt V
  content : Option V
  waiter : Waiter V
  alive : Bool
  called : Nat → Bool
  returned : Nat → Option (Except ErrorKind Unit)

/-- `OnResult::new` — /repo/uniffi/src/common.rs L54-58. -/
def CbState.new {V : Type} : CbState V :=
  { sender := .cell, content := none, waiter := .waiting, alive := true, called := fun _ => false, returned := fun _ => none }

/-- What can happen, in any order and from any thread.  /repo/uniffi/src/common.rs L41-88. -/
inductive CbAction (V : Type)
  /-- call number `i`, of `success` or `error` with the result `v`, takes the sender under the lock -/
  | take (i : Nat) (v : V)
  /-- call number `i` sends, after it released the lock -/
  | send (i : Nat)
  /-- the executor polls the waiting side -/
  | poll
  /-- the waiting side is dropped -/
  | dropWaiter
  /-- the last reference to the callback is dropped -/
  | dropCallback

/-- One step; `none` if it is not possible.  `take`: `self.0.lock()..replace(None)` and, for a cell that was empty, the
return of `InvalidState` — L61-65, L70, L76-80, L85.  The lock is never poisoned, since nothing panics
under it.  `send`: `sender.send(..)`, which fails iff the waiting side was dropped — L67-69, L82-84.  `poll`: a oneshot
receiver is ready if there is a value or the sender is gone.  The callback is shared by reference, so it cannot be
dropped while a call is under way.  /repo/uniffi/src/common.rs L44-48 and L60-88. -/
def CbState.step {V : Type} (s : CbState V) : CbAction V → Option (CbState V)
  | .take i v =>
    if s.alive = true ∧ s.called i = false then
      let called := fun j => if j = i then true else s.called j
      match s.sender with
      | .cell => some { s with sender := .held i v, called := called }
      | _ => some { s with called := called, returned := fun j => if j = i then some (.error .invalidState) else s.returned j }
    else none
  | .send i =>
    match s.sender with
    | .held j v =>
      if i = j then
        match s.waiter with
        | .dropped => some { s with sender := .gone, returned := fun k => if k = i then some (.error .invalidState) else s.returned k }
        | _ => some { s with sender := .gone, content := some v, returned := fun k => if k = i then some (.ok ()) else s.returned k }
      else none
    | _ => none
  | .poll =>
    match s.waiter with
    | .waiting =>
      match s.content, s.sender with
      | some v, _ => some { s with waiter := .got v }
      | none, .gone => some { s with waiter := .canceled }
      | none, _ => some s
    | _ => none
  | .dropWaiter =>
    match s.waiter with
    | .waiting => some { s with waiter := .dropped }
    | _ => none
  | .dropCallback =>
    if s.alive = true then
      match s.sender with
      | .held _ _ => none
      | _ => some { s with alive := false, sender := .gone }
    else none

/-- A history of the callback, from its creation.  /repo/uniffi/src/common.rs L41-88. -/
def CbState.run {V : Type} : List (CbAction V) → CbState V → Option (CbState V)
  | [], s => some s
  | a :: r, s => (s.step a).bind (CbState.run r)

/-! ## uniffi: the adapters -/

/-- `OnResultReceiver::get` followed by `.kind(InvalidState, ..)` — /repo/uniffi/src/common.rs L44-48,
/repo/uniffi/src/secrets/secrets_resolver_adapter.rs L29-32 and L42-45, /repo/uniffi/src/did/did_resolver_adapter.rs L29-32.
`none` while waiting. -/
def Waiter.result {α : Type} : Waiter (Except ErrorKind α) → Option (Except ErrorKind α)
  | .got (.ok a) => some (.ok a)
  | .got (.error _) => some (.error .invalidState)
  | .canceled => some (.error .invalidState)
  | .waiting | .dropped => none

/-- `SecretsResolverAdapter::find_secrets`, the filter — /repo/uniffi/src/secrets/secrets_resolver_adapter.rs L47-51; the
same in /repo/wasm/src/secrets/secrets_resolver.rs L124-128. -/
def keepRequested (ids found : List Str) : List Str := ids.filter (fun i => (found.find? (fun f => f == i)).isSome)

/-- The answer the core gets for a question put to a foreign resolver, when the foreign side did `acts` with the callback
it was given.  /repo/uniffi/src/did/did_resolver_adapter.rs L22-35 and
/repo/uniffi/src/secrets/secrets_resolver_adapter.rs L21-53. -/
inductive UniffiAnswers : Event → Prop
  | resolve (d : Str) (acts : List (CbAction (Except ErrorKind (Option DIDDoc)))) (s : CbState (Except ErrorKind (Option DIDDoc)))
      (a : Except ErrorKind (Option DIDDoc)) (h : CbState.run acts .new = some s) (hw : s.waiter.result = some a) :
      UniffiAnswers ⟨.resolve d, a⟩
  | getSecret (k : Str) (acts : List (CbAction (Except ErrorKind (Option Secret)))) (s : CbState (Except ErrorKind (Option Secret)))
      (a : Except ErrorKind (Option Secret)) (h : CbState.run acts .new = some s) (hw : s.waiter.result = some a) :
      UniffiAnswers ⟨.getSecret k, a⟩
  | findSecrets (ks : List Str) (acts : List (CbAction (Except ErrorKind (List Str)))) (s : CbState (Except ErrorKind (List Str)))
      (a : Except ErrorKind (List Str)) (h : CbState.run acts .new = some s) (hw : s.waiter.result = some a) :
      UniffiAnswers ⟨.findSecrets ks, a.map (keepRequested ks)⟩
  | random (n : Nat) : UniffiAnswers (evRandom n)

/-- How an operation calls back its caller.  `success` and `error` of the result callbacks, for
example /repo/uniffi/src/didcomm/pack_encrypted.rs L9-12. -/
inductive Callback (α : Type)
  | success (a : α)
  | error (k : ErrorKind)
  deriving DecidableEq

/-- The end of an operation — /repo/uniffi/src/didcomm/pack_encrypted.rs L40-45 and the same lines of the other operations
there: the task calls back once; a task that panics ends without calling back. -/
def uniffiReport {α : Type} : Res α → List (Callback α)
  | .ok a => [.success a]
  | .error (.kind k) => [.error k]
  | .error .panic => []
  | .error .fuel => []

/-! ## wasm -/

/-- The names of JavaScript errors — /repo/wasm/src/error.rs L13-23. -/
def asJs : ErrorKind → Str
  | .didNotResolved => b!"DIDCommDIDNotResolved"
  | .didUrlNotFound => b!"DIDCommDIDUrlNotFound"
  | .malformed => b!"DIDCommMalformed"
  | .ioError => b!"DIDCommIoError"
  | .invalidState => b!"DIDCommInvalidState"
  | .noCompatibleCrypto => b!"DIDCommNoCompatibleCrypto"
  | .unsupported => b!"DIDCommUnsupported"
  | .illegalArgument => b!"DIDCommIllegalArgument"
  | .secretNotFound => b!"DIDCommSecretNotFound"

/-- What a foreign resolver can throw: a string, an error with a name (if that is a string), or
something else.  The `JsValue` inspected at /repo/wasm/src/error.rs L37-69. -/
inductive Thrown
  | str
  | error (name : Option Str)
  | other

/-- `from_js` — /repo/wasm/src/error.rs L37-69. -/
def fromJs : Thrown → ErrorKind
  | .str => .invalidState
  | .error (some n) =>
    if n = b!"DIDCommDIDNotResolved" then .didNotResolved
    else if n = b!"DIDCommDIDUrlNotFound" then .didUrlNotFound
    else if n = b!"DIDCommMalformed" then .malformed
    else if n = b!"DIDCommIoError" then .ioError
    else if n = b!"DIDCommInvalidState" then .invalidState
    else if n = b!"DIDCommNoCompatibleCrypto" then .noCompatibleCrypto
    else if n = b!"DIDCommUnsupported" then .unsupported
    else if n = b!"DIDCommIllegalArgument" then .illegalArgument
    else .invalidState
  | .error none => .invalidState
  | .other => .invalidState

/-- What a JavaScript `find_secrets` can resolve to: an array of values, of which only strings count, or
something else.  The `JsValue` inspected at /repo/wasm/src/secrets/secrets_resolver.rs L111-122.
-/
inductive JsFound
  | array (l : List (Option Str))
  | other

/-- `JsSecretsResolver::find_secrets` — /repo/wasm/src/secrets/secrets_resolver.rs L97-131. -/
def wasmFindSecrets (ids : List Str) : Except Thrown JsFound → Except ErrorKind (List Str)
  | .error t => .error (fromJs t)
  | .ok .other => .error .invalidState
  | .ok (.array l) => .ok (keepRequested ids (l.filterMap id))

/-- `JsSecretsResolver::get_secret` — /repo/wasm/src/secrets/secrets_resolver.rs L80-95 — and `JsDIDResolver::resolve` —
/repo/wasm/src/did/did_resolver.rs L51-65: the value is converted by serde, which may fail (`none`). -/
def wasmObject {α : Type} : Except Thrown (Option (Option α)) → Except ErrorKind (Option α)
  | .error t => .error (fromJs t)
  | .ok none => .error .invalidState
  | .ok (some a) => .ok a

/-- The answer the core gets for a question put to a JavaScript resolver.
/repo/wasm/src/did/did_resolver.rs L49-66 and /repo/wasm/src/secrets/secrets_resolver.rs L78-132.
-/
inductive WasmAnswers : Event → Prop
  | resolve (d : Str) (x : Except Thrown (Option (Option DIDDoc))) : WasmAnswers ⟨.resolve d, wasmObject x⟩
  | getSecret (k : Str) (x : Except Thrown (Option (Option Secret))) : WasmAnswers ⟨.getSecret k, wasmObject x⟩
  | findSecrets (ks : List Str) (x : Except Thrown JsFound) : WasmAnswers ⟨.findSecrets ks, wasmFindSecrets ks x⟩
  | random (n : Nat) : WasmAnswers (evRandom n)

/-- The end of an operation: the promise resolves or is rejected with a named error (`as_js`) —
/repo/wasm/src/message/pack_encrypted.rs L29-62 and the same in the other operations there.  A panic aborts the
instance, so the promise stays pending. -/
def wasmReport {α : Type} : Res α → List (Except Str α)
  | .ok a => [.ok a]
  | .error (.kind k) => [.error (asJs k)]
  | .error .panic => []
  | .error .fuel => []

end DIDComm
