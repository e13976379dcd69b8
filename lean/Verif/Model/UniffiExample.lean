import Verif.Model.Example
import Verif.Model.Bindings

/-! # The example resolvers of the uniffi binding — /repo/uniffi/src/did/resolvers/example.rs, /repo/uniffi/src/secrets/resolvers/example.rs -/

set_option autoImplicit false

namespace DIDComm

/-- What an example resolver does with the callback it is given, before it returns: it calls `success` with the result, once —
/repo/uniffi/src/did/resolvers/example.rs L28-31, /repo/uniffi/src/secrets/resolvers/example.rs L30-33 and L43-46. -/
def exampleCalls {α : Type} (a : α) : List (CbAction (Except ErrorKind α)) := [.take 0 (.ok a), .send 0]

/-- The code an example resolver returns: whether `success` succeeded —
/repo/uniffi/src/did/resolvers/example.rs L28-31, /repo/uniffi/src/secrets/resolvers/example.rs L30-33 and L43-46.
`none`: `success` has not returned. -/
def exampleCode {V : Type} (s : CbState V) : Option Bool := (s.returned 0).map (fun r => match r with | .ok _ => true | .error _ => false)

/-- The answer the core gets for a question put, through the adapters, to the example resolvers; `rest` is whatever happens to the
callback after the resolver called it.  /repo/uniffi/src/did/resolvers/example.rs L20-33,
/repo/uniffi/src/secrets/resolvers/example.rs L20-47, /repo/uniffi/src/did/did_resolver_adapter.rs L22-35 and
/repo/uniffi/src/secrets/secrets_resolver_adapter.rs L21-53. -/
inductive UniffiExampleAnswers (docs : List DIDDoc) (secrets : List Secret) : Event → Prop
  | resolve (d : Str) (rest : List (CbAction (Except ErrorKind (Option DIDDoc)))) (s : CbState (Except ErrorKind (Option DIDDoc)))
      (a : Except ErrorKind (Option DIDDoc)) (h : CbState.run (exampleCalls (exampleResolve docs d) ++ rest) .new = some s)
      (hw : s.waiter.result = some a) : UniffiExampleAnswers docs secrets ⟨.resolve d, a⟩
  | getSecret (k : Str) (rest : List (CbAction (Except ErrorKind (Option Secret)))) (s : CbState (Except ErrorKind (Option Secret)))
      (a : Except ErrorKind (Option Secret)) (h : CbState.run (exampleCalls (exampleGetSecret secrets k) ++ rest) .new = some s)
      (hw : s.waiter.result = some a) : UniffiExampleAnswers docs secrets ⟨.getSecret k, a⟩
  | findSecrets (ks : List Str) (rest : List (CbAction (Except ErrorKind (List Str)))) (s : CbState (Except ErrorKind (List Str)))
      (a : Except ErrorKind (List Str)) (h : CbState.run (exampleCalls (exampleFindSecrets secrets ks) ++ rest) .new = some s)
      (hw : s.waiter.result = some a) : UniffiExampleAnswers docs secrets ⟨.findSecrets ks, a.map (keepRequested ks)⟩
  | random (n : Nat) : UniffiExampleAnswers docs secrets (evRandom n)

end DIDComm
