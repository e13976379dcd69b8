import Verif.Model.Types

/-! # The example resolvers — /repo/src/did/resolvers/example.rs, /repo/src/secrets/resolvers/example.rs -/

set_option autoImplicit false

namespace DIDComm

/-- `ExampleDIDResolver::resolve` — /repo/src/did/resolvers/example.rs L22-28; it never
fails, so only the `Option` is modelled. -/
def exampleResolve (knownDids : List DIDDoc) (did : Str) : Option DIDDoc :=
  knownDids.find? (fun d => d.id == did)

/-- `ExampleSecretsResolver::get_secret` — /repo/src/secrets/resolvers/example.rs L21-27. -/
def exampleGetSecret (known : List Secret) (id : Str) : Option Secret :=
  known.find? (fun s => s.id == id)

/-- `ExampleSecretsResolver::find_secrets` — /repo/src/secrets/resolvers/example.rs L29-35. -/
def exampleFindSecrets (known : List Secret) (ids : List Str) : List Str :=
  ids.filter (fun i => (known.find? (fun s => s.id == i)).isSome)

end DIDComm
