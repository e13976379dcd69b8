import Verif.Model.Types

/-!
# Effects

The library is effectful in two ways: it calls the two resolver traits and it
draws randomness.  A function is modelled as a tree of questions.  The meaning of a
program is the set of its runs: a run records each question with the answer it
got.  Nothing restricts the answers, so a statement about all runs is a statement
about every resolver implementation, honest or not, consistent or not.
-/

set_option autoImplicit false

namespace DIDComm

/-- What the library asks its environment.  The traits at /repo/src/did/did_resolver.rs L25-41
and /repo/src/secrets/mod.rs L40-67. -/
inductive Query
  /-- `DIDResolver::resolve` — /repo/src/did/did_resolver.rs L40 -/
  | resolve (did : Str)
  /-- `SecretsResolver::find_secrets` — /repo/src/secrets/mod.rs L58-66 -/
  | findSecrets (kids : List Str)
  /-- `SecretsResolver::get_secret` — /repo/src/secrets/mod.rs L45-56 -/
  | getSecret (kid : Str)
  /-- a draw from the random generator (content key, ephemeral key, nonce, uuid) -/
  | random
  deriving DecidableEq, Repr

/-- The answers: resolvers may fail with any error kind.  /repo/src/did/did_resolver.rs L40 and
/repo/src/secrets/mod.rs L56, L66. -/
def Query.Ans : Query → Type
  | .resolve _ => Except ErrorKind (Option DIDDoc)
  | .findSecrets _ => Except ErrorKind (List Str)
  | .getSecret _ => Except ErrorKind (Option Secret)
  | .random => Nat

/-- A question together with the answer given.  A call of /repo/src/did/did_resolver.rs L40 or
/repo/src/secrets/mod.rs L56, L66. -/
structure Event where
  query : Query
  ans : query.Ans

/-- An effectful computation.  An `async fn` such as /repo/src/message/unpack/mod.rs L53-125,
seen from its resolvers. -/
inductive Prog (α : Type) : Type
  | ret (r : Res α)
  | ask (q : Query) (k : q.Ans → Prog α)

namespace Prog

/-- Sequencing with `?`: an error stops the computation.  For example
/repo/src/message/unpack/mod.rs L81-117. -/
def bind {α β : Type} : Prog α → (α → Prog β) → Prog β
  | .ret (.ok a), f => f a
  | .ret (.error e), _ => .ret (.error e)
  | .ask q k, f => .ask q fun a => (k a).bind f

instance : Monad Prog where
  pure a := .ret (.ok a)
  bind := Prog.bind

/-- A pure fallible step.  For example /repo/src/message/pack_signed.rs L51-59. -/
def lift {α : Type} (r : Res α) : Prog α := .ret r

/-- `Err(err_msg(kind, ..))?`.  For example /repo/src/message/pack_signed.rs L51-59. -/
def fail {α : Type} (k : ErrorKind) : Prog α := .ret (.error (.kind k))

/-- `.kind(kind, ..)` applied to the result of an effectful call.  /repo/src/error.rs L71-90, for
example at /repo/src/message/unpack/authcrypt.rs L63-66. -/
def withKind {α : Type} (k : ErrorKind) : Prog α → Prog α
  | .ret r => .ret (DIDComm.withKind k r)
  | .ask q f => .ask q fun a => (f a).withKind k

end Prog

/-- `did_resolver.resolve(did).await?`.  For example /repo/src/message/pack_signed.rs L55-58. -/
def resolve (did : Str) : Prog (Option DIDDoc) :=
  .ask (.resolve did) fun
    | .ok d => .ret (.ok d)
    | .error k => .ret (.error (.kind k))

/-- `secrets_resolver.find_secrets(kids).await?`.  For example /repo/src/message/pack_signed.rs
L78-81. -/
def findSecrets (kids : List Str) : Prog (List Str) :=
  .ask (.findSecrets kids) fun
    | .ok d => .ret (.ok d)
    | .error k => .ret (.error (.kind k))

/-- `secrets_resolver.get_secret(kid).await?`.  For example /repo/src/message/pack_signed.rs
L85-88. -/
def getSecret (kid : Str) : Prog (Option Secret) :=
  .ask (.getSecret kid) fun
    | .ok d => .ret (.ok d)
    | .error k => .ret (.error (.kind k))

/-- A draw from the random generator.  /repo/src/jwe/encrypt.rs L38, L46, L78 and
/repo/src/protocols/routing/mod.rs L133. -/
def random : Prog Nat := .ask .random fun n => .ret (.ok n)

/-- `Runs p tr r`: with the questions and answers `tr`, the program `p` ends with `r`.  The
executions of the `async fn`s, for example /repo/src/message/unpack/mod.rs L53-125. -/
inductive Runs {α : Type} : Prog α → List Event → Res α → Prop
  | ret (r : Res α) : Runs (.ret r) [] r
  | ask (q : Query) (k : q.Ans → Prog α) (a : q.Ans) (tr : List Event) (r : Res α)
      (h : Runs (k a) tr r) : Runs (.ask q k) (⟨q, a⟩ :: tr) r

/-- A draw of randomness.  /repo/src/jwe/encrypt.rs L38, L46, L78. -/
abbrev evRandom (n : Nat) : Event := ⟨.random, n⟩
/-- A successful resolution.  /repo/src/did/did_resolver.rs L40. -/
abbrev evResolve (d : Str) (x : Option DIDDoc) : Event :=
  ⟨.resolve d, (.ok x : Except ErrorKind (Option DIDDoc))⟩
/-- A successful search for secrets.  /repo/src/secrets/mod.rs L66. -/
abbrev evFind (ks found : List Str) : Event :=
  ⟨.findSecrets ks, (.ok found : Except ErrorKind (List Str))⟩
/-- A successful read of a secret.  /repo/src/secrets/mod.rs L56. -/
abbrev evGet (k : Str) (s : Option Secret) : Event :=
  ⟨.getSecret k, (.ok s : Except ErrorKind (Option Secret))⟩

end DIDComm
