import Verif.Spec.Toy
import Verif.Spec.Env
import Verif.Model.Example
import Verif.Model.Unpack

/-!
# A small concrete world

Documents and secrets of a few parties, with the toy primitives.  Only used in examples
showing that the hypotheses of theorems can be met, and in counterexamples.
-/

set_option autoImplicit false

namespace DIDComm.World

/-- A toy JWK. -/
def jwk (kty crv : Str) (x : Bytes) : Value :=
  .obj [(b!"crv", .str crv), (b!"kty", .str kty), (b!"x", .str (B64.encode x))]

/-- A toy verification method. -/
def method (id kty crv : Str) (x : Bytes) : VerificationMethod := ⟨id, .jsonWebKey2020, id, .jwk (jwk kty crv x)⟩

/-- The toy secret for it (toy keys have equal halves). -/
def secret (id kty crv : Str) (x : Bytes) : Secret := ⟨id, .jsonWebKey2020, .jwk (jwk kty crv x)⟩

def alice : Str := b!"did:example:alice"
def bob : Str := b!"did:example:bob"
def mediator : Str := b!"did:example:mediator"

/-- Alice: one signing key of each type, an X25519 and a P-256 agreement key. -/
def aliceDoc : DIDDoc :=
  { id := alice
    keyAgreement := [b!"did:example:alice#p1", b!"did:example:alice#x1"]
    authentication := [b!"did:example:alice#ed", b!"did:example:alice#es", b!"did:example:alice#ek"]
    verificationMethod := [
      method b!"did:example:alice#ed" b!"OKP" b!"Ed25519" [1],
      method b!"did:example:alice#es" b!"EC" b!"P-256" [2],
      method b!"did:example:alice#ek" b!"EC" b!"secp256k1" [3],
      method b!"did:example:alice#x1" b!"OKP" b!"X25519" [4],
      method b!"did:example:alice#p1" b!"EC" b!"P-256" [5]]
    service := [] }

/-- Bob: two X25519 agreement keys, then a P-256 one; messages go through the mediator. -/
def bobDoc : DIDDoc :=
  { id := bob
    keyAgreement := [b!"did:example:bob#x1", b!"did:example:bob#x2", b!"did:example:bob#p1"]
    authentication := []
    verificationMethod := [
      method b!"did:example:bob#p1" b!"EC" b!"P-256" [11],
      method b!"did:example:bob#x1" b!"OKP" b!"X25519" [12],
      method b!"did:example:bob#x2" b!"OKP" b!"X25519" [13]]
    service := [⟨b!"did:example:bob#svc", .didCommMessaging
      ⟨mediator, some [b!"didcomm/v2"], [b!"did:example:mediator#x1"]⟩⟩] }

/-- The mediator. -/
def mediatorDoc : DIDDoc :=
  { id := mediator
    keyAgreement := [b!"did:example:mediator#x1"]
    authentication := []
    verificationMethod := [method b!"did:example:mediator#x1" b!"OKP" b!"X25519" [21]]
    service := [⟨b!"did:example:mediator#svc", .didCommMessaging ⟨b!"https://example.com", none, []⟩⟩] }

/-- All secrets. -/
def secrets : List Secret := [
  secret b!"did:example:alice#ed" b!"OKP" b!"Ed25519" [1],
  secret b!"did:example:alice#es" b!"EC" b!"P-256" [2],
  secret b!"did:example:alice#ek" b!"EC" b!"secp256k1" [3],
  secret b!"did:example:alice#x1" b!"OKP" b!"X25519" [4],
  secret b!"did:example:alice#p1" b!"EC" b!"P-256" [5],
  secret b!"did:example:bob#p1" b!"EC" b!"P-256" [11],
  secret b!"did:example:bob#x1" b!"OKP" b!"X25519" [12],
  secret b!"did:example:bob#x2" b!"OKP" b!"X25519" [13],
  secret b!"did:example:mediator#x1" b!"OKP" b!"X25519" [21]]

/-- An environment from documents and secrets, with the example resolvers of the library. -/
def envOf (docs : List DIDDoc) (secrets : List Secret) : Env :=
  { resolve := fun d => .ok (exampleResolve docs d)
    findSecrets := fun ks => .ok (exampleFindSecrets secrets ks)
    getSecret := fun k => .ok (exampleGetSecret secrets k) }

/-- Everybody's documents and secrets. -/
def env : Env := envOf [aliceDoc, bobDoc, mediatorDoc] secrets

/-- What Alice's agent has. -/
def aliceEnv : Env := envOf [aliceDoc, bobDoc, mediatorDoc] (secrets.take 5)
/-- What Bob's agent has. -/
def bobEnv : Env := envOf [aliceDoc, bobDoc, mediatorDoc] ((secrets.drop 5).take 3)
/-- What the mediator has. -/
def mediatorEnv : Env := envOf [aliceDoc, bobDoc, mediatorDoc] (secrets.drop 8)

/-- A message from Alice to Bob. -/
def msg : Message :=
  { id := b!"1", type_ := b!"t", body := .obj [(b!"k", .str b!"v\n")], from_ := some alice, to := some [bob]
    extraHeaders := [(b!"x-h", .bool true)] }

/-- Evaluate a program in an environment and test its result. -/
def test {α : Type} (E : Env) (p : Prog α) (P : α → Bool) : Bool :=
  match (p.run E id).2 with
  | .ok x => P x
  | .error _ => false

/-- A program whose evaluation passes the test has such a run. -/
theorem of_test {α : Type} {E : Env} {p : Prog α} {P : α → Bool} (h : test E p P = true) :
    ∃ tr x, Runs p tr (.ok x) ∧ Answers E tr ∧ P x = true := by
  have hs := Prog.run_spec E id p
  unfold test at h
  split at h
  · rename_i x hx; exact ⟨_, x, hx ▸ hs.1, hs.2, h⟩
  · cases h

/-- Evaluate a program and test its error. -/
def testError {α : Type} (E : Env) (p : Prog α) (e : Err) : Bool :=
  match (p.run E id).2 with
  | .ok _ => false
  | .error e' => decide (e' = e)

theorem of_testError {α : Type} {E : Env} {p : Prog α} {e : Err} (h : testError E p e = true) :
    ∃ tr, Runs p tr (.error e) ∧ Answers E tr := by
  have hs := Prog.run_spec E id p
  unfold testError at h
  split at h
  · cases h
  · rename_i x hx; have := of_decide_eq_true h; subst this; exact ⟨_, hx ▸ hs.1, hs.2⟩

end DIDComm.World
