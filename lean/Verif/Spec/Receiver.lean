import Verif.Spec.CryptoLaws
import Verif.Spec.Env
import Verif.Spec.Evidence

/-!
# Senders and receivers

What the round-trip theorems assume about the two ends: which documents and secrets they
see.  An environment is a pair of resolvers (`Verif.Spec.Env`).
-/

set_option autoImplicit false

namespace DIDComm

/-- In the environment `E` the operation `p` returns `a`: it has a run, and every run ends with
`a`, whatever the random draws. -/
def Returns {α : Type} (E : Env) (p : Prog α) (a : α) : Prop :=
  (∃ tr, Answers E tr ∧ Runs p tr (.ok a)) ∧ ∀ tr r, Answers E tr → Runs p tr r → r = .ok a

/-- Whatever DID document `E` finds, `E'` finds the same. -/
def SeesDocsOf (E' E : Env) : Prop := ∀ d doc, E.resolve d = .ok (some doc) → E'.resolve d = .ok (some doc)

/-- The environment holds the secret half of the key with id `kid` in the document. -/
def HoldsSecret (C : Crypto) (pairs : Curve → C.Key → C.Key → Prop) (E : Env) (doc : DIDDoc) (kid : Str) : Prop :=
  ∃ secret vm c s p, E.getSecret kid = .ok (some secret) ∧ secret.asKeyPair C = .ok ⟨c, s⟩ ∧
    methodOf doc kid = some vm ∧ vm.asKeyPair C = .ok ⟨c, p⟩ ∧ pairs c s p

/-- Asked about the recipients `kids`, the secrets resolver reports some of them, and holds
the secrets it reports. -/
def CanOpen (C : Crypto) (pairs : Curve → C.Key → C.Key → Prop) (E : Env) (doc : DIDDoc) (kids : List Str) : Prop :=
  ∃ found, E.findSecrets kids = .ok found ∧ found ≠ [] ∧ ∀ k ∈ found, k ∈ kids ∧ HoldsSecret C pairs E doc k

/-- The signing (or sending) key: the private key for `kid` that the environment hands out is the
other half of the one in the document. -/
def SecretMatches (C : Crypto) (pairs : Curve → C.Key → C.Key → Prop) (E : Env) (doc : DIDDoc) (kid : Str) : Prop :=
  ∀ secret c s, E.getSecret kid = .ok (some secret) → secret.asKeyPair C = .ok ⟨c, s⟩ →
    ∃ vm p, methodOf doc kid = some vm ∧ vm.asKeyPair C = .ok ⟨c, p⟩ ∧ pairs c s p

/-- A key id that is usable on the wire: a DID URL of the given DID with a fragment, without
characters that JSON escapes. -/
def WireKid (did kid : Str) : Prop := HasFragment kid ∧ didOf kid = did ∧ Plain kid

/-- All key ids the document of a party lists are usable on the wire. -/
def WireParty (E : Env) (did : Str) : Prop :=
  ∀ doc, E.resolve did = .ok (some doc) → ∀ kid ∈ doc.keyAgreement ++ doc.authentication, WireKid did kid

/-- What private keys the environment hands out for a party fit the party's document. -/
def KeysFit (C : Crypto) (pairs : Curve → C.Key → C.Key → Prop) (E : Env) (did : Str) : Prop :=
  ∀ doc, E.resolve did = .ok (some doc) → ∀ kid ∈ doc.keyAgreement ++ doc.authentication, SecretMatches C pairs E doc kid

/-- `find_secrets` reports only key ids it was asked about. -/
def HonestSecrets (E : Env) : Prop := ∀ ks found, E.findSecrets ks = .ok found → ∀ k ∈ found, k ∈ ks

/-- The receiver `E'` can open what the sender `E` encrypts for the recipients `kids` of `did`. -/
def Opens (C : Crypto) (pairs : Curve → C.Key → C.Key → Prop) (E' E : Env) (did : Str) (kids : List Str) : Prop :=
  ∀ doc, E.resolve did = .ok (some doc) → CanOpen C pairs E' doc kids

/-- The extra headers of the message do not make its plaintext look like an envelope: one of the
members of a JWE and one of those of a JWS is missing. -/
def NotEnvelope (m : Message) : Prop :=
  (∃ k ∈ [b!"protected", b!"recipients", b!"iv", b!"ciphertext", b!"tag"], k ∉ m.extraHeaders.map Prod.fst) ∧
  (∃ k ∈ [b!"signatures", b!"payload"], k ∉ m.extraHeaders.map Prod.fst)

/-- Unpacking will not take the message for a forward: the option is off, or the message is no
forward. -/
def NotUnwrapped (unwrap : Bool) (m : Message) : Prop := unwrap = true → ∀ next v, ¬ IsForward m next v

/-- What metadata says about the `from_prior` of the message: nothing if there is none, else the
claims and the issuer key of the JWT. -/
def PriorOf (C : Crypto) (m : Message) (fp : Option FromPrior) (kid : Option Str) : Prop :=
  (m.fromPrior = none ∧ fp = none ∧ kid = none) ∨
  ∃ jwt f k c key, m.fromPrior = some jwt ∧ fp = some f ∧ kid = some k ∧ JwtBy C jwt k c key f

/-- What metadata says about the signature: nothing if there is no signer, else an algorithm and a
JWS by the signer over the message's JSON. -/
def SignatureOf (C : Crypto) (m : Message) (kid : Option Str) (alg : Option SignAlg) (jws : Option Str) : Prop :=
  (kid = none ∧ alg = none ∧ jws = none) ∨
  ∃ k a t c key, kid = some k ∧ alg = some a ∧ jws = some t ∧ SignedBy C t k a c key m.toJson.print

end DIDComm
