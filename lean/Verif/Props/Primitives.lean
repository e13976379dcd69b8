import Verif.Proofs.Primitives
import Verif.Spec.World
import Verif.Spec.Toy
import Verif.Proofs.WorldParties

/-!
# C111: the operations use only the primitives they are for

A primitive is not used by an operation if the operation asks the same questions, and ends the same way, whatever that primitive is
exchanged for.
-/

set_option autoImplicit false

namespace DIDComm

variable {C : Crypto}

/-- C111: whatever text arrives, unpacking it depends on checking signatures and on opening envelopes only.  It signs nothing,
encrypts nothing, and makes no keys. -/
theorem C111_unpack (P : Primitives C.Key) (ho : SameOpening C P) (hv : P.verify = C.verify) (text : Str) (opts : UnpackOptions)
    (tr : List Event) (r : Res (Message × UnpackMetadata)) :
    Runs (unpack (C.replaced P) text opts) tr r ↔ Runs (unpack C text opts) tr r := by
  rw [unpack_replaced ho hv]

/-- C111: unpacking a `from_prior` depends on checking signatures only. -/
theorem C111_prior_unpack (P : Primitives C.Key) (hv : P.verify = C.verify) (jwt : Str) (tr : List Event) (r : Res (FromPrior × Str)) :
    Runs (FromPrior.unpack (C.replaced P) jwt) tr r ↔ Runs (FromPrior.unpack C jwt) tr r := by
  rw [priorUnpack_replaced hv]

/-- C111: packing a message as plaintext depends on no primitive, or, if it has a `from_prior`, on checking signatures. -/
theorem C111_plaintext (P : Primitives C.Key) (m : Message) (hv : m.fromPrior ≠ none → P.verify = C.verify) (tr : List Event)
    (r : Res Str) : Runs (packPlaintext (C.replaced P) m) tr r ↔ Runs (packPlaintext C m) tr r := by
  rw [plaintext_replaced hv]

/-- C111: packing a signed message depends, besides, on signatures of this very message; nothing else is ever signed. -/
theorem C111_signed (P : Primitives C.Key) (m : Message) (signBy : Str) (hv : m.fromPrior ≠ none → P.verify = C.verify)
    (hs : ∀ c key text st, SignsMessage m text → P.sign c key text st = C.sign c key text st) (tr : List Event) (r : Res (Str × Str)) :
    Runs (packSigned (C.replaced P) m signBy) tr r ↔ Runs (packSigned C m signBy) tr r := by
  rw [signed_replaced hv hs]

/-- C111: packing a `from_prior` depends on signatures of these very claims. -/
theorem C111_prior (P : Primitives C.Key) (f : FromPrior) (issuerKid : Option Str)
    (hs : ∀ c key text st, SignsPrior f text → P.sign c key text st = C.sign c key text st) (tr : List Event) (r : Res (Str × Str)) :
    Runs (f.pack (C.replaced P) issuerKid) tr r ↔ Runs (f.pack C issuerKid) tr r := by
  rw [priorPack_replaced hs]

/-- C111: encrypting a message depends on making envelopes; on deriving keys with the sender's key only if a sender is given; on
signatures of this message only if a signer is given; on checking signatures only if there is a `from_prior`; on making identifiers only
if forwarding is enabled; and never on opening envelopes. -/
theorem C111_encrypted (P : Primitives C.Key) (m : Message) (to : Str) (from_ signBy : Option Str) (opts : PackEncryptedOptions)
    (hm : SameMaking C P) (hf : from_ ≠ none → SameSending C P)
    (hs : signBy ≠ none → ∀ c key text st, SignsMessage m text → P.sign c key text st = C.sign c key text st)
    (hv : m.fromPrior ≠ none → P.verify = C.verify) (hu : opts.forward = true → P.uuid = C.uuid) (tr : List Event)
    (r : Res (Str × PackEncryptedMetadata)) :
    Runs (packEncrypted (C.replaced P) m to from_ signBy opts) tr r ↔ Runs (packEncrypted C m to from_ signBy opts) tr r := by
  rw [encrypted_replaced hm hv hf hs hu]

/-- C111: wrapping a text in forward messages depends on making anonymous envelopes and identifiers only. -/
theorem C111_forward (P : Primitives C.Key) (msg : Str) (headers : Option (List (Str × Value))) (to : Str) (keys : List Str)
    (alg : AnonCryptAlg) (hm : SameMaking C P) (hu : P.uuid = C.uuid) (tr : List Event) (r : Res Str) :
    Runs (wrapInForward (C.replaced P) msg headers to keys alg) tr r ↔ Runs (wrapInForward C msg headers to keys alg) tr r := by
  rw [wrap_replaced hm hu]

/-! ## The hypotheses are met, and are needed -/

/-- Primitives for receiving only: whatever makes something fails. -/
def World.receiveOnly : Primitives Toy.crypto.Key where
  toJwkPublic _ _ := none
  genKey _ _ := none
  genCek _ _ := none
  genNonce _ _ := []
  sign _ _ _ _ := none
  verify := Toy.crypto.verify
  ecdhEs c e r alg apu apv receive := if receive then Toy.crypto.ecdhEs c e r alg apu apv true else none
  ecdh1pu c e s r alg apu apv tag receive := if receive then Toy.crypto.ecdh1pu c e s r alg apu apv tag true else none
  wrap _ _ := none
  unwrap := Toy.crypto.unwrap
  aeadEnc _ _ _ _ _ := none
  aeadDec := Toy.crypto.aeadDec
  uuid _ := []

theorem World.receiveOnly_opens : SameOpening Toy.crypto World.receiveOnly := ⟨fun _ _ _ _ _ _ => rfl, fun _ _ _ _ _ _ _ _ => rfl, rfl, rfl⟩

/-- Primitives for sending anonymously only: nothing is signed, checked or opened. -/
def World.sendOnly : Primitives Toy.crypto.Key where
  toJwkPublic := Toy.crypto.toJwkPublic
  genKey := Toy.crypto.genKey
  genCek := Toy.crypto.genCek
  genNonce := Toy.crypto.genNonce
  sign _ _ _ _ := none
  verify _ _ _ _ _ := none
  ecdhEs c e r alg apu apv receive := if receive then none else Toy.crypto.ecdhEs c e r alg apu apv false
  ecdh1pu _ _ _ _ _ _ _ _ _ := none
  wrap := Toy.crypto.wrap
  unwrap _ _ _ := none
  aeadEnc := Toy.crypto.aeadEnc
  aeadDec _ _ _ _ _ := none
  uuid := Toy.crypto.uuid

theorem World.sendOnly_makes : SameMaking Toy.crypto World.sendOnly := ⟨rfl, rfl, rfl, rfl, fun _ _ _ _ _ _ => rfl, rfl, rfl⟩

/-- A signed and encrypted message is unpacked by somebody who has primitives for receiving only. -/
example : ∃ text tr m md, Runs (unpack (Toy.crypto.replaced World.receiveOnly) text {}) tr (.ok (m, md)) ∧
    md.authenticated = true ∧ md.signFrom ≠ none := by
  have h : World.test World.env (do
      let (out, _) ← packEncrypted Toy.crypto World.msg World.bob (some World.alice) (some World.alice) { forward := false }
      unpack Toy.crypto out {}) (fun x => x.2.authenticated && x.2.signFrom.isSome) = true := by decide +kernel
  obtain ⟨tr, ⟨m, md⟩, h, -, hk⟩ := World.of_test h
  rw [runs_bind_ok] at h
  obtain ⟨⟨out, _⟩, t1, t2, rfl, _, h⟩ := h
  simp only [Bool.and_eq_true] at hk
  refine ⟨out, t2, m, md, (C111_unpack World.receiveOnly World.receiveOnly_opens rfl out {} t2 _).2 h, hk.1, fun e => ?_⟩
  rw [e] at hk
  cases hk.2

/-- A message is encrypted anonymously, and forwarded, by somebody who has primitives for sending anonymously only. -/
example : ∃ tr out md, Runs (packEncrypted (Toy.crypto.replaced World.sendOnly) World.msg World.bob none none {}) tr (.ok (out, md)) := by
  have h : World.test World.env (packEncrypted Toy.crypto World.msg World.bob none none {}) (fun _ => true) = true := by decide +kernel
  obtain ⟨tr, ⟨out, md⟩, h, -, -⟩ := World.of_test h
  exact ⟨tr, out, md, (C111_encrypted World.sendOnly _ _ none none {} World.sendOnly_makes (fun h => absurd rfl h) (fun h => absurd rfl h)
    (fun h => absurd rfl h) (fun _ => rfl) tr _).2 h⟩

/-- Without signatures a signed message cannot be packed, without the sender's part an authenticated one cannot. -/
example : (∃ tr, Runs (packSigned (Toy.crypto.replaced World.sendOnly) World.msg World.alice) tr (.error (.kind .invalidState))) ∧
    ∃ tr, Runs (packEncrypted (Toy.crypto.replaced World.sendOnly) World.msg World.bob (some World.alice) none {}) tr
      (.error (.kind .invalidState)) := by
  constructor
  · obtain ⟨tr, h, -⟩ := World.of_testError (E := World.env) (e := .kind .invalidState)
      (p := packSigned (Toy.crypto.replaced World.sendOnly) World.msg World.alice) (by decide +kernel)
    exact ⟨tr, h⟩
  · obtain ⟨tr, h, -⟩ := World.of_testError (E := World.env) (e := .kind .invalidState)
      (p := packEncrypted (Toy.crypto.replaced World.sendOnly) World.msg World.bob (some World.alice) none {}) (by decide +kernel)
    exact ⟨tr, h⟩

end DIDComm
