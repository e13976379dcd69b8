import Verif.Spec.World
import Verif.Proofs.Runs

/-! # Runs in the concrete world, for examples -/

set_option autoImplicit false

namespace DIDComm.World

/-- Alice signs, authenticates and hides the sender; Bob unpacks. -/
def fullProg : Prog (Message × UnpackMetadata) := do
  let (out, _) ← packEncrypted Toy.crypto { id := [], type_ := [], body := .null } bob (some alice) (some alice)
    { forward := false, protectSender := true }
  unpack Toy.crypto out {}

set_option maxRecDepth 100000 in
theorem fullTest : test env fullProg (fun x => decide (x.2.encryptedFromKid = some b!"did:example:alice#p1" ∧
    x.2.signFrom = some b!"did:example:alice#ed" ∧ x.2.encAlgAnon = some .xc20pEcdhEsA256kw ∧
    x.2.encryptedToKids = some [b!"did:example:bob#p1"] ∧ x.2.signAlg = some .edDSA)) = true := by decide +kernel

/-- A text for which every kind of claim is reported. -/
theorem fullRun : ∃ (text : Str) (tr : List Event) (m : Message) (md : UnpackMetadata),
    Runs (unpack Toy.crypto text {}) tr (.ok (m, md)) ∧ Answers env tr ∧
    md.encryptedFromKid = some b!"did:example:alice#p1" ∧ md.signFrom = some b!"did:example:alice#ed" ∧
    md.encAlgAnon = some .xc20pEcdhEsA256kw ∧ md.encryptedToKids = some [b!"did:example:bob#p1"] ∧
    md.signAlg = some .edDSA := by
  obtain ⟨tr, ⟨m, md⟩, h, ha, hk⟩ := of_test fullTest
  unfold fullProg at h
  rw [runs_bind_ok] at h
  obtain ⟨⟨out, _⟩, t1, t2, rfl, _, h⟩ := h
  exact ⟨out, t2, m, md, h, fun e he => ha e (by simp [he]), of_decide_eq_true hk⟩

/-- Alice's agent announces a new DID; the message is sent in plaintext. -/
def priorProg : Prog (Message × UnpackMetadata) := do
  let (jwt, _) ← FromPrior.pack Toy.crypto { iss := alice, sub := bob } none
  let out ← packPlaintext Toy.crypto { id := [], type_ := [], body := .null, fromPrior := some jwt }
  unpack Toy.crypto out {}

set_option maxRecDepth 100000 in
theorem priorTest : test env priorProg (fun x => decide (x.1.fromPrior.isSome = true ∧
    x.2.fromPriorIssuerKid = some b!"did:example:alice#ed" ∧ x.2.fromPrior = some { iss := alice, sub := bob })) = true := by
  decide +kernel

/-- A text with a `from_prior`. -/
theorem priorRun : ∃ (text : Str) (tr : List Event) (m : Message) (md : UnpackMetadata),
    Runs (unpack Toy.crypto text {}) tr (.ok (m, md)) ∧ Answers env tr ∧ m.fromPrior.isSome = true ∧
    md.fromPriorIssuerKid = some b!"did:example:alice#ed" ∧ md.fromPrior = some { iss := alice, sub := bob } := by
  obtain ⟨tr, ⟨m, md⟩, h, ha, hk⟩ := of_test priorTest
  unfold priorProg at h
  simp only [runs_bind_ok] at h
  obtain ⟨⟨jwt, _⟩, t1, _, rfl, _, out, t2, t3, rfl, _, h⟩ := h
  exact ⟨out, t3, m, md, h, fun e he => ha e (by simp [he]), of_decide_eq_true hk⟩

/-- Anonymous encryption for the key type of Bob's first key, opened with all keys. -/
def anonProg : Prog (Str × Message × UnpackMetadata) := do
  let (out, _) ← packEncrypted Toy.crypto { id := [], type_ := [], body := .null } bob none none { forward := false }
  let x ← unpack Toy.crypto out { expectDecryptByAllKeys := true }
  pure (out, x)

/-- The header of an envelope. -/
def headerOf (t : Str) : Option (JWE × Bytes × JweHeader) :=
  match fromJson dJwe t with
  | .ok j => match B64.decode j.protected_ with
    | some b => match fromJson (dJweHeader Toy.crypto.f64) b with
      | .ok hdr => some (j, b, hdr)
      | .error _ => none
    | none => none
  | .error _ => none

theorem headerOf_some {t : Str} {j : JWE} {b : Bytes} {hdr : JweHeader} (h : headerOf t = some (j, b, hdr)) :
    fromJson dJwe t = .ok j ∧ B64.decode j.protected_ = some b ∧ fromJson (dJweHeader Toy.crypto.f64) b = .ok hdr := by
  unfold headerOf at h
  split at h
  · rename_i j' hj
    split at h
    · rename_i b' hb
      split at h
      · rename_i h' hh
        cases h; exact ⟨hj, hb, hh⟩
      · cases h
    · cases h
  · cases h

set_option maxRecDepth 100000 in
theorem anonTest : test env anonProg (fun x => match headerOf x.1 with
    | some (j, _, hdr) => decide (hdr.alg = .ecdhEs ∧
        j.recipients.map JweRecipient.kid = [b!"did:example:bob#x1", b!"did:example:bob#x2"])
    | none => false) = true := by decide +kernel

/-- An envelope for two keys. -/
theorem anonRun : ∃ (text : Str) (tr : List Event) (m : Message) (md : UnpackMetadata) (j : JWE) (b : Bytes) (hdr : JweHeader),
    Runs (unpack Toy.crypto text { expectDecryptByAllKeys := true }) tr (.ok (m, md)) ∧ Answers env tr ∧
    fromJson dJwe text = .ok j ∧ B64.decode j.protected_ = some b ∧ fromJson (dJweHeader Toy.crypto.f64) b = .ok hdr ∧
    hdr.alg = .ecdhEs ∧ j.recipients.map JweRecipient.kid = [b!"did:example:bob#x1", b!"did:example:bob#x2"] := by
  obtain ⟨tr, ⟨text, m, md⟩, h, ha, hk⟩ := of_test anonTest
  unfold anonProg at h
  simp only [runs_bind_ok] at h
  obtain ⟨⟨out, _⟩, t1, _, rfl, _, x, t2, t3, rfl, h, hx⟩ := h
  obtain ⟨rfl, hx⟩ := runs_pure.1 hx
  cases hx
  simp only at hk
  split at hk
  · rename_i j b hdr hh
    obtain ⟨h1, h2, h3⟩ := headerOf_some hh
    obtain ⟨h4, h5⟩ := of_decide_eq_true hk
    exact ⟨_, t2, m, md, j, b, hdr, h, fun e he => ha e (by simp [he]), h1, h2, h3, h4, h5⟩
  · cases hk

end DIDComm.World
