import Verif.Proofs.Ends
import Verif.Proofs.WorldRuns
import Verif.Props.Traces

/-!
# Panics: C26–C28

The model has an explicit outcome `panic` wherever the code can panic: `split_at` and slicing of key
bytes, and removing the first element of an empty list.  A short secret is defined in
`Verif.Spec.Panic` from its text.
-/

set_option autoImplicit false

namespace DIDComm

variable {C : Crypto}

/-! ## C27: key material -/

/-- C27: reading the private key of a secret panics exactly when it is a legacy Ed25519 secret with fewer than
32 bytes. -/
theorem C27_secret (s : Secret) : s.asKeyPair C = .error .panic ↔ ShortEd25519 s := by
  refine ⟨fun h => ?_, Secret.asKeyPair_short⟩
  rcases Secret.asKeyPair_error h with ⟨k, hk⟩ | ⟨-, hs⟩
  · cases hk
  · exact hs

/-- C27, public keys: reading the public key of a verification method never panics. -/
theorem C27_public (v : VerificationMethod) : v.asKeyPair C ≠ .error .panic := by
  intro h
  obtain ⟨k, hk⟩ := VerificationMethod.asKeyPair_tame (C := C) v _ h
  cases hk

/-- C27, multicodec: splitting a multicodec prefix off never panics. -/
theorem C27_multicodec (b : Bytes) : fromMulticodec b ≠ .error .panic := by
  intro h
  obtain ⟨k, hk⟩ := fromMulticodec_tame b _ h
  cases hk

namespace World

/-- A Base58 Ed25519 secret of one byte (`2` is the byte 1). -/
def shortSecret (id : Str) : Secret := ⟨id, .ed25519VerificationKey2018, .base58 b!"2"⟩

theorem shortSecret_short (id : Str) : ShortEd25519 (shortSecret id) :=
  .inl ⟨rfl, b!"2", [1], rfl, by decide +kernel, by decide⟩

/-- A Multibase Ed25519 secret of no bytes after the codec prefix. -/
example : ShortEd25519 ⟨b!"k", .ed25519VerificationKey2020, .multibase (b!"z" ++ (b58Encode [0x80, 0x26]))⟩ :=
  .inr ⟨rfl, _, [0x80, 0x26], rfl, by decide +kernel, by decide +kernel, by decide⟩

/-- A Base58 secret of 64 bytes is not short. -/
example : ¬ ShortEd25519 ⟨b!"k", .ed25519VerificationKey2018, .base58 (b58Encode (List.replicate 64 7))⟩ := by
  rintro (⟨-, t, b, h, h1, h2⟩ | ⟨h, -⟩)
  · cases h
    have : b58Decode (b58Encode (List.replicate 64 7)) = some (List.replicate 64 7) := by decide +kernel
    rw [this] at h1
    cases h1
    exact absurd h2 (by decide)
  · cases h

/-- Bob, with a short secret under the id of the first agreement key. -/
def shortBob : Env := envOf [aliceDoc, bobDoc, mediatorDoc] [shortSecret b!"did:example:bob#x1"]

end World

/-! ## C26: unpacking -/

/-- C26: unpacking panics for no text and no resolvers, unless the resolver handed out a short secret. -/
theorem C26_unpack (msg : Str) (opts : UnpackOptions) (tr : List Event) (r : Res (Message × UnpackMetadata))
    (h : Runs (unpack C msg opts) tr r) (hs : NoShortSecret tr) : r ≠ .error .panic := by
  rintro rfl
  rcases unpack_ends (P := False) msg opts tr _ h with ⟨k, hk⟩ | ⟨-, h | h⟩ | h
  · cases hk
  · exact h
  · exact h hs
  · cases h

/-- The secrets of the concrete world are not short. -/
theorem World.noShort {tr : List Event} (h : Answers World.env tr) : NoShortSecret tr := by
  intro kid s hs
  have h1 : (.ok (some s) : Except ErrorKind (Option Secret)) = .ok (World.secrets.find? (fun s => s.id == kid)) := h _ hs
  have h2 : s ∈ World.secrets := List.mem_of_find?_eq_some (Except.ok.inj h1).symm
  have h3 : ∀ s ∈ World.secrets, s.type_ = .jsonWebKey2020 := by decide
  rintro (⟨h, -⟩ | ⟨h, -⟩) <;> rw [h3 s h2] at h <;> cases h

/-- The hypothesis holds in the run of a multiply wrapped message. -/
example : ∃ msg tr m md, Runs (unpack Toy.crypto msg {}) tr (.ok (m, md)) ∧ NoShortSecret tr ∧
    md.encryptedFromKid = some b!"did:example:alice#p1" := by
  obtain ⟨msg, tr, m, md, h, ha, hk, -⟩ := World.fullRun
  exact ⟨msg, tr, m, md, h, World.noShort ha, hk⟩

/-- C26, the exception is real: with a short secret for a recipient key, unpacking an encrypted message
panics. -/
theorem C26_short : ∃ msg tr, Runs (unpack Toy.crypto msg {}) tr (.error .panic) ∧ Answers World.shortBob tr := by
  have h : World.test World.aliceEnv (packEncrypted Toy.crypto World.msg World.bob none none { forward := false })
      (fun p => World.testError World.shortBob (unpack Toy.crypto p.1 {}) .panic) = true := by decide +kernel
  obtain ⟨_, x, -, -, h⟩ := World.of_test h
  obtain ⟨tr, h1, h2⟩ := World.of_testError h
  exact ⟨_, _, h1, h2⟩

/-! ## C28: packing -/

/-- A run that asks for no secret gets no short one. -/
theorem noShort_of_none {tr : List Event} (h : ∀ ev ∈ tr, ¬ AsksSecrets ev.query) : NoShortSecret tr :=
  fun _ _ hm => absurd trivial (h _ hm)

/-- C28, `pack_plaintext` never panics. -/
theorem C28_plaintext (m : Message) (tr : List Event) (r : Res Str) (h : Runs (packPlaintext C m) tr r) :
    r ≠ .error .panic := by
  have hs := noShort_of_none (C32_plaintext m tr r h)
  rintro rfl
  rcases packPlaintext_ends (P := False) (G := fun _ => False) m tr _ h with ⟨k, hk⟩ | ⟨-, h | h⟩ | h
  · cases hk
  · exact h
  · exact h hs
  · exact h

/-- C28, `pack_signed`, unless the resolver handed out a short secret. -/
theorem C28_signed (m : Message) (signBy : Str) (tr : List Event) (r : Res (Str × Str))
    (h : Runs (packSigned C m signBy) tr r) (hs : NoShortSecret tr) : r ≠ .error .panic := by
  rintro rfl
  rcases packSigned_ends (P := False) (G := fun _ => False) m signBy tr _ h with ⟨k, hk⟩ | ⟨-, h | h⟩ | h
  · cases hk
  · exact h
  · exact h hs
  · exact h

/-- C28, `pack_encrypted`, unless the resolver handed out a short secret; whatever the options and the services, so also with forwarding. -/
theorem C28_encrypted (m : Message) (to : Str) (from_ signBy : Option Str) (opts : PackEncryptedOptions) (tr : List Event)
    (r : Res (Str × PackEncryptedMetadata)) (h : Runs (packEncrypted C m to from_ signBy opts) tr r) (hs : NoShortSecret tr) :
    r ≠ .error .panic := by
  rintro rfl
  rcases packEncrypted_ends (P := False) (G := fun _ => False) m to from_ signBy opts tr _ h with ⟨k, hk⟩ | ⟨-, h | h⟩ | h
  · cases hk
  · exact h
  · exact h hs
  · exact h

/-- C28, anonymous encryption without signature never panics. -/
theorem C28_anonymous (m : Message) (to : Str) (opts : PackEncryptedOptions) (tr : List Event)
    (r : Res (Str × PackEncryptedMetadata)) (h : Runs (packEncrypted C m to none none opts) tr r) : r ≠ .error .panic :=
  C28_encrypted m to none none opts tr r h (noShort_of_none (C32_anonymous m to opts tr r h))

/-- C28, `FromPrior::pack`, unless the resolver handed out a short secret. -/
theorem C28_from_prior_pack (f : FromPrior) (kid : Option Str) (tr : List Event) (r : Res (Str × Str))
    (h : Runs (f.pack C kid) tr r) (hs : NoShortSecret tr) : r ≠ .error .panic := by
  rintro rfl
  rcases FromPrior.pack_ends (P := False) (G := fun _ => False) f kid tr _ h with ⟨k, hk⟩ | ⟨-, h | h⟩ | h
  · cases hk
  · exact h
  · exact h hs
  · exact h

/-- C28, `FromPrior::unpack`, which reads no secrets. -/
theorem C28_from_prior_unpack (jwt : Str) (tr : List Event) (r : Res (FromPrior × Str))
    (h : Runs (FromPrior.unpack C jwt) tr r) : r ≠ .error .panic := by
  have hs := noShort_of_none (C32_from_prior_unpack jwt tr r h)
  rintro rfl
  rcases FromPrior.unpack_ends (P := False) (G := fun _ => False) jwt tr _ h with ⟨k, hk⟩ | ⟨-, h | h⟩ | h
  · cases hk
  · exact h
  · exact h hs
  · exact h

/-- C28, `wrap_in_forward` reads no secrets either; it panics exactly when there are no routing keys. -/
theorem C28_wrap (msg : Str) (headers : Option (List (Str × Value))) (to : Str) (keys : List Str) (alg : AnonCryptAlg) :
    (∃ tr, Runs (wrapInForward C msg headers to keys alg) tr (.error .panic)) ↔ keys = [] := by
  constructor
  · rintro ⟨tr, h⟩
    have hs := noShort_of_none (C32_wrap msg headers to keys alg tr _ h)
    refine Classical.byContradiction fun hk => ?_
    rcases wrapInForward_ends (P := False) (G := fun _ => False) hk tr _ h with ⟨k, hk⟩ | ⟨-, h | h⟩ | h
    · cases hk
    · exact h
    · exact h hs
    · exact h
  · rintro rfl
    exact ⟨[], runs_ret.2 ⟨rfl, rfl⟩⟩

/-- C28, without routing keys every run panics at once. -/
theorem C28_wrap_empty (msg : Str) (headers : Option (List (Str × Value))) (to : Str) (alg : AnonCryptAlg) (tr : List Event)
    (r : Res Str) : Runs (wrapInForward C msg headers to [] alg) tr r ↔ tr = [] ∧ r = .error .panic := by
  exact runs_ret

/-- The hypotheses hold in the concrete world: signing, encrypting with forwarding, and issuing a `from_prior`. -/
example : (∃ tr x, Runs (packSigned Toy.crypto World.msg World.alice) tr (.ok x) ∧ NoShortSecret tr) ∧
    (∃ tr x, Runs (packEncrypted Toy.crypto World.msg World.bob (some World.alice) (some World.alice) {}) tr (.ok x) ∧ NoShortSecret tr) ∧
    (∃ tr x, Runs (FromPrior.pack Toy.crypto { iss := World.alice, sub := World.bob } none) tr (.ok x) ∧ NoShortSecret tr) ∧
    ∃ tr x, Runs (wrapInForward Toy.crypto b!"{}" none World.bob [b!"did:example:mediator#x1"] .a256gcmEcdhEsA256kw) tr (.ok x) := by
  refine ⟨?_, ?_, ?_, ?_⟩
  · obtain ⟨tr, x, h, ha, -⟩ := World.of_test (E := World.env) (p := packSigned Toy.crypto World.msg World.alice) (P := fun _ => true)
      (by decide +kernel)
    exact ⟨tr, x, h, World.noShort ha⟩
  · obtain ⟨tr, x, h, ha, -⟩ := World.of_test (E := World.env)
      (p := packEncrypted Toy.crypto World.msg World.bob (some World.alice) (some World.alice) {}) (P := fun _ => true) (by decide +kernel)
    exact ⟨tr, x, h, World.noShort ha⟩
  · obtain ⟨tr, x, h, ha, -⟩ := World.of_test (E := World.env)
      (p := FromPrior.pack Toy.crypto { iss := World.alice, sub := World.bob } none) (P := fun _ => true) (by decide +kernel)
    exact ⟨tr, x, h, World.noShort ha⟩
  · obtain ⟨tr, x, h, -, -⟩ := World.of_test (E := World.env)
      (p := wrapInForward Toy.crypto b!"{}" none World.bob [b!"did:example:mediator#x1"] .a256gcmEcdhEsA256kw) (P := fun _ => true)
      (by decide +kernel)
    exact ⟨tr, x, h⟩

/-- C28, the exception is real: packing with a short signing secret panics. -/
theorem C28_short : ∃ (m : Message) (signBy : Str) (tr : List Event), Runs (packSigned Toy.crypto m signBy) tr (.error .panic) := by
  have h : World.testError (World.envOf [World.aliceDoc] [World.shortSecret b!"did:example:alice#ed"])
      (packSigned Toy.crypto World.msg World.alice) .panic = true := by decide +kernel
  obtain ⟨tr, h1, -⟩ := World.of_testError h
  exact ⟨_, _, tr, h1⟩

end DIDComm
