import Verif.Proofs.Missing
import Verif.Proofs.WorldRuns

/-!
# Errors: C62, C63

`FailsOnlyWith` and `SaysWhatIsMissing` are defined in `Verif.Spec.Errors`.
-/

set_option autoImplicit false

namespace DIDComm

variable {C : Crypto}

/-! ## C62: kinds of errors -/

/-- C62, `pack_plaintext`. -/
theorem C62_plaintext (m : Message) (tr : List Event) (r : Res Str) (h : Runs (packPlaintext C m) tr r) :
    FailsOnlyWith readingKinds tr r := packPlaintext_kinds m tr r h

/-- C62, `pack_signed`. -/
theorem C62_signed (m : Message) (signBy : Str) (tr : List Event) (r : Res (Str × Str))
    (h : Runs (packSigned C m signBy) tr r) : FailsOnlyWith secretKinds tr r := packSigned_kinds m signBy tr r h

/-- C62, `pack_encrypted`. -/
theorem C62_encrypted (m : Message) (to : Str) (from_ signBy : Option Str) (opts : PackEncryptedOptions) (tr : List Event)
    (r : Res (Str × PackEncryptedMetadata)) (h : Runs (packEncrypted C m to from_ signBy opts) tr r) :
    FailsOnlyWith encryptKinds tr r :=
  packEncrypted_kinds m to from_ signBy opts (by decide) (fun _ => by decide) (fun _ => by decide) tr r h

/-- C62, `pack_encrypted` without sender. -/
theorem C62_anonymous (m : Message) (to : Str) (signBy : Option Str) (opts : PackEncryptedOptions) (tr : List Event)
    (r : Res (Str × PackEncryptedMetadata)) (h : Runs (packEncrypted C m to none signBy opts) tr r) :
    FailsOnlyWith secretKinds tr r ∧ (signBy = none → FailsOnlyWith readingKinds tr r) := by
  refine ⟨packEncrypted_kinds m to none signBy opts (by decide) (fun _ => by decide) (fun h => by cases h) tr r h, ?_⟩
  rintro rfl
  exact packEncrypted_kinds m to none none opts (by decide) (fun h => by cases h) (fun h => by cases h) tr r h

/-- C62, `wrap_in_forward`. -/
theorem C62_wrap (msg : Str) (headers : Option (List (Str × Value))) (to : Str) (keys : List Str) (alg : AnonCryptAlg)
    (tr : List Event) (r : Res Str) (h : Runs (wrapInForward C msg headers to keys alg) tr r) :
    FailsOnlyWith readingKinds tr r := wrapInForward_kinds tr r h

/-- C62, `FromPrior::pack`. -/
theorem C62_from_prior_pack (f : FromPrior) (kid : Option Str) (tr : List Event) (r : Res (Str × Str))
    (h : Runs (f.pack C kid) tr r) : FailsOnlyWith secretKinds tr r := FromPrior.pack_kinds f kid tr r h

/-- C62, `FromPrior::unpack`. -/
theorem C62_from_prior_unpack (jwt : Str) (tr : List Event) (r : Res (FromPrior × Str))
    (h : Runs (FromPrior.unpack C jwt) tr r) : FailsOnlyWith readingKinds tr r := FromPrior.unpack_kinds jwt tr r h

/-- C62, `unpack`. -/
theorem C62_unpack (msg : Str) (opts : UnpackOptions) (tr : List Event) (r : Res (Message × UnpackMetadata))
    (h : Runs (unpack C msg opts) tr r) : FailsOnlyWith secretKinds tr r := unpack_kinds msg opts tr r h

/-- C62: if the resolvers do not fail with it, no operation ends with `IoError`; `NoCompatibleCrypto` comes
from no operation but `pack_encrypted`. -/
theorem C62_never (k : ErrorKind) : (k ∉ encryptKinds ↔ k = .ioError) ∧ (k ∉ secretKinds ↔ k = .ioError ∨ k = .noCompatibleCrypto) ∧
    (k ∉ readingKinds ↔ k = .ioError ∨ k = .noCompatibleCrypto ∨ k = .secretNotFound) := by
  cases k <;> decide

namespace World

theorem envOf_no_failure {docs : List DIDDoc} {ss : List Secret} {tr : List Event} (h : Answers (envOf docs ss) tr) :
    NoResolverFailed tr := by
  rintro ⟨q, a⟩ hev k hk
  have := h _ hev
  cases q with
  | resolve d => exact absurd (Eq.trans (Eq.symm hk) this) (fun h => by cases h)
  | findSecrets d => exact absurd (Eq.trans (Eq.symm hk) this) (fun h => by cases h)
  | getSecret d => exact absurd (Eq.trans (Eq.symm hk) this) (fun h => by cases h)
  | random => exact hk

/-- A document of Alice with one authentication and agreement key. -/
def aliceWith (t : VmType) (m : Material) : DIDDoc :=
  { id := alice, keyAgreement := [b!"did:example:alice#k"], authentication := [b!"did:example:alice#k"]
    verificationMethod := [⟨b!"did:example:alice#k", t, alice, m⟩], service := [] }

/-- A JWT by that key, up to the signature. -/
def aliceJwt (alg : Str) : Str :=
  B64.encode (b!"{\"typ\":\"JWT\",\"alg\":\"" ++ alg ++ b!"\",\"kid\":\"did:example:alice#k\"}") ++ b!".." 

/-- For each kind of error a document of Alice and a `from_prior` that cause it. -/
def priorCase : ErrorKind → List DIDDoc × Str
  | .didNotResolved => ([], aliceJwt b!"EdDSA")
  | .didUrlNotFound => ([{ id := alice, keyAgreement := [], authentication := [], verificationMethod := [], service := [] }], aliceJwt b!"EdDSA")
  | .unsupported => ([aliceWith .ed25519VerificationKey2018 (.base58 [])], aliceJwt b!"none")
  | .invalidState => ([aliceWith .x25519KeyAgreementKey2019 (.base58 [])], aliceJwt b!"EdDSA")
  | .illegalArgument => ([aliceWith .ed25519VerificationKey2020 (.multibase b!"x")], aliceJwt b!"EdDSA")
  | _ => ([], b!"x")

/-- A message with a `from_prior`. -/
def priorMsg (jwt : Str) : Message := { id := [], type_ := [], body := .null, typ := plaintextTyp, fromPrior := some jwt }

/-- Dave, who signs with a sound key. -/
def dave : DIDDoc :=
  { id := b!"did:example:dave", keyAgreement := [], authentication := [b!"did:example:dave#ed"]
    verificationMethod := [method b!"did:example:dave#ed" b!"OKP" b!"Ed25519" [1]], service := [] }

end World

/-- An operation of the library in a concrete world ends with this error. -/
def Occurs {α : Type} (p : Prog α) (k : ErrorKind) : Prop := ∃ tr, Runs p tr (.error (.kind k)) ∧ NoResolverFailed tr

theorem World.occurs {α : Type} {docs : List DIDDoc} {ss : List Secret} {p : Prog α} {k : ErrorKind}
    (h : World.testError (World.envOf docs ss) p (.kind k) = true) : Occurs p k := by
  obtain ⟨tr, h1, h2⟩ := World.of_testError h
  exact ⟨tr, h1, World.envOf_no_failure h2⟩

theorem forall_readingKinds {P : ErrorKind → Prop} (h1 : P .didNotResolved) (h2 : P .didUrlNotFound) (h3 : P .malformed) (h4 : P .unsupported)
    (h5 : P .invalidState) (h6 : P .illegalArgument) : ∀ k ∈ readingKinds, P k := by
  intro k hk
  simp only [readingKinds, List.mem_cons, List.not_mem_nil, or_false] at hk
  rcases hk with rfl | rfl | rfl | rfl | rfl | rfl <;> assumption

theorem forall_secretKinds {P : ErrorKind → Prop} (h0 : P .secretNotFound) (h : ∀ k ∈ readingKinds, P k) : ∀ k ∈ secretKinds, P k := by
  intro k hk
  rcases List.mem_cons.1 hk with rfl | hk
  · exact h0
  · exact h k hk

set_option maxRecDepth 100000 in
/-- C62: none of the kinds can be left out: every one occurs without a resolver failing.  `IllegalArgument` is documented for
none of these operations, `InvalidState` not for `FromPrior::unpack`. -/
theorem C62_occur_reading :
    (∀ k ∈ readingKinds, ∃ jwt, Occurs (FromPrior.unpack Toy.crypto jwt) k) ∧
    (∀ k ∈ readingKinds, ∃ m, Occurs (packPlaintext Toy.crypto m) k) ∧
    (∀ k ∈ readingKinds, ∃ msg to keys alg, Occurs (wrapInForward Toy.crypto msg none to keys alg) k) ∧
    (∀ k ∈ readingKinds, ∃ m to opts, Occurs (packEncrypted Toy.crypto m to none none opts) k) := by
  refine ⟨fun k hk => ⟨(World.priorCase k).2, World.occurs (docs := (World.priorCase k).1) (ss := []) ?_⟩,
    fun k hk => ⟨World.priorMsg (World.priorCase k).2, World.occurs (docs := (World.priorCase k).1) (ss := []) ?_⟩, ?_,
    fun k hk => ⟨World.priorMsg (World.priorCase k).2, World.bob, {}, World.occurs (docs := (World.priorCase k).1) (ss := []) ?_⟩⟩
  · revert k; apply forall_readingKinds <;> decide +kernel
  · revert k; apply forall_readingKinds <;> decide +kernel
  · apply forall_readingKinds
    · exact ⟨b!"1", World.bob, [b!"did:example:alice#k"], .xc20pEcdhEsA256kw, World.occurs (docs := []) (ss := []) (by decide +kernel)⟩
    · exact ⟨b!"1", World.bob, [b!"did:example:alice#z"], .xc20pEcdhEsA256kw, World.occurs (docs := [World.aliceDoc]) (ss := []) (by decide +kernel)⟩
    · exact ⟨b!"x", World.bob, [b!"did:example:alice#z"], .xc20pEcdhEsA256kw, World.occurs (docs := [World.aliceDoc]) (ss := []) (by decide +kernel)⟩
    · exact ⟨b!"1", World.bob, [b!"did:example:alice"], .xc20pEcdhEsA256kw,
        World.occurs (docs := [{ World.aliceDoc with verificationMethod := [] }]) (ss := []) (by decide +kernel)⟩
    · exact ⟨b!"1", World.bob, [b!"did:example:alice"], .xc20pEcdhEsA256kw,
        World.occurs (docs := [World.aliceWith .ed25519VerificationKey2018 (.base58 [])]) (ss := []) (by decide +kernel)⟩
    · exact ⟨b!"1", World.bob, [b!"did:example:alice"], .xc20pEcdhEsA256kw,
        World.occurs (docs := [World.aliceWith .x25519KeyAgreementKey2020 (.multibase b!"x")]) (ss := []) (by decide +kernel)⟩
  · revert k; apply forall_readingKinds <;> decide +kernel

set_option maxRecDepth 100000 in
/-- C62: the same for the operations that read secrets.  `IllegalArgument` is documented neither for `pack_signed` nor
`pack_encrypted` nor `unpack`, `Malformed` neither for `pack_signed` nor `pack_encrypted`. -/
theorem C62_occur_secrets :
    (∀ k ∈ secretKinds, ∃ m, Occurs (packSigned Toy.crypto m b!"did:example:dave") k) ∧
    (∀ k ∈ secretKinds, ∃ f kid, Occurs (FromPrior.pack Toy.crypto f kid) k) ∧
    (∀ k ∈ secretKinds, ∃ msg, Occurs (unpack Toy.crypto msg {}) k) ∧
    (∀ k ∈ encryptKinds, ∃ m to from_, Occurs (packEncrypted Toy.crypto m to from_ none {}) k) := by
  refine ⟨?_, ?_, ?_, ?_⟩
  · refine forall_secretKinds ?_ fun k hk => ⟨World.priorMsg (World.priorCase k).2,
      World.occurs (docs := World.dave :: (World.priorCase k).1) (ss := [World.secret b!"did:example:dave#ed" b!"OKP" b!"Ed25519" [1]]) ?_⟩
    · exact ⟨World.msg, World.occurs (docs := [World.dave]) (ss := []) (by decide +kernel)⟩
    · revert k; apply forall_readingKinds <;> decide +kernel
  · apply forall_secretKinds
    · exact ⟨{ iss := World.alice, sub := World.bob }, none, World.occurs (docs := [World.aliceDoc]) (ss := []) (by decide +kernel)⟩
    · apply forall_readingKinds
      · exact ⟨{ iss := World.alice, sub := World.bob }, none, World.occurs (docs := []) (ss := []) (by decide +kernel)⟩
      · exact ⟨{ iss := World.alice, sub := World.bob }, some b!"did:example:alice#z", World.occurs (docs := [World.aliceDoc]) (ss := []) (by decide +kernel)⟩
      · exact ⟨{ iss := World.alice, sub := World.alice }, none, World.occurs (docs := []) (ss := []) (by decide +kernel)⟩
      · exact ⟨{ iss := World.alice, sub := World.bob }, none, World.occurs (docs := [World.aliceDoc])
          (ss := [World.secret b!"did:example:alice#ed" b!"OKP" b!"X25519" [4]]) (by decide +kernel)⟩
      · exact ⟨{ iss := World.alice, sub := World.bob }, none, World.occurs (docs := [World.aliceDoc])
          (ss := [⟨b!"did:example:alice#ed", .ed25519VerificationKey2020, .multibase b!"z"⟩]) (by decide +kernel)⟩
      · exact ⟨{ iss := World.alice, sub := World.bob }, some World.alice, World.occurs (docs := []) (ss := []) (by decide +kernel)⟩
  · refine forall_secretKinds ?_ fun k hk => ⟨(World.priorMsg (World.priorCase k).2).toJson.print,
      World.occurs (docs := (World.priorCase k).1) (ss := []) ?_⟩
    · have h : World.test World.aliceEnv (packEncrypted Toy.crypto World.msg World.bob none none { forward := false })
          (fun p => World.testError (World.envOf [World.bobDoc] []) (unpack Toy.crypto p.1 {}) (.kind .secretNotFound)) = true := by decide +kernel
      obtain ⟨_, x, -, -, h⟩ := World.of_test h
      exact ⟨_, World.occurs h⟩
    · revert k; apply forall_readingKinds <;> decide +kernel
  · intro k hk
    rcases List.mem_cons.1 hk with rfl | hk
    · exact ⟨World.msg, World.bob, some World.alice, World.occurs (docs := [World.aliceDoc, { World.bobDoc with
          keyAgreement := [b!"did:example:bob#ed"], verificationMethod := [World.method b!"did:example:bob#ed" b!"OKP" b!"Ed25519" [1]] }])
          (ss := World.secrets) (by decide +kernel)⟩
    rcases List.mem_cons.1 hk with rfl | hk
    · exact ⟨World.msg, World.bob, some World.alice, World.occurs (docs := [World.aliceDoc, World.bobDoc]) (ss := []) (by decide +kernel)⟩
    · have key : ∀ k ∈ readingKinds, World.testError (World.envOf (World.priorCase k).1 [])
          (packEncrypted Toy.crypto (World.priorMsg (World.priorCase k).2) World.bob none none {}) (.kind k) = true := by
        apply forall_readingKinds <;> decide +kernel
      exact ⟨World.priorMsg (World.priorCase k).2, World.bob, none, World.occurs (key k hk)⟩

/-! ## C63: what errors say about missing things -/

/-- C63, `pack_plaintext`. -/
theorem C63_plaintext (m : Message) (tr : List Event) (r : Res Str) (h : Runs (packPlaintext C m) tr r) :
    SaysWhatIsMissing (fun _ => False) [] tr r := packPlaintext_tells m tr r h

/-- C63, `pack_signed`. -/
theorem C63_signed (m : Message) (signBy : Str) (tr : List Event) (r : Res (Str × Str))
    (h : Runs (packSigned C m signBy) tr r) : SaysWhatIsMissing (fun _ => False) [.secretNotFound] tr r :=
  packSigned_tells (by decide) m signBy tr r h

/-- C63, `pack_encrypted`: a missing secret of a key that was reported is `SecretNotFound` for the signer and `InvalidState`
for the sender. -/
theorem C63_encrypted (m : Message) (to : Str) (from_ signBy : Option Str) (opts : PackEncryptedOptions) (tr : List Event)
    (r : Res (Str × PackEncryptedMetadata)) (h : Runs (packEncrypted C m to from_ signBy opts) tr r) :
    SaysWhatIsMissing (fun _ => False)
      ((if signBy.isSome then [.secretNotFound] else []) ++ (if from_.isSome then [.invalidState] else [])) tr r :=
  packEncrypted_tells m to from_ signBy opts (fun h => by simp [h]) (fun h => by simp [h]) tr r h

/-- C63, `wrap_in_forward`. -/
theorem C63_wrap (msg : Str) (headers : Option (List (Str × Value))) (to : Str) (keys : List Str) (alg : AnonCryptAlg)
    (tr : List Event) (r : Res Str) (h : Runs (wrapInForward C msg headers to keys alg) tr r) :
    SaysWhatIsMissing (fun _ => False) [] tr r := wrapInForward_tells tr r h

/-- C63, `FromPrior::pack`. -/
theorem C63_from_prior_pack (f : FromPrior) (kid : Option Str) (tr : List Event) (r : Res (Str × Str))
    (h : Runs (f.pack C kid) tr r) : SaysWhatIsMissing (fun _ => False) [.secretNotFound] tr r :=
  FromPrior.pack_tells (by decide) f kid tr r h

/-- C63, `FromPrior::unpack`. -/
theorem C63_from_prior_unpack (jwt : Str) (tr : List Event) (r : Res (FromPrior × Str))
    (h : Runs (FromPrior.unpack C jwt) tr r) : SaysWhatIsMissing (fun _ => False) [] tr r := FromPrior.unpack_tells jwt tr r h

/-- C63, `unpack`: only the search for keys of the target of a forward message may be empty. -/
theorem C63_unpack (msg : Str) (opts : UnpackOptions) (tr : List Event) (r : Res (Message × UnpackMetadata))
    (h : Runs (unpack C msg opts) tr r) : SaysWhatIsMissing (ForTarget C msg) [.invalidState] tr r :=
  unpack_tells (by decide) msg opts tr r h

set_option maxRecDepth 100000 in
/-- C63's cases occur: no document, no secret, a secret that vanished. -/
example : (∃ tr, Runs (packSigned Toy.crypto World.msg World.alice) tr (.error (.kind .didNotResolved)) ∧ Answers (World.envOf [] []) tr) ∧
    (∃ tr, Runs (packSigned Toy.crypto World.msg World.alice) tr (.error (.kind .secretNotFound)) ∧ Answers (World.envOf [World.aliceDoc] []) tr) ∧
    (∃ tr, Runs (packEncrypted Toy.crypto World.msg World.bob (some World.alice) none {}) tr (.error (.kind .invalidState)) ∧
      Answers { World.aliceEnv with getSecret := fun _ => .ok none } tr) :=
  ⟨World.of_testError (by decide +kernel), World.of_testError (by decide +kernel), World.of_testError (by decide +kernel)⟩

end DIDComm
