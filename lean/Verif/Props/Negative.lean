import Verif.Props.RoundTrip
import Verif.Props.Negotiation
import Verif.Props.Evidence
import Verif.Proofs.Forward
import Verif.Proofs.WorldRuns

/-!
# What the library does not check: C14, C16, C55, C57

These properties are false of the code.  For each of them: the negation, in general or with a concrete run, and
the part that does hold (`_partial`).
-/

set_option autoImplicit false

namespace DIDComm

variable {C : Crypto} {pairs : Curve → C.Key → C.Key → Prop}

/-! ## C14: issuer and subject of `from_prior` -/

/-- C14 fails in general: whoever has a signing key `kid` that a document lists for authentication can issue a JWT with
any claims, in particular with the `iss` of anybody else; it is accepted and reported as issued by `kid`. -/
theorem C14_any_issuer (A E : Env) (doc : DIDDoc) (kid : Str) (f : FromPrior) (law : C.Lawful pairs)
    (hd : E.resolve (didOf kid) = .ok (some doc)) (hk : kid ∈ doc.authentication) (hw : WireKid (didOf kid) kid)
    (ha : HoldsSecret C pairs A doc kid)
    (hsign : ∀ vm c p s m t, methodOf doc kid = some vm → vm.asKeyPair C = .ok ⟨c, p⟩ → pairs c s p →
      c ≠ .x25519 ∧ (C.sign c s m t).isSome)
    (hf : f.WF) :
    ∃ jwt, Returns E (FromPrior.unpack C jwt) (f, kid) := by
  obtain ⟨secret, vm, c, s, p, -, -, h1, h2, h3⟩ := ha
  obtain ⟨w1, -, w2⟩ := hw
  have hc := fun m t => hsign vm c p s m t h1 h2 h3
  obtain ⟨alg, st, h4, h5⟩ : ∃ alg st, signAlgFor c = .ok alg ∧ alg.sigType = .ok st := by
    have := (hc [] .edDSA).1
    cases c with
    | x25519 => exact absurd rfl this
    | ed25519 => exact ⟨_, _, rfl, rfl⟩
    | p256 => exact ⟨_, _, rfl, rfl⟩
    | k256 => exact ⟨_, _, rfl, rfl⟩
  obtain ⟨sig, h6⟩ := Option.isSome_iff_exists.1 (hc (dotJoin (B64.encode (CompactHeader.toJson ⟨jwtTyp, alg, kid⟩).print)
    (B64.encode f.toJson.print)) st).2
  exact ⟨_, (jwt_gives law hd hk w1 w2 h1 h2 h3 h4 hf (jwsSignCompact_ok.2 ⟨st, sig, h5, h6, rfl⟩)).returns⟩

/-- Alice has such a key. -/
example (f : FromPrior) (hf : f.WF) : ∃ jwt, Returns World.bobEnv (FromPrior.unpack Toy.crypto jwt)
    (f, b!"did:example:alice#ed") :=
  C14_any_issuer World.aliceEnv World.bobEnv World.aliceDoc _ f Toy.lawful rfl (by decide) (by decide +kernel)
    (World.holds_of_fits (by decide +kernel) (by decide +kernel))
    (fun vm c p s m t h1 h2 h3 => by
      refine ⟨?_, rfl⟩
      rintro rfl
      have h4 : methodOf World.aliceDoc b!"did:example:alice#ed" =
        some (World.method b!"did:example:alice#ed" b!"OKP" b!"Ed25519" [1]) := rfl
      rw [h4] at h1
      cases h1
      have : (World.method b!"did:example:alice#ed" b!"OKP" b!"Ed25519" [1]).keyAlg = some .x25519 := asKeyPair_keyAlg h2
      clear h2
      revert this
      decide +kernel) hf

/-- Alice's key signs claims of Bob; the message comes from Alice. -/
def World.forgedProg : Prog (Message × UnpackMetadata) := do
  let jwt ← Prog.lift (jwsSignCompact Toy.crypto (FromPrior.toJson { iss := bob, sub := mediator }).print
    b!"did:example:alice#ed" .ed25519 [1] b!"JWT" .edDSA)
  unpack Toy.crypto (Message.toJson { id := [], type_ := [], body := .null, from_ := some alice, fromPrior := some jwt }).print {}

set_option maxRecDepth 100000 in
theorem World.forgedTest : World.test World.bobEnv World.forgedProg (fun x => decide (x.1.from_ = some World.alice ∧
    x.2.fromPrior = some { iss := World.bob, sub := World.mediator } ∧
    x.2.fromPriorIssuerKid = some b!"did:example:alice#ed")) = true := by decide +kernel

/-- C14 is false: neither is `iss` the DID of the reported issuer key, nor is `sub` the `from` of the message. -/
theorem C14_not_checked : ¬ ∀ (text : Str) (tr : List Event) (m : Message) (md : UnpackMetadata) (fp : FromPrior) (kid : Str),
    Answers World.bobEnv tr → Runs (unpack Toy.crypto text {}) tr (.ok (m, md)) → md.fromPrior = some fp →
    md.fromPriorIssuerKid = some kid → fp.iss = didOf kid ∨ m.from_ = some fp.sub := by
  intro hall
  obtain ⟨tr, ⟨m, md⟩, h, ha, hk⟩ := World.of_test World.forgedTest
  obtain ⟨k1, k2, k3⟩ := of_decide_eq_true hk
  unfold World.forgedProg at h
  obtain ⟨jwt, hj, h⟩ := runs_lift_bind_ok.1 h
  have := hall _ tr m md _ _ ha h k2 k3
  revert this
  simp only at k1
  rw [k1]
  decide +kernel

/-- The message was accepted by one of the packing operations. -/
def WasPacked (C : Crypto) (m : Message) : Prop :=
  (∃ tr out, Runs (packPlaintext C m) tr (.ok out)) ∨ (∃ by_ tr x, Runs (packSigned C m by_) tr (.ok x)) ∨
  (∃ to from_ by_ opts tr x, Runs (packEncrypted C m to from_ by_ opts) tr (.ok x))

theorem WasPacked.plain {m : Message} (h : WasPacked C m) : ∃ tr out, Runs (packPlaintext C m) tr (.ok out) := by
  have signed : ∀ {by_ tr out kid}, Runs (packSigned C m by_) tr (.ok (out, kid)) → ∃ tr out, Runs (packPlaintext C m) tr (.ok out) := by
    intro by_ tr out kid h
    obtain ⟨_, _, _, _, _, tr', payload, _, _, _, _, _, _, h, _⟩ := packSigned_ok.1 h
    exact ⟨tr', payload, h⟩
  rcases h with h | ⟨by_, tr, ⟨out, kid⟩, h⟩ | ⟨to, from_, by_, opts, tr, ⟨out, md⟩, h⟩
  · exact h
  · exact signed h
  · obtain ⟨t1, _, _, inner, _, _, _, _, _, _, _, h, _⟩ := packEncrypted_ok.1 h
    rcases packInner_ok.1 h with ⟨-, -, h⟩ | ⟨_, _, -, -, h⟩
    · exact ⟨_, _, h⟩
    · exact signed h

theorem fromPrior_unpack_fun {jwt : Str} {tr tr' : List Event} {fp fp' : FromPrior} {kid kid' : Str}
    (h : Runs (FromPrior.unpack C jwt) tr (.ok (fp, kid))) (h' : Runs (FromPrior.unpack C jwt) tr' (.ok (fp', kid'))) :
    fp = fp' ∧ kid = kid' := by
  obtain ⟨p, _, _, _, _, pl, h1, _, _, rfl, _, _, _, _, _, _, h2, _, h3⟩ := FromPrior.unpack_ok.1 h
  obtain ⟨p', _, _, _, _, pl', h1', _, _, rfl, _, _, _, _, _, _, h2', _, h3'⟩ := FromPrior.unpack_ok.1 h'
  rw [h1] at h1'; cases h1'
  rw [h2] at h2'; cases h2'
  rw [h3] at h3'; cases h3'
  exact ⟨rfl, rfl⟩

/-- C14, the part that holds: if the message unpacked is one that a packing operation of the library accepted (an honest
sender), then the issuer and the subject are bound as claimed, as far as the message has a `from`.  Missing: the same
for messages made otherwise, which is false (`C14_not_checked`). -/
theorem C14_honest_partial (m : Message) (text : Str) (opts : UnpackOptions) (tr : List Event) (md : UnpackMetadata) (jwt : Str)
    (hp : WasPacked C m) (h : Runs (unpack C text opts) tr (.ok (m, md))) (hj : m.fromPrior = some jwt) :
    ∃ fp kid, md.fromPrior = some fp ∧ md.fromPriorIssuerKid = some kid ∧ HasFragment kid ∧ fp.iss = didOf kid ∧
      fp.iss ≠ fp.sub ∧ ∀ s, m.from_ = some s → s = fp.sub := by
  obtain ⟨t0, out, hp⟩ := hp.plain
  obtain ⟨o, hp1, hp2, -⟩ := packPlaintext_ok.1 hp
  rw [hj] at hp1
  unfold unpackFromPrior at hp1
  rw [runs_bind_ok] at hp1
  obtain ⟨⟨fp, kid⟩, t1, t2, rfl, hp1, hp3⟩ := hp1
  obtain ⟨rfl, hp3⟩ := runs_pure.1 hp3
  cases hp3
  rw [unpack_eq, runs_bind_ok] at h
  obtain ⟨⟨u, md1⟩, t1, t2, rfl, -, h⟩ := h
  rw [afterAnon_eq, runs_bind_ok] at h
  obtain ⟨⟨a, md2⟩, t3, t4, rfl, -, h⟩ := h
  rw [afterAuth_eq, runs_bind_ok] at h
  obtain ⟨⟨s, md3⟩, t5, t6, rfl, -, h⟩ := h
  unfold afterSign at h
  simp only [runs_ok] at h
  obtain ⟨o, md4, t7, t8, rfl, h, m', h1, h2, h3⟩ := h
  rcases tryUnpackPlaintext_ok.1 h with ⟨rfl, -⟩ | ⟨m2, rfl, -, -, h4⟩
  · cases h1
  cases h1
  obtain ⟨rfl, rfl⟩ := h3
  rcases h4 with ⟨h4, -⟩ | ⟨jwt', fp', kid', h4, h5, rfl⟩
  · rw [hj] at h4; cases h4
  rw [hj] at h4; cases h4
  obtain ⟨rfl, rfl⟩ := fromPrior_unpack_fun h5 hp1
  refine ⟨fp', kid', rfl, rfl, ?_⟩
  obtain ⟨p, doc, _, _, _, _, _, _, hk, _⟩ := FromPrior.unpack_ok.1 h5
  refine ⟨(didOrUrl_isSome _).1 hk, ?_⟩
  unfold Message.validatePackPlaintext at hp2
  simp only [res_bind_ok] at hp2
  obtain ⟨_, hv, hp2⟩ := hp2
  unfold FromPrior.validatePack at hv
  split at hv
  · cases hv
  split at hv
  · cases hv
  split at hv
  · cases hv
  rename_i hne
  simp only at hv
  split at hv
  · cases hv
  split at hv
  · cases hv
  rename_i hi
  refine ⟨?_, hne, ?_⟩
  · rw [← didOrUrl_fst]; exact (Decidable.not_not.1 hi).symm
  · intro s hs
    rw [hs] at hp2
    simp only at hp2
    split at hp2
    · cases hp2
    · rename_i hq; exact (Decidable.not_not.1 hq).symm

/-- A message with a `from_prior` is packed, unpacked and packed again. -/
def World.repackProg : Prog (Message × UnpackMetadata) := do
  let x ← priorProg
  let _ ← packPlaintext Toy.crypto x.1
  pure x

set_option maxRecDepth 100000 in
theorem World.repackTest : World.test World.env World.repackProg (fun x => x.1.fromPrior.isSome) = true := by decide +kernel

/-- The honest part is met by a message with a `from_prior`. -/
example : ∃ m text tr md jwt, WasPacked Toy.crypto m ∧ Runs (unpack Toy.crypto text {}) tr (.ok (m, md)) ∧
    m.fromPrior = some jwt := by
  obtain ⟨tr, ⟨m, md⟩, h, -, hk⟩ := World.of_test World.repackTest
  obtain ⟨jwt', hj⟩ := Option.isSome_iff_exists.1 hk
  unfold World.repackProg World.priorProg at h
  simp only [runs_bind_ok] at h
  obtain ⟨⟨m', md'⟩, _, _, rfl, ⟨⟨jwt, _⟩, t1, _, rfl, h1, out, t2, t3, rfl, h2, h⟩, out', t4, t5, rfl, h4, h5⟩ := h
  obtain ⟨-, h5⟩ := runs_pure.1 h5
  cases h5
  exact ⟨m, out, t3, md, jwt', .inl ⟨_, _, h4⟩, h, hj⟩

/-! ## C16: who the message says it is from -/

/-- A message that says it is from Bob, signed by Alice, with the operations of the library. -/
def World.signedProg : Prog (Message × UnpackMetadata) := do
  let (out, _) ← packSigned Toy.crypto { id := [], type_ := [], body := .null, from_ := some bob } alice
  unpack Toy.crypto out {}

/-- An authenticated message that does not say who it is from, with the operations of the library. -/
def World.absentProg : Prog (Message × UnpackMetadata) := do
  let (out, _) ← packEncrypted Toy.crypto { id := [], type_ := [], body := .null } bob (some alice) none { forward := false }
  unpack Toy.crypto out {}

/-- An envelope by Alice around a message that says it is from Bob; the plaintext is encrypted directly. -/
def World.spoofedProg : Prog (Message × UnpackMetadata) := do
  let (out, _, _) ← authcrypt Toy.crypto bob alice
    (Message.toJson { id := [], type_ := [], body := .null, from_ := some bob }).print
    .a256cbcHs512Ecdh1puA256kw .xc20pEcdhEsA256kw false
  unpack Toy.crypto out {}

set_option maxRecDepth 100000 in
theorem World.signedTest : World.test World.env World.signedProg (fun x => decide (x.1.from_ = some World.bob ∧
    x.2.authenticated = true ∧ x.2.signFrom = some b!"did:example:alice#ed")) = true := by decide +kernel

set_option maxRecDepth 100000 in
theorem World.absentTest : World.test World.env World.absentProg (fun x => decide (x.1.from_ = none ∧
    x.2.authenticated = true ∧ x.2.encryptedFromKid = some b!"did:example:alice#p1")) = true := by decide +kernel

set_option maxRecDepth 100000 in
theorem World.spoofedTest : World.test World.env World.spoofedProg (fun x => decide (x.1.from_ = some World.bob ∧
    x.2.authenticated = true ∧ x.2.encryptedFromKid = some b!"did:example:alice#p1")) = true := by decide +kernel

/-- C16 is false for signatures: `pack_signed` itself makes a message in the name of somebody else, and unpacking reports
it as authenticated. -/
theorem C16_signed_for_another : ∃ (m : Message) (out text : Str) (t1 t2 : List Event) (m' : Message) (md : UnpackMetadata),
    Runs (packSigned Toy.crypto m World.alice) t1 (.ok (text, out)) ∧ Answers World.env t1 ∧
    Runs (unpack Toy.crypto text {}) t2 (.ok (m', md)) ∧ Answers World.env t2 ∧ md.authenticated = true ∧
    m'.from_ = some World.bob ∧ md.signFrom = some b!"did:example:alice#ed" := by
  obtain ⟨tr, ⟨m, md⟩, h, ha, hk⟩ := World.of_test World.signedTest
  obtain ⟨k1, k2, k3⟩ := of_decide_eq_true hk
  unfold World.signedProg at h
  rw [runs_bind_ok] at h
  obtain ⟨⟨out, k⟩, t1, t2, rfl, h1, h⟩ := h
  rw [answers_append] at ha
  exact ⟨_, k, out, t1, t2, m, md, h1, ha.1, h, ha.2, k2, k1, k3⟩

/-- C16 is false for encryption too: the `from` inside an authenticated envelope can be anybody's. -/
theorem C16_not_checked : ¬ ∀ (text : Str) (tr : List Event) (m : Message) (md : UnpackMetadata) (f k : Str),
    Answers World.env tr → Runs (unpack Toy.crypto text {}) tr (.ok (m, md)) → md.authenticated = true →
    md.encryptedFromKid = some k → m.from_ = some f → f = didOf k := by
  intro hall
  obtain ⟨tr, ⟨m, md⟩, h, ha, hk⟩ := World.of_test World.spoofedTest
  obtain ⟨k1, k2, k3⟩ := of_decide_eq_true hk
  unfold World.spoofedProg at h
  rw [runs_bind_ok] at h
  obtain ⟨⟨out, k⟩, t1, t2, rfl, h1, h⟩ := h
  rw [answers_append] at ha
  have := hall _ _ _ _ _ _ ha.2 h k2 k3 k1
  revert this
  decide +kernel

/-- C16 is also false because there need not be a `from` at all, even with `pack_encrypted`. -/
theorem C16_absent : ¬ ∀ (text : Str) (tr : List Event) (m : Message) (md : UnpackMetadata),
    Answers World.env tr → Runs (unpack Toy.crypto text {}) tr (.ok (m, md)) → md.authenticated = true → m.from_ ≠ none := by
  intro hall
  obtain ⟨tr, ⟨m, md⟩, h, ha, hk⟩ := World.of_test World.absentTest
  obtain ⟨k1, k2, k3⟩ := of_decide_eq_true hk
  unfold World.absentProg at h
  rw [runs_bind_ok] at h
  obtain ⟨⟨out, k⟩, t1, t2, rfl, h1, h⟩ := h
  rw [answers_append] at ha
  exact hall _ _ _ _ ha.2 h k2 k1

/-- C16, the part that holds: what `pack_encrypted` makes with a `from` argument is unpacked to an authenticated message
whose `from` header, if there is one, is the DID of the reported sender key.  Missing: senders that do not use
`pack_encrypted`, a missing header, and the signer; for all of these the property is false. -/
theorem C16_packed_partial (E E' : Env) (m : Message) (to from_ : Str) (opts : PackEncryptedOptions)
    (uopts : UnpackOptions) (tr : List Event) (out : Str) (md : PackEncryptedMetadata)
    (law : C.Lawful pairs) (hs : SeesDocsOf E' E) (hh : HonestSecrets E)
    (hwire : WireParty E (didOf to)) (hopen : Opens C pairs E' E (didOf to) md.toKids)
    (hfw : WireParty E (didOf from_)) (hfit : KeysFit C pairs E (didOf from_))
    (hw : m.WF C.f64) (ht : m.typ = b!"application/didcomm-plain+json") (hn : NotEnvelope m) (ha : Answers E tr)
    (h : Runs (packEncrypted C m to (some from_) none opts) tr (.ok (out, md))) (hf : md.messagingService = none) :
    ∃ md' fromKid, Returns E' (unpack C out uopts) (m, md') ∧ md'.authenticated = true ∧
      md'.encryptedFromKid = some fromKid ∧ ∀ f, m.from_ = some f → f = didOf fromKid := by
  have key : ∀ k, md.fromKid = some k → ∀ f, m.from_ = some f → f = didOf k := by
    intro k hk f hf
    obtain ⟨_, fromDoc, found, curve, fromKid, -, h1, h2, h3, h4, -⟩ := C35_negotiation m to from_ none opts tr out md h
    rw [hk] at h4
    cases h4
    have hm := hh _ _ (ha _ h2).symm k (List.mem_of_find?_eq_some h3)
    have hka : k ∈ fromDoc.keyAgreement := by
      unfold meantBy at hm
      split at hm
      · exact (List.mem_filter.1 hm).1
      · exact hm
    rw [(hfw fromDoc (ha _ h1).symm k (by simp [hka])).2.1]
    exact (C31_addressing m to _ none opts tr out md h).2.1 _ _ rfl hf
  cases hp : opts.protectSender with
  | false =>
    obtain ⟨fp, k, fromKid, -, h2, h3⟩ := C04_authcrypt_roundtrip E E' m to from_ opts uopts tr out md law hs hh hwire hopen
      hfw hfit hw ht hn ha h hp hf
    exact ⟨_, fromKid, h3, rfl, rfl, key _ h2⟩
  | true =>
    obtain ⟨fp, k, fromKid, -, h2, h3⟩ := C05_protect_sender_roundtrip E E' m to from_ opts uopts tr out md law hs hh hwire
      hopen hfw hfit hw ht hn ha h hp hf
    exact ⟨_, fromKid, h3, rfl, rfl, key _ h2⟩

set_option maxRecDepth 100000 in
/-- Alice's message to Bob meets the hypotheses. -/
example : ∃ tr out md, Answers World.aliceEnv tr ∧
    Runs (packEncrypted Toy.crypto World.msg World.bob (some World.alice) none { forward := false }) tr (.ok (out, md)) ∧
    md.messagingService = none ∧ Opens Toy.crypto Toy.pairs World.bobEnv World.aliceEnv World.bob md.toKids ∧
    World.msg.from_ = some World.alice := by
  obtain ⟨tr, ⟨out, md⟩, h, ha, hk⟩ := World.of_test (E := World.aliceEnv)
    (p := packEncrypted Toy.crypto World.msg World.bob (some World.alice) none { forward := false })
    (P := fun x => decide (x.2.messagingService = none ∧ x.2.toKids ≠ [] ∧ ∀ k ∈ x.2.toKids, k ∈ World.bobDoc.keyAgreement))
    (by decide +kernel)
  obtain ⟨k1, k2, k3⟩ := of_decide_eq_true hk
  exact ⟨tr, out, md, ha, h, k1, World.bob_opens k2 k3, rfl⟩

/-! ## C55: plaintext taken for an envelope -/

/-- A plaintext message whose extra headers are the members of somebody's signed message, with the operations of the
library. -/
def World.mimicProg : Prog (Message × Message × UnpackMetadata) := do
  let (jws, _) ← packSigned Toy.crypto { id := b!"signed", type_ := [], body := .null } alice
  let j ← Prog.lift (jwsFromStr jws)
  let m : Message :=
    { id := b!"plain", type_ := [], body := .null
      extraHeaders := [(b!"signatures", .arr (j.signatures.map JwsSig.toJson)), (b!"payload", .str j.payload)] }
  let out ← packPlaintext Toy.crypto m
  let x ← unpack Toy.crypto out {}
  pure (m, x)

set_option maxRecDepth 100000 in
theorem World.mimicTest : World.test World.env World.mimicProg (fun x => decide (x.1.id = b!"plain" ∧ x.2.1.id = b!"signed" ∧
    x.2.2.authenticated = true ∧ x.2.2.signFrom = some b!"did:example:alice#ed")) = true := by decide +kernel

/-- C55 is false: the text of a plaintext message, made by `pack_plaintext`, is unpacked to another message, reported as
signed. -/
theorem C55_mimicry : ∃ (m m' : Message) (md : UnpackMetadata) (text : Str) (t1 t2 : List Event),
    Runs (packPlaintext Toy.crypto m) t1 (.ok text) ∧ Runs (unpack Toy.crypto text {}) t2 (.ok (m', md)) ∧
    Answers World.env t2 ∧ m'.id ≠ m.id ∧ md.authenticated = true ∧ md.nonRepudiation = true := by
  obtain ⟨tr, ⟨m, m', md⟩, h, ha, hk⟩ := World.of_test World.mimicTest
  obtain ⟨k1, k2, k3, k4⟩ := of_decide_eq_true hk
  unfold World.mimicProg at h
  rw [runs_bind_ok] at h
  obtain ⟨⟨jws, _⟩, t1, _, rfl, -, h⟩ := h
  obtain ⟨j, -, h⟩ := runs_lift_bind_ok.1 h
  simp only [runs_bind_ok] at h
  obtain ⟨out, t2, _, rfl, h2, x, t3, t4, rfl, h3, h4⟩ := h
  obtain ⟨rfl, h4⟩ := runs_pure.1 h4
  cases h4
  refine ⟨_, m', md, out, t2, t3, h2, h3, fun e he => ha e (by simp [he]), ?_, k3,
    C11_reported _ _ _ _ _ h3 (.inl (by rw [k4]; rfl))⟩
  rw [k1, k2]
  decide

/-- C55, the part that holds: the text of an ordinary plaintext message whose extra headers lack one of the members of an
encrypted and one of a signed envelope is never treated as an envelope, whatever the resolvers answer: no secret is asked for,
no sender or signer is reported, and the message returned, if any, is the one packed.  Missing: messages with
such headers, for which it is false. -/
theorem C55_ordinary_partial (m : Message) (opts : UnpackOptions) (tr : List Event) (r : Res (Message × UnpackMetadata))
    (hw : m.WF C.f64) (hn : NotEnvelope m) (h : Runs (unpack C m.toJson.print opts) tr r) :
    (∀ ev ∈ tr, ∃ d, ev.query = .resolve d) ∧ (m.fromPrior = none → tr = []) ∧
    ∀ m' md, r = .ok (m', md) → m' = m ∧
      md = { fromPrior := md.fromPrior, fromPriorIssuerKid := md.fromPriorIssuerKid } := by
  have hj := message_not_jwe hw hn
  have hm : messageFromStr C m.toJson.print = .ok m := message_print m hw
  refine ⟨?_, ?_⟩
  · intro ev he
    have h1 := C32_unencrypted _ (fun j h => by rw [jweFromStr, h] at hj; cases hj) opts tr r h ev he
    have h2 := unpack_no_random h ev he
    cases hq : ev.query with
    | resolve d => exact ⟨d, rfl⟩
    | random => exact absurd hq h2
    | findSecrets _ => rw [hq] at h1; exact absurd trivial h1
    | getSecret _ => rw [hq] at h1; exact absurd trivial h1
  rw [unpack_plain hj (message_not_jws hw hn)] at h
  unfold afterSign at h
  refine ⟨?_, ?_⟩
  · intro hp
    unfold tryUnpackPlaintext at h
    rw [hm] at h
    simp only [recognise] at h
    rw [runs_bind] at h
    have key : ∀ t x, Runs (do
        let m ← Prog.lift m.validate
        match m.fromPrior with
        | none => pure (some m, ({} : UnpackMetadata))
        | some jwt => do
          let (fp, kid) ← FromPrior.unpack C jwt
          pure (some m, { fromPrior := some fp, fromPriorIssuerKid := some kid })) t x → t = [] := by
      intro t x hx
      rcases runs_lift_bind.1 hx with ⟨_, -, rfl, -⟩ | ⟨a, h1, h2⟩
      · rfl
      · have : a = m := by
          unfold Message.validate fail at h1
          split at h1 <;> simp_all
        subst this
        rw [hp] at h2
        exact (runs_pure.1 h2).1
    rcases h with ⟨e, h, -⟩ | ⟨a, t1, t2, rfl, h1, h2⟩
    · rcases runs_lift_bind.1 h with ⟨_, -, rfl, -⟩ | ⟨a, h1, h2⟩
      · rfl
      · cases h1
        exact key _ _ h2
    · have e1 : t1 = [] := by
        rcases runs_lift_bind.1 h1 with ⟨_, -, rfl, -⟩ | ⟨a, h1, h2⟩
        · rfl
        · cases h1
          exact key _ _ h2
      subst e1
      rcases runs_lift_bind.1 h2 with ⟨_, -, rfl, -⟩ | ⟨b, -, h3⟩
      · rfl
      · rw [(runs_pure.1 h3).1]; rfl
  · rintro m' md rfl
    rw [runs_bind_ok] at h
    obtain ⟨⟨o, md'⟩, t1, t2, rfl, h1, h2⟩ := h
    obtain ⟨a, h3, h4⟩ := runs_lift_bind_ok.1 h2
    rw [okOr_eq_ok] at h3
    obtain ⟨rfl, h4⟩ := runs_pure.1 h4
    cases h4
    subst h3
    rcases tryUnpackPlaintext_ok.1 h1 with ⟨h, -⟩ | ⟨x, h, hx, -, h5⟩
    · cases h
    · cases h
      rw [hm] at hx
      cases hx
      refine ⟨rfl, ?_⟩
      rcases h5 with ⟨-, -, rfl⟩ | ⟨_, _, _, -, -, rfl⟩ <;> rfl

/-- The message of the examples is such a message. -/
example : World.msg.WF Toy.crypto.f64 ∧ NotEnvelope World.msg :=
  ⟨World.msg_wf, World.msg_notEnvelope⟩

/-! ## C57: key ids that JSON escapes -/

/-- JSON writes the text with escapes: it has a quote, a backslash or a control character. -/
def NeedsEscape (s : Str) : Prop := ∃ b ∈ s, b = 0x22 ∨ b = 0x5C ∨ b < 0x20

theorem dBorrow_escaped {s : Str} (h : NeedsEscape s) : dBorrow (Value.str s).tree = none := by
  have : needsEsc s = true := by
    unfold needsEsc
    rw [List.any_eq_true]
    obtain ⟨b, hb, h⟩ := h
    refine ⟨b, hb, ?_⟩
    rcases h with rfl | rfl | h
    · rfl
    · rfl
    · simp [escaped, h]
  simp only [Value.tree, strTokOf, this]
  rfl

theorem dKidHeader_escaped {kid : Str} (h : NeedsEscape kid) (n : Nat) (hn : 1 < n) :
    dKidHeader n (Value.obj [(b!"kid", .str kid)]).tree = none := by
  unfold dKidHeader
  rw [asStruct_tree _ _ _ hn (by keys_utf8)]
  simp only [Option.bind_eq_bind, Option.bind_some]
  rw [reqField_tree (v := .str kid) (by simp), dBorrow_escaped h]

theorem decAll_none {α β : Type} (d : Tree → Option β) (f : α → Value) (l : List α) (a : α) (ha : a ∈ l)
    (h : d (f a).tree = none) : decAll d (Value.trees (l.map f)) = none := by
  induction l with
  | nil => cases ha
  | cons x l ih =>
    simp only [List.map_cons, Value.trees, decAll, Option.bind_eq_bind]
    rcases List.mem_cons.1 ha with rfl | ha
    · rw [h]; rfl
    · rw [ih ha]
      cases d (f x).tree <;> rfl

/-- An encrypted text with such a recipient is not read. -/
theorem jwe_escaped (j : JWE) (h : ∃ r ∈ j.recipients, NeedsEscape r.kid) :
    jweFromStr j.toJson.print = .error (.kind .malformed) := by
  obtain ⟨r, hr, h⟩ := h
  apply fromJson_print_none j.numsOk
  unfold dJwe JWE.toJson
  rw [asStruct_tree _ _ _ (by decide) (by keys_utf8)]
  simp only [Option.bind_eq_bind, Option.bind_some]
  rw [reqField_tree (name := b!"recipients") (v := .arr (j.recipients.map JweRecipient.toJson)) (by simp)]
  have : dVec dJweRecipient (depthLimit - 1) (Value.arr (j.recipients.map JweRecipient.toJson)).tree = none := by
    simp only [Value.tree, dVec]
    rw [if_neg (by decide)]
    apply decAll_none _ _ _ _ hr
    unfold dJweRecipient JweRecipient.toJson
    rw [asStruct_tree _ _ _ (by decide) (by keys_utf8)]
    simp only [Option.bind_eq_bind, Option.bind_some]
    rw [reqField_tree (v := .obj [(b!"kid", .str r.kid)]) (by simp), dKidHeader_escaped h _ (by decide)]
    rfl
  rw [this]
  simp

/-- A signed text with such a signer is not read. -/
theorem jws_escaped (j : JWS) (h : ∃ r ∈ j.signatures, NeedsEscape r.kid) :
    jwsFromStr j.toJson.print = .error (.kind .malformed) := by
  obtain ⟨r, hr, h⟩ := h
  apply fromJson_print_none j.numsOk
  unfold dJws JWS.toJson
  rw [asStruct_tree _ _ _ (by decide) (by keys_utf8)]
  simp only [Option.bind_eq_bind, Option.bind_some]
  rw [reqField_tree (v := .arr (j.signatures.map JwsSig.toJson)) (by simp)]
  have : dVec dJwsSig (depthLimit - 1) (Value.arr (j.signatures.map JwsSig.toJson)).tree = none := by
    simp only [Value.tree, dVec]
    rw [if_neg (by decide)]
    apply decAll_none _ _ _ _ hr
    unfold dJwsSig JwsSig.toJson
    rw [asStruct_tree _ _ _ (by decide) (by keys_utf8)]
    simp only [Option.bind_eq_bind, Option.bind_some]
    rw [reqField_tree (v := .obj [(b!"kid", .str r.kid)]) (by simp), dKidHeader_escaped h _ (by decide)]
    rfl
  rw [this]
  rfl

/-- A text that is neither envelope nor message is malformed. -/
theorem unpack_nothing {t : Str} {opts : UnpackOptions} (h1 : jweFromStr t = .error (.kind .malformed))
    (h2 : jwsFromStr t = .error (.kind .malformed)) (h3 : messageFromStr C t = .error (.kind .malformed)) :
    unpack C t opts = .ret (.error (.kind .malformed)) := by
  rw [unpack_plain h1 h2]
  unfold afterSign tryUnpackPlaintext
  rw [h3]
  rfl

/-- C57: if a recipient key id needs an escape, `pack_encrypted` succeeds all the same, and what it returns is malformed for
everybody. -/
theorem C57_recipient (m : Message) (to : Str) (from_ signBy : Option Str) (opts : PackEncryptedOptions)
    (uopts : UnpackOptions) (tr tr' : List Event) (out : Str) (md : PackEncryptedMetadata) (r : Res (Message × UnpackMetadata))
    (h : Runs (packEncrypted C m to from_ signBy opts) tr (.ok (out, md))) (hf : md.messagingService = none)
    (hk : ∃ k ∈ md.toKids, NeedsEscape k) (hu : Runs (unpack C out uopts) tr' r) :
    tr' = [] ∧ r = .error (.kind .malformed) := by
  obtain ⟨hdr, ⟨j, rfl, -, hj⟩, -⟩ := C36_wire m to from_ signBy opts tr out md h hf
  obtain ⟨k, hk, he⟩ := hk
  rw [← hj] at hk
  obtain ⟨x, hx, rfl⟩ := List.mem_map.1 hk
  rw [JWE.onWire_eq, unpack_nothing (jwe_escaped j ⟨x, hx, he⟩) (jwe_not_jws j) (jwe_not_message _ j)] at hu
  exact runs_ret.1 hu

/-- C57: the same for the signing key of `pack_signed`. -/
theorem C57_signer (m : Message) (signBy : Str) (uopts : UnpackOptions) (tr tr' : List Event) (out kid : Str)
    (r : Res (Message × UnpackMetadata)) (h : Runs (packSigned C m signBy) tr (.ok (out, kid)))
    (hk : NeedsEscape kid) (hu : Runs (unpack C out uopts) tr' r) :
    tr' = [] ∧ r = .error (.kind .malformed) := by
  obtain ⟨_, _, _, _, _, _, _, _, -, -, -, -, -, -, -, h⟩ := packSigned_ok.1 h
  obtain ⟨_, _, -, -, rfl⟩ := jwsSign_ok.1 h
  rw [unpack_nothing (jws_not_jwe _) (jws_escaped _ ⟨_, List.mem_singleton.2 rfl, hk⟩) (jws_not_message _ _)] at hu
  exact runs_ret.1 hu

/-- Reading back an encrypted text either fails or gives at least the same header. -/
theorem jwe_reads_protected {j : JWE} (hp : Plain j.protected_) :
    jweFromStr j.toJson.print = .error (.kind .malformed) ∨
      ∃ j', jweFromStr j.toJson.print = .ok j' ∧ j'.protected_ = j.protected_ := by
  cases h : dJwe depthLimit j.toJson.tree with
  | none => exact .inl (fromJson_print_none j.numsOk h)
  | some j' =>
    refine .inr ⟨j', fromJson_print j.numsOk h, ?_⟩
    unfold dJwe JWE.toJson at h
    rw [asStruct_tree _ _ _ (by decide) (by keys_utf8)] at h
    simp only [Option.bind_eq_bind, Option.bind_some] at h
    rw [reqField_tree (name := b!"protected") (v := .str j.protected_) (by simp), dBorrow_plain hp] at h
    simp only [Option.bind_some, Option.bind_eq_some_iff] at h
    obtain ⟨_, -, _, -, _, -, _, -, h⟩ := h
    cases h
    rfl

/-- A header with such a sender is not read. -/
theorem jwe_header_escaped {hdr : JweHeader} {k : Str} (hk : hdr.skid = some k) (h : NeedsEscape k)
    (he : hdr.epk.NumsOk) : fromJson (dJweHeader C.f64) hdr.toJson.print = .error (.kind .malformed) := by
  apply fromJson_print_none
  · obtain ⟨typ, alg, enc, skid, apu, apv, epk⟩ := hdr
    simp only [JweHeader.toJson, Value.NumsOk, numsOkM_append]
    cases typ <;> simp_all [Value.NumsOk, Value.NumsOkM, numsOk_optStr]
  · unfold dJweHeader JweHeader.toJson
    rw [asStruct_tree _ _ _ (by decide) (by keys_utf8), hk]
    simp only [Option.bind_eq_bind, Option.bind_some]
    rw [optField_tree_some (name := b!"skid") (v := .str k) (by simp [named_append])]
    have : dOpt dBorrow (Value.str k).tree = none := by
      have := dBorrow_escaped h
      simp only [Value.tree, dOpt] at this ⊢
      rw [this]
      rfl
    rw [this]
    simp

/-- C57: the same for the key of the sender, when the outermost envelope names it. -/
theorem C57_sender (m : Message) (to from_ : Str) (signBy : Option Str) (opts : PackEncryptedOptions)
    (uopts : UnpackOptions) (tr tr' : List Event) (out : Str) (md : PackEncryptedMetadata) (k : Str)
    (r : Res (Message × UnpackMetadata)) (law : C.Lawful pairs)
    (h : Runs (packEncrypted C m to (some from_) signBy opts) tr (.ok (out, md))) (hf : md.messagingService = none)
    (hp : opts.protectSender = false) (hk : md.fromKid = some k) (he : NeedsEscape k)
    (hu : Runs (unpack C out uopts) tr' r) :
    tr' = [] ∧ r = .error (.kind .malformed) := by
  obtain ⟨t1, t2, t3, inner, sk, env, fk, tk, w, rfl, -, -, hc, -, hmd⟩ := packEncrypted_ok.1 h
  rcases hmd with ⟨-, rfl, rfl⟩ | ⟨svc, -, rfl⟩
  rotate_left
  · cases hf
  rcases packCrypt_ok.1 hc with ⟨h, -⟩ | ⟨f, k', h1, h2, ha⟩
  · cases h
  cases h1
  simp only at hk
  subst h2
  cases hk
  obtain ⟨toDoc, fromDoc, fromKids, found, fromVms, kids, vms, fromVm, secret, curve, toKeys, sk, tr', -, -, -, -,
    -, -, -, rfl, -, -, h8, rfl, -, h9⟩ := authcrypt_ok.1 ha
  unfold authEncrypt at h9
  rw [runs_bind_ok] at h9
  obtain ⟨o1, u1, u2, rfl, h1, h2⟩ := h9
  rw [if_neg (by simp [hp])] at h2
  obtain ⟨rfl, h2⟩ := runs_pure.1 h2
  cases h2
  obtain ⟨_, _, _, _, _, epk, _, _, _, _, _, _, hepk, _, h5, rfl⟩ := jweEncrypt_ok.1 h1
  rcases jwe_reads_protected (j := ⟨jweProtected C _ _ _ _ _, _, _, _, _⟩) (B64.plain_encode _) with hj | ⟨j', hj, hj'⟩
  · rw [unpack_nothing hj (jwe_not_jws _) (jwe_not_message _ _)] at hu
    exact runs_ret.1 hu
  · rw [unpack_anon_error (tryAnon_parse_error hj (e := .kind .malformed) ?_)] at hu
    · exact runs_ret.1 hu
    · unfold JWE.parse
      rw [hj']
      simp only [jweProtected, B64.decode_encode, okOr, bind, Except.bind]
      rw [jwe_header_escaped (C := C) rfl he (law.jwk_ok hepk).1.numsOk]

/-- A compact header with such a key is not read. -/
theorem compactHeader_escaped (typ : Str) (alg : JwsAlg) (kid : Str) (h : NeedsEscape kid) :
    fromJson dCompactHeader (CompactHeader.toJson ⟨typ, alg, kid⟩).print = .error (.kind .malformed) := by
  apply fromJson_print_none
  · simp [CompactHeader.toJson, Value.NumsOk, Value.NumsOkM]
  · unfold dCompactHeader CompactHeader.toJson
    rw [asStruct_tree _ _ _ (by decide) (by keys_utf8)]
    simp only [Option.bind_eq_bind, Option.bind_some]
    rw [reqField_tree (name := b!"kid") (v := .str kid) (by simp), dBorrow_escaped h]
    simp

/-- C57: the same for the key of the issuer of a `from_prior`. -/
theorem C57_issuer (f : FromPrior) (issuerKid : Option Str) (tr tr' : List Event) (jwt kid : Str) (r : Res (FromPrior × Str))
    (h : Runs (f.pack C issuerKid) tr (.ok (jwt, kid))) (hk : NeedsEscape kid)
    (hu : Runs (FromPrior.unpack C jwt) tr' r) : tr' = [] ∧ r = .error (.kind .malformed) := by
  obtain ⟨doc, kids, found, secret, pair, alg, -, -, -, -, -, -, h6⟩ := FromPrior.pack_ok.1 h
  obtain ⟨st, sig, e1, e2, rfl⟩ := jwsSignCompact_ok.1 h6
  have nodot : ∀ (x : Bytes), ∀ b ∈ B64.encode x, b ≠ 0x2E := fun x b hb => isSym_ne_dot b (B64.encode_sym x b hb)
  have : parseCompact (dotJoin (dotJoin (B64.encode (CompactHeader.toJson ⟨jwtTyp, alg, kid⟩).print)
      (B64.encode f.toJson.print)) (B64.encode sig)) = .error (.kind .malformed) := by
    unfold parseCompact
    simp only [dotJoin, List.append_assoc, List.cons_append]
    rw [splitOn_dotJoin (nodot _), splitOn_dotJoin (nodot _), splitOn_plain (nodot _)]
    simp only [B64.decode_encode, okOr, compactHeader_escaped jwtTyp alg kid hk, withKind, bind, Except.bind]
  unfold FromPrior.unpack at hu
  rw [lift_error_bind this] at hu
  exact runs_ret.1 hu

/-- A party whose key ids have quotes. -/
def World.quotedDoc : DIDDoc :=
  { id := b!"did:example:q"
    keyAgreement := [b!"did:example:q#\"x"]
    authentication := [b!"did:example:q#\"e"]
    verificationMethod := [World.method b!"did:example:q#\"e" b!"OKP" b!"Ed25519" [31],
      World.method b!"did:example:q#\"x" b!"OKP" b!"X25519" [32]]
    service := [] }

def World.quotedEnv : Env :=
  World.envOf [World.quotedDoc] [World.secret b!"did:example:q#\"e" b!"OKP" b!"Ed25519" [31],
    World.secret b!"did:example:q#\"x" b!"OKP" b!"X25519" [32]]

/-- Such keys are packed for and signed with. -/
example : (∃ tr out md, Runs (packEncrypted Toy.crypto { id := b!"1", type_ := [], body := .null } b!"did:example:q" none none { forward := false }) tr
      (.ok (out, md)) ∧ Answers World.quotedEnv tr ∧ md.messagingService = none ∧ ∃ k ∈ md.toKids, NeedsEscape k) ∧
    (∃ tr out md k, Runs (packEncrypted Toy.crypto { id := b!"1", type_ := [], body := .null } b!"did:example:q"
      (some b!"did:example:q") none { forward := false }) tr (.ok (out, md)) ∧ Answers World.quotedEnv tr ∧
      md.messagingService = none ∧ md.fromKid = some k ∧ NeedsEscape k) ∧
    (∃ tr out kid, Runs (packSigned Toy.crypto { id := b!"1", type_ := [], body := .null } b!"did:example:q") tr
      (.ok (out, kid)) ∧ Answers World.quotedEnv tr ∧ NeedsEscape kid) ∧
    (∃ tr out kid, Runs (FromPrior.pack Toy.crypto { iss := b!"did:example:q", sub := World.bob } none) tr
      (.ok (out, kid)) ∧ Answers World.quotedEnv tr ∧ NeedsEscape kid) := by
  have hx : NeedsEscape b!"did:example:q#\"x" := ⟨0x22, by decide, .inl rfl⟩
  have he : NeedsEscape b!"did:example:q#\"e" := ⟨0x22, by decide, .inl rfl⟩
  refine ⟨?_, ?_, ?_, ?_⟩
  · obtain ⟨tr, ⟨out, md⟩, h, ha, hk⟩ := World.of_test (E := World.quotedEnv)
      (p := packEncrypted Toy.crypto { id := b!"1", type_ := [], body := .null } b!"did:example:q" none none { forward := false })
      (P := fun x => decide (x.2.messagingService = none ∧ x.2.toKids = [b!"did:example:q#\"x"])) (by decide +kernel)
    obtain ⟨h1, h2⟩ := of_decide_eq_true hk
    exact ⟨tr, out, md, h, ha, h1, _, by rw [h2]; exact List.mem_singleton.2 rfl, hx⟩
  · obtain ⟨tr, ⟨out, md⟩, h, ha, hk⟩ := World.of_test (E := World.quotedEnv)
      (p := packEncrypted Toy.crypto { id := b!"1", type_ := [], body := .null } b!"did:example:q" (some b!"did:example:q")
        none { forward := false })
      (P := fun x => decide (x.2.messagingService = none ∧ x.2.fromKid = some b!"did:example:q#\"x")) (by decide +kernel)
    obtain ⟨h1, h2⟩ := of_decide_eq_true hk
    exact ⟨tr, out, md, _, h, ha, h1, h2, hx⟩
  · obtain ⟨tr, ⟨out, kid⟩, h, ha, hk⟩ := World.of_test (E := World.quotedEnv)
      (p := packSigned Toy.crypto { id := b!"1", type_ := [], body := .null } b!"did:example:q")
      (P := fun x => decide (x.2 = b!"did:example:q#\"e")) (by decide +kernel)
    have hk : kid = _ := of_decide_eq_true hk
    exact ⟨tr, out, kid, h, ha, hk ▸ he⟩
  · obtain ⟨tr, ⟨out, kid⟩, h, ha, hk⟩ := World.of_test (E := World.quotedEnv)
      (p := FromPrior.pack Toy.crypto { iss := b!"did:example:q", sub := World.bob } none)
      (P := fun x => decide (x.2 = b!"did:example:q#\"e")) (by decide +kernel)
    have hk : kid = _ := of_decide_eq_true hk
    exact ⟨tr, out, kid, h, ha, hk ▸ he⟩

end DIDComm
