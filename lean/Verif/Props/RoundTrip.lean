import Verif.Proofs.Trip
import Verif.Proofs.WorldParties

/-!
# Round trips: C01–C07

What was packed is unpacked unchanged.  `E` is the packer's environment, `E'` the receiver's;
`Returns` says that unpacking has a run and that every run ends this way.
-/

set_option autoImplicit false

namespace DIDComm

variable {C : Crypto} {pairs : Curve → C.Key → C.Key → Prop}

/-! ## C01: plaintext -/

/-- C01: what `pack_plaintext` returns is unpacked to the same message, and nothing is claimed about
it except, if there is one, its `from_prior`. -/
theorem C01_plaintext_roundtrip (E E' : Env) (m : Message) (opts : UnpackOptions) (tr : List Event) (out : Str)
    (hs : SeesDocsOf E' E) (hw : m.WF C.f64) (ht : m.typ = b!"application/didcomm-plain+json") (hn : NotEnvelope m)
    (ha : Answers E tr) (h : Runs (packPlaintext C m) tr (.ok out)) :
    ∃ fp k, PriorOf C m fp k ∧
      Returns E' (unpack C out opts) (m, { fromPrior := fp, fromPriorIssuerKid := k }) := by
  obtain ⟨fp, k, h1, h2, h3, -, -⟩ := packPlain_gives hs hw ht hn ha h
  refine ⟨fp, k, h1, Gives.returns ?_⟩
  rw [unpack_not_jwe h3]
  exact h2 {} ⟨rfl, rfl, rfl, rfl, rfl, rfl⟩

/-- C01: without `from_prior` packing always succeeds, and unpacking needs no resolver at all: whatever
the resolvers do, it gives the message back. -/
theorem C01_no_prior (m : Message) (opts : UnpackOptions) (hw : m.WF C.f64)
    (ht : m.typ = b!"application/didcomm-plain+json") (hn : NotEnvelope m) (hf : m.fromPrior = none) :
    ∃ out, (∀ tr r, Runs (packPlaintext C m) tr r ↔ tr = [] ∧ r = .ok out) ∧
      ∀ tr r, Runs (unpack C out opts) tr r ↔ tr = [] ∧ r = .ok (m, {}) := by
  have hp : packPlaintext C m = .ret (.ok m.toJson.print) := by
    unfold packPlaintext
    rw [hf]; rfl
  refine ⟨m.toJson.print, fun tr r => by rw [hp]; exact runs_pure, fun tr r => ?_⟩
  rw [unpack_plain (message_not_jwe hw hn) (message_not_jws hw hn)]
  have : afterSign C m.toJson.print {} = .ret (.ok (m, {})) := by
    have hm : messageFromStr C m.toJson.print = .ok m := message_print m hw
    unfold afterSign tryUnpackPlaintext
    rw [hm]
    have hv : m.validate = .ok m := by unfold Message.validate; rw [if_neg]; simpa [plaintextTyp] using ht
    simp only [recognise]
    rw [lift_ok_bind rfl]
    simp only
    rw [lift_ok_bind hv, hf]
    rfl
  rw [this]
  exact runs_pure

/-- A message with a body, addresses and an extra header. -/
example : World.msg.WF Toy.crypto.f64 ∧ World.msg.typ = b!"application/didcomm-plain+json" ∧ NotEnvelope World.msg ∧
    World.msg.fromPrior = none :=
  ⟨World.msg_wf, by decide, World.msg_notEnvelope, rfl⟩

set_option maxRecDepth 100000 in
/-- A message with a `from_prior` issued by Alice. -/
example : ∃ (m : Message) (tr : List Event) (out : Str), SeesDocsOf World.bobEnv World.aliceEnv ∧ m.WF Toy.crypto.f64 ∧
    m.typ = b!"application/didcomm-plain+json" ∧ NotEnvelope m ∧ m.fromPrior.isSome = true ∧
    Answers World.aliceEnv tr ∧ Runs (packPlaintext Toy.crypto m) tr (.ok out) := by
  obtain ⟨tr, ⟨jwt, out⟩, h, ha, hk⟩ := World.of_test (E := World.aliceEnv)
    (p := do
      let (jwt, _) ← FromPrior.pack Toy.crypto { iss := World.alice, sub := World.bob } none
      let out ← packPlaintext Toy.crypto { id := [], type_ := [], body := .null, fromPrior := some jwt }
      pure (jwt, out))
    (P := fun x => validUtf8 x.1) (by decide +kernel)
  simp only [runs_bind_ok] at h
  obtain ⟨⟨jwt', _⟩, t1, _, rfl, _, out', t2, t3, rfl, h, hx⟩ := h
  obtain ⟨rfl, hx⟩ := runs_pure.1 hx
  cases hx
  have hne : ∀ (j : Str), NotEnvelope { id := [], type_ := [], body := .null, fromPrior := some j } := fun _ =>
    ⟨⟨b!"iv", by simp, by simp⟩, ⟨b!"payload", by simp, by simp⟩⟩
  have hwf : ∀ (j : Str), validUtf8 j = true →
      Message.WF Toy.crypto.f64 { id := [], type_ := [], body := .null, fromPrior := some j } := by
    intro j hj
    refine ⟨by rfl, by rfl, by rfl, trivial, by simp [Value.depth], ?_, ?_, ?_, ?_, ?_, trivial, by simp [Value.depthM],
      by simp, by simp, ?_⟩
    all_goals intro s h; cases h
    exact hj
  exact ⟨_, t2, out, World.bob_sees, hwf _ hk, rfl, hne _, rfl, fun e he => ha e (by simp [he]), h⟩

/-! ## C02: signed -/

/-- C02: a signed message is unpacked to the same message, authenticated and non-repudiable, with the key
id that packing reported, and with the packed text as the signed message. -/
theorem C02_signed_roundtrip (E E' : Env) (m : Message) (signBy : Str) (opts : UnpackOptions) (tr : List Event)
    (out kid : Str) (law : C.Lawful pairs) (hs : SeesDocsOf E' E) (hh : HonestSecrets E)
    (hwire : WireParty E (didOf signBy)) (hfit : KeysFit C pairs E (didOf signBy))
    (hw : m.WF C.f64) (ht : m.typ = b!"application/didcomm-plain+json")
    (ha : Answers E tr) (h : Runs (packSigned C m signBy) tr (.ok (out, kid))) :
    ∃ fp k alg, PriorOf C m fp k ∧ SignatureOf C m (some kid) (some alg) (some out) ∧
      Returns E' (unpack C out opts) (m, {
        authenticated := true, nonRepudiation := true, signFrom := some kid, signAlg := some alg,
        signedMessage := some out, fromPrior := fp, fromPriorIssuerKid := k }) := by
  obtain ⟨fp, k, sa, h1, h2, h3, h4, -, -⟩ := packSigned_gives law hs hh hw ht hwire hfit ha h
  refine ⟨fp, k, sa, h1, h2, Gives.returns ?_⟩
  rw [unpack_not_jwe h4]
  exact h3 {} ⟨rfl, rfl, rfl, rfl, rfl, rfl⟩

/-- Alice signs. -/
example : ∃ tr out kid, SeesDocsOf World.bobEnv World.aliceEnv ∧ HonestSecrets World.aliceEnv ∧
    Toy.crypto.Lawful Toy.pairs ∧ WireParty World.aliceEnv (didOf World.alice) ∧
    KeysFit Toy.crypto Toy.pairs World.aliceEnv (didOf World.alice) ∧ World.msg.WF Toy.crypto.f64 ∧
    Answers World.aliceEnv tr ∧ Runs (packSigned Toy.crypto World.msg World.alice) tr (.ok (out, kid)) ∧
    kid = b!"did:example:alice#ed" := by
  obtain ⟨tr, ⟨out, kid⟩, h, ha, hk⟩ := World.of_test (E := World.aliceEnv)
    (p := packSigned Toy.crypto World.msg World.alice)
    (P := fun x => decide (x.2 = b!"did:example:alice#ed")) (by decide +kernel)
  exact ⟨tr, out, kid, World.bob_sees, World.honest _ _, Toy.lawful, World.wire_alice, World.fit_alice, World.msg_wf,
    ha, h, of_decide_eq_true hk⟩

/-! ## C03–C06: encrypted -/

/-- C03: an anonymously encrypted message, not wrapped in a forward, is unpacked to the same message by
every receiver who has some of the secrets. -/
theorem C03_anoncrypt_roundtrip (E E' : Env) (m : Message) (to : Str) (opts : PackEncryptedOptions)
    (uopts : UnpackOptions) (tr : List Event) (out : Str) (md : PackEncryptedMetadata)
    (law : C.Lawful pairs) (hs : SeesDocsOf E' E)
    (hwire : WireParty E (didOf to)) (hopen : Opens C pairs E' E (didOf to) md.toKids)
    (hw : m.WF C.f64) (ht : m.typ = b!"application/didcomm-plain+json") (hn : NotEnvelope m)
    (hu : NotUnwrapped uopts.unwrapReWrappingForward m) (ha : Answers E tr)
    (h : Runs (packEncrypted C m to none none opts) tr (.ok (out, md))) (hf : md.messagingService = none) :
    ∃ fp k, PriorOf C m fp k ∧
      Returns E' (unpack C out uopts) (m, {
        encrypted := true, anonymousSender := true, encryptedToKids := some md.toKids,
        encAlgAnon := some opts.encAlgAnon, fromPrior := fp, fromPriorIssuerKid := k }) := by
  obtain ⟨t1, t2, t3, inner, sk, env, fk, tk, w, rfl, -, h1, h2, -, hw'⟩ := packEncrypted_ok.1 h
  simp only [answers_append] at ha
  rcases hw' with ⟨-, rfl, rfl⟩ | ⟨svc, -, rfl⟩
  rotate_left
  · cases hf
  rcases packInner_ok.1 h1 with ⟨-, rfl, q1⟩ | ⟨s, k, hc, -⟩
  rotate_left
  · cases hc
  rcases packCrypt_ok.1 h2 with ⟨-, rfl, q2⟩ | ⟨s, k, hc, -⟩
  rotate_left
  · cases hc
  obtain ⟨fp, k, g1, g2, g3, g4, g5⟩ := packPlain_gives hs hw ht hn ha.1.1 q1
  exact ⟨fp, k, g1, (anoncrypt_gives law hwire hopen uopts ⟨g3, g5, g2⟩
    (fun hx => not_forward_message g4 (hu hx)) ha.1.2 q2).returns⟩

/-- Alice encrypts anonymously for two keys of Bob. -/
example : ∃ tr out md, SeesDocsOf World.bobEnv World.aliceEnv ∧ HonestSecrets World.aliceEnv ∧
    Toy.crypto.Lawful Toy.pairs ∧ WireParty World.aliceEnv (didOf World.alice) ∧
    KeysFit Toy.crypto Toy.pairs World.aliceEnv (didOf World.alice) ∧ WireParty World.aliceEnv (didOf World.bob) ∧
    Opens Toy.crypto Toy.pairs World.bobEnv World.aliceEnv (didOf World.bob) md.toKids ∧
    World.msg.WF Toy.crypto.f64 ∧ NotEnvelope World.msg ∧ NotUnwrapped true World.msg ∧ Answers World.aliceEnv tr ∧
    Runs (packEncrypted Toy.crypto World.msg World.bob none none { forward := false }) tr (.ok (out, md)) ∧
    md.messagingService = none := by
  obtain ⟨tr, ⟨out, md⟩, h, ha, hk⟩ := World.of_test (E := World.aliceEnv)
    (p := packEncrypted Toy.crypto World.msg World.bob none none { forward := false })
    (P := fun x => decide (x.2.messagingService = none ∧ x.2.toKids = [b!"did:example:bob#x1", b!"did:example:bob#x2"])) (by decide +kernel)
  obtain ⟨hk1, hk2⟩ := of_decide_eq_true hk
  simp only at hk1 hk2
  exact ⟨tr, out, md, World.bob_sees, World.honest _ _, Toy.lawful, World.wire_alice, World.fit_alice, World.wire_bob,
    World.bob_opens (by rw [hk2]; decide) (by rw [hk2]; decide), World.msg_wf, World.msg_notEnvelope,
    World.msg_notUnwrapped _, ha, h, hk1⟩

/-- C04: an encrypted and authenticated message is unpacked to the same message; sender and recipient keys
are those that packing reported. -/
theorem C04_authcrypt_roundtrip (E E' : Env) (m : Message) (to from_ : Str) (opts : PackEncryptedOptions)
    (uopts : UnpackOptions) (tr : List Event) (out : Str) (md : PackEncryptedMetadata)
    (law : C.Lawful pairs) (hs : SeesDocsOf E' E) (hh : HonestSecrets E)
    (hwire : WireParty E (didOf to)) (hopen : Opens C pairs E' E (didOf to) md.toKids)
    (hfw : WireParty E (didOf from_)) (hfit : KeysFit C pairs E (didOf from_))
    (hw : m.WF C.f64) (ht : m.typ = b!"application/didcomm-plain+json") (hn : NotEnvelope m) (ha : Answers E tr)
    (h : Runs (packEncrypted C m to (some from_) none opts) tr (.ok (out, md)))
    (hp : opts.protectSender = false) (hf : md.messagingService = none) :
    ∃ fp k fromKid, PriorOf C m fp k ∧ md.fromKid = some fromKid ∧
      Returns E' (unpack C out uopts) (m, {
        encrypted := true, authenticated := true, encryptedFromKid := some fromKid,
        encryptedToKids := some md.toKids, encAlgAuth := some opts.encAlgAuth, fromPrior := fp,
        fromPriorIssuerKid := k }) := by
  obtain ⟨t1, t2, t3, inner, sk, env, fk, tk, w, rfl, -, h1, h2, -, hw'⟩ := packEncrypted_ok.1 h
  simp only [answers_append] at ha
  rcases hw' with ⟨-, rfl, rfl⟩ | ⟨svc, -, rfl⟩
  rotate_left
  · cases hf
  rcases packInner_ok.1 h1 with ⟨-, rfl, q1⟩ | ⟨s, k, hc, -⟩
  rotate_left
  · cases hc
  rcases packCrypt_ok.1 h2 with ⟨hc, -⟩ | ⟨f, fromKid, hc, rfl, q2⟩
  · cases hc
  cases hc
  obtain ⟨fp, k, g1, g2, g3, g4, g5⟩ := packPlain_gives hs hw ht hn ha.1.1 q1
  have := (authcrypt_gives law hs hh hwire hopen hfw hfit uopts ⟨g3, g5, g2⟩ ha.1.2 q2).returns
  rw [hp] at this
  cases opts.encAlgAuth
  exact ⟨fp, k, fromKid, g1, rfl, this⟩

/-- Alice encrypts for Bob. -/
example : ∃ tr out md, SeesDocsOf World.bobEnv World.aliceEnv ∧ HonestSecrets World.aliceEnv ∧
    Toy.crypto.Lawful Toy.pairs ∧ WireParty World.aliceEnv (didOf World.alice) ∧
    KeysFit Toy.crypto Toy.pairs World.aliceEnv (didOf World.alice) ∧ WireParty World.aliceEnv (didOf World.bob) ∧
    Opens Toy.crypto Toy.pairs World.bobEnv World.aliceEnv (didOf World.bob) md.toKids ∧
    World.msg.WF Toy.crypto.f64 ∧ NotEnvelope World.msg ∧ NotUnwrapped true World.msg ∧ Answers World.aliceEnv tr ∧
    Runs (packEncrypted Toy.crypto World.msg World.bob (some World.alice) none { forward := false }) tr (.ok (out, md)) ∧
    md.messagingService = none := by
  obtain ⟨tr, ⟨out, md⟩, h, ha, hk⟩ := World.of_test (E := World.aliceEnv)
    (p := packEncrypted Toy.crypto World.msg World.bob (some World.alice) none { forward := false })
    (P := fun x => decide (x.2.messagingService = none ∧ x.2.toKids = [b!"did:example:bob#p1"])) (by decide +kernel)
  obtain ⟨hk1, hk2⟩ := of_decide_eq_true hk
  simp only at hk1 hk2
  exact ⟨tr, out, md, World.bob_sees, World.honest _ _, Toy.lawful, World.wire_alice, World.fit_alice, World.wire_bob,
    World.bob_opens (by rw [hk2]; decide) (by rw [hk2]; decide), World.msg_wf, World.msg_notEnvelope,
    World.msg_notUnwrapped _, ha, h, hk1⟩

/-- C05: with `protect_sender` the doubly encrypted message is unpacked to the same message, and both layers
are reported. -/
theorem C05_protect_sender_roundtrip (E E' : Env) (m : Message) (to from_ : Str) (opts : PackEncryptedOptions)
    (uopts : UnpackOptions) (tr : List Event) (out : Str) (md : PackEncryptedMetadata)
    (law : C.Lawful pairs) (hs : SeesDocsOf E' E) (hh : HonestSecrets E)
    (hwire : WireParty E (didOf to)) (hopen : Opens C pairs E' E (didOf to) md.toKids)
    (hfw : WireParty E (didOf from_)) (hfit : KeysFit C pairs E (didOf from_))
    (hw : m.WF C.f64) (ht : m.typ = b!"application/didcomm-plain+json") (hn : NotEnvelope m) (ha : Answers E tr)
    (h : Runs (packEncrypted C m to (some from_) none opts) tr (.ok (out, md)))
    (hp : opts.protectSender = true) (hf : md.messagingService = none) :
    ∃ fp k fromKid, PriorOf C m fp k ∧ md.fromKid = some fromKid ∧
      Returns E' (unpack C out uopts) (m, {
        encrypted := true, authenticated := true, anonymousSender := true, encryptedFromKid := some fromKid,
        encryptedToKids := some md.toKids, encAlgAuth := some opts.encAlgAuth, encAlgAnon := some opts.encAlgAnon,
        fromPrior := fp, fromPriorIssuerKid := k }) := by
  obtain ⟨t1, t2, t3, inner, sk, env, fk, tk, w, rfl, -, h1, h2, -, hw'⟩ := packEncrypted_ok.1 h
  simp only [answers_append] at ha
  rcases hw' with ⟨-, rfl, rfl⟩ | ⟨svc, -, rfl⟩
  rotate_left
  · cases hf
  rcases packInner_ok.1 h1 with ⟨-, rfl, q1⟩ | ⟨s, k, hc, -⟩
  rotate_left
  · cases hc
  rcases packCrypt_ok.1 h2 with ⟨hc, -⟩ | ⟨f, fromKid, hc, rfl, q2⟩
  · cases hc
  cases hc
  obtain ⟨fp, k, g1, g2, g3, g4, g5⟩ := packPlain_gives hs hw ht hn ha.1.1 q1
  have := (authcrypt_gives law hs hh hwire hopen hfw hfit uopts ⟨g3, g5, g2⟩ ha.1.2 q2).returns
  rw [hp] at this
  cases opts.encAlgAuth
  exact ⟨fp, k, fromKid, g1, rfl, this⟩

/-- Alice hides the sender. -/
example : ∃ tr out md, SeesDocsOf World.bobEnv World.aliceEnv ∧ HonestSecrets World.aliceEnv ∧
    Toy.crypto.Lawful Toy.pairs ∧ WireParty World.aliceEnv (didOf World.alice) ∧
    KeysFit Toy.crypto Toy.pairs World.aliceEnv (didOf World.alice) ∧ WireParty World.aliceEnv (didOf World.bob) ∧
    Opens Toy.crypto Toy.pairs World.bobEnv World.aliceEnv (didOf World.bob) md.toKids ∧
    World.msg.WF Toy.crypto.f64 ∧ NotEnvelope World.msg ∧ NotUnwrapped true World.msg ∧ Answers World.aliceEnv tr ∧
    Runs (packEncrypted Toy.crypto World.msg World.bob (some World.alice) none { forward := false, protectSender := true }) tr (.ok (out, md)) ∧
    md.messagingService = none := by
  obtain ⟨tr, ⟨out, md⟩, h, ha, hk⟩ := World.of_test (E := World.aliceEnv)
    (p := packEncrypted Toy.crypto World.msg World.bob (some World.alice) none { forward := false, protectSender := true })
    (P := fun x => decide (x.2.messagingService = none ∧ x.2.toKids = [b!"did:example:bob#p1"])) (by decide +kernel)
  obtain ⟨hk1, hk2⟩ := of_decide_eq_true hk
  simp only at hk1 hk2
  exact ⟨tr, out, md, World.bob_sees, World.honest _ _, Toy.lawful, World.wire_alice, World.fit_alice, World.wire_bob,
    World.bob_opens (by rw [hk2]; decide) (by rw [hk2]; decide), World.msg_wf, World.msg_notEnvelope,
    World.msg_notUnwrapped _, ha, h, hk1⟩

/-- C06: sign-then-encrypt, anonymous: the signature is reported too. -/
theorem C06_sign_anoncrypt_roundtrip (E E' : Env) (m : Message) (to signBy : Str) (opts : PackEncryptedOptions)
    (uopts : UnpackOptions) (tr : List Event) (out : Str) (md : PackEncryptedMetadata)
    (law : C.Lawful pairs) (hs : SeesDocsOf E' E) (hh : HonestSecrets E)
    (hwire : WireParty E (didOf to)) (hopen : Opens C pairs E' E (didOf to) md.toKids)
    (hsw : WireParty E (didOf signBy)) (hsfit : KeysFit C pairs E (didOf signBy))
    (hw : m.WF C.f64) (ht : m.typ = b!"application/didcomm-plain+json") (ha : Answers E tr)
    (h : Runs (packEncrypted C m to none (some signBy) opts) tr (.ok (out, md))) (hf : md.messagingService = none) :
    ∃ fp k signKid alg jws, PriorOf C m fp k ∧ md.signByKid = some signKid ∧
      SignatureOf C m (some signKid) (some alg) (some jws) ∧
      Returns E' (unpack C out uopts) (m, {
        encrypted := true, authenticated := true, nonRepudiation := true, anonymousSender := true,
        encryptedToKids := some md.toKids, encAlgAnon := some opts.encAlgAnon, signFrom := some signKid,
        signAlg := some alg, signedMessage := some jws, fromPrior := fp, fromPriorIssuerKid := k }) := by
  obtain ⟨t1, t2, t3, inner, sk, env, fk, tk, w, rfl, -, h1, h2, -, hw'⟩ := packEncrypted_ok.1 h
  simp only [answers_append] at ha
  rcases hw' with ⟨-, rfl, rfl⟩ | ⟨svc, -, rfl⟩
  rotate_left
  · cases hf
  rcases packInner_ok.1 h1 with ⟨hc, -⟩ | ⟨s, signKid, hc, rfl, q1⟩
  · cases hc
  cases hc
  rcases packCrypt_ok.1 h2 with ⟨-, rfl, q2⟩ | ⟨f, fromKid, hc, -⟩
  rotate_left
  · cases hc
  obtain ⟨fp, k, sa, g1, g2, g3, g4, g5, g6⟩ := packSigned_gives law hs hh hw ht hsw hsfit ha.1.1 q1
  exact ⟨fp, k, signKid, sa, inner, g1, rfl, g2,
    (anoncrypt_gives law hwire hopen uopts ⟨g4, g6, g3⟩ (fun _ => not_forwarded g5) ha.1.2 q2).returns⟩

/-- Alice signs and encrypts anonymously. -/
example : ∃ tr out md, SeesDocsOf World.bobEnv World.aliceEnv ∧ HonestSecrets World.aliceEnv ∧
    Toy.crypto.Lawful Toy.pairs ∧ WireParty World.aliceEnv (didOf World.alice) ∧
    KeysFit Toy.crypto Toy.pairs World.aliceEnv (didOf World.alice) ∧ WireParty World.aliceEnv (didOf World.bob) ∧
    Opens Toy.crypto Toy.pairs World.bobEnv World.aliceEnv (didOf World.bob) md.toKids ∧
    World.msg.WF Toy.crypto.f64 ∧ NotEnvelope World.msg ∧ NotUnwrapped true World.msg ∧ Answers World.aliceEnv tr ∧
    Runs (packEncrypted Toy.crypto World.msg World.bob none (some World.alice) { forward := false }) tr (.ok (out, md)) ∧
    md.messagingService = none := by
  obtain ⟨tr, ⟨out, md⟩, h, ha, hk⟩ := World.of_test (E := World.aliceEnv)
    (p := packEncrypted Toy.crypto World.msg World.bob none (some World.alice) { forward := false })
    (P := fun x => decide (x.2.messagingService = none ∧ x.2.toKids = [b!"did:example:bob#x1", b!"did:example:bob#x2"])) (by decide +kernel)
  obtain ⟨hk1, hk2⟩ := of_decide_eq_true hk
  simp only at hk1 hk2
  exact ⟨tr, out, md, World.bob_sees, World.honest _ _, Toy.lawful, World.wire_alice, World.fit_alice, World.wire_bob,
    World.bob_opens (by rw [hk2]; decide) (by rw [hk2]; decide), World.msg_wf, World.msg_notEnvelope,
    World.msg_notUnwrapped _, ha, h, hk1⟩

/-- C06: sign-then-encrypt, authenticated, with or without `protect_sender`. -/
theorem C06_sign_authcrypt_roundtrip (E E' : Env) (m : Message) (to from_ signBy : Str) (opts : PackEncryptedOptions)
    (uopts : UnpackOptions) (tr : List Event) (out : Str) (md : PackEncryptedMetadata)
    (law : C.Lawful pairs) (hs : SeesDocsOf E' E) (hh : HonestSecrets E)
    (hwire : WireParty E (didOf to)) (hopen : Opens C pairs E' E (didOf to) md.toKids)
    (hfw : WireParty E (didOf from_)) (hfit : KeysFit C pairs E (didOf from_))
    (hsw : WireParty E (didOf signBy)) (hsfit : KeysFit C pairs E (didOf signBy))
    (hw : m.WF C.f64) (ht : m.typ = b!"application/didcomm-plain+json") (ha : Answers E tr)
    (h : Runs (packEncrypted C m to (some from_) (some signBy) opts) tr (.ok (out, md)))
    (hf : md.messagingService = none) :
    ∃ fp k fromKid signKid alg jws, PriorOf C m fp k ∧ md.fromKid = some fromKid ∧ md.signByKid = some signKid ∧
      SignatureOf C m (some signKid) (some alg) (some jws) ∧
      Returns E' (unpack C out uopts) (m, {
        encrypted := true, authenticated := true, nonRepudiation := true, anonymousSender := opts.protectSender,
        encryptedFromKid := some fromKid, encryptedToKids := some md.toKids, encAlgAuth := some opts.encAlgAuth,
        encAlgAnon := if opts.protectSender then some opts.encAlgAnon else none, signFrom := some signKid,
        signAlg := some alg, signedMessage := some jws, fromPrior := fp, fromPriorIssuerKid := k }) := by
  obtain ⟨t1, t2, t3, inner, sk, env, fk, tk, w, rfl, -, h1, h2, -, hw'⟩ := packEncrypted_ok.1 h
  simp only [answers_append] at ha
  rcases hw' with ⟨-, rfl, rfl⟩ | ⟨svc, -, rfl⟩
  rotate_left
  · cases hf
  rcases packInner_ok.1 h1 with ⟨hc, -⟩ | ⟨s, signKid, hc, rfl, q1⟩
  · cases hc
  cases hc
  rcases packCrypt_ok.1 h2 with ⟨hc, -⟩ | ⟨f, fromKid, hc, rfl, q2⟩
  · cases hc
  cases hc
  obtain ⟨fp, k, sa, g1, g2, g3, g4, g5, g6⟩ := packSigned_gives law hs hh hw ht hsw hsfit ha.1.1 q1
  have := (authcrypt_gives law hs hh hwire hopen hfw hfit uopts ⟨g4, g6, g3⟩ ha.1.2 q2).returns
  refine ⟨fp, k, fromKid, signKid, sa, inner, g1, rfl, rfl, g2, ?_⟩
  cases opts.encAlgAuth
  cases hps : opts.protectSender <;> rw [hps] at this <;> exact this

set_option maxRecDepth 100000 in
/-- Alice signs, encrypts and hides the sender. -/
example : ∃ tr out md, SeesDocsOf World.bobEnv World.aliceEnv ∧ HonestSecrets World.aliceEnv ∧
    Toy.crypto.Lawful Toy.pairs ∧ WireParty World.aliceEnv (didOf World.alice) ∧
    KeysFit Toy.crypto Toy.pairs World.aliceEnv (didOf World.alice) ∧ WireParty World.aliceEnv (didOf World.bob) ∧
    Opens Toy.crypto Toy.pairs World.bobEnv World.aliceEnv (didOf World.bob) md.toKids ∧
    World.msg.WF Toy.crypto.f64 ∧ NotEnvelope World.msg ∧ NotUnwrapped true World.msg ∧ Answers World.aliceEnv tr ∧
    Runs (packEncrypted Toy.crypto World.msg World.bob (some World.alice) (some World.alice) { forward := false, protectSender := true }) tr (.ok (out, md)) ∧
    md.messagingService = none := by
  obtain ⟨tr, ⟨out, md⟩, h, ha, hk⟩ := World.of_test (E := World.aliceEnv)
    (p := packEncrypted Toy.crypto World.msg World.bob (some World.alice) (some World.alice) { forward := false, protectSender := true })
    (P := fun x => decide (x.2.messagingService = none ∧ x.2.toKids = [b!"did:example:bob#p1"])) (by decide +kernel)
  obtain ⟨hk1, hk2⟩ := of_decide_eq_true hk
  simp only at hk1 hk2
  exact ⟨tr, out, md, World.bob_sees, World.honest _ _, Toy.lawful, World.wire_alice, World.fit_alice, World.wire_bob,
    World.bob_opens (by rw [hk2]; decide) (by rw [hk2]; decide), World.msg_wf, World.msg_notEnvelope,
    World.msg_notUnwrapped _, ha, h, hk1⟩

/-! ## C07: `from_prior` -/

theorem splitOn_plain {c : UInt8} {a : Str} (h : ∀ b ∈ a, b ≠ c) : splitOn c a = [a] := by
  induction a with
  | nil => rfl
  | cons b r ih =>
    simp only [splitOn, if_neg (h b (by simp)), ih (fun x hx => h x (by simp [hx]))]

theorem splitOn_dotJoin {c : UInt8} {a r : Str} (h : ∀ b ∈ a, b ≠ c) : splitOn c (a ++ c :: r) = a :: splitOn c r := by
  induction a with
  | nil => simp [splitOn]
  | cons b a ih =>
    simp only [List.cons_append, splitOn, if_neg (h b (by simp)), ih (fun x hx => h x (by simp [hx]))]

/-- A JWT signed with a key that a document lists for authentication is accepted, whatever the claims. -/
theorem jwt_gives {E' : Env} {doc : DIDDoc} {kid : Str} {vm : VerificationMethod} {c : Curve} {s p : C.Key} {alg : JwsAlg}
    {f : FromPrior} {jwt : Str} (law : C.Lawful pairs) (hd : E'.resolve (didOf kid) = .ok (some doc))
    (hka : kid ∈ doc.authentication) (w1 : HasFragment kid) (w3 : Plain kid) (f1 : methodOf doc kid = some vm)
    (f2 : vm.asKeyPair C = .ok ⟨c, p⟩) (f3 : pairs c s p) (h5 : signAlgFor c = .ok alg) (hw : f.WF)
    (h6 : jwsSignCompact C f.toJson.print kid c s jwtTyp alg = .ok jwt) :
    Gives E' (FromPrior.unpack C jwt) (.ok (f, kid)) := by
  obtain ⟨g1, g2, g3, -⟩ := signAlgFor_ok h5
  obtain ⟨st, sig, e1, e2, rfl⟩ := jwsSignCompact_ok.1 h6
  have nodot : ∀ (x : Bytes), ∀ b ∈ B64.encode x, b ≠ 0x2E := fun x b hb => isSym_ne_dot b (B64.encode_sym x b hb)
  refine gives_of_run (tr := [evResolve (didOrUrl kid).1 (some doc)]) (FromPrior.unpack_ok.2
    ⟨⟨B64.encode (CompactHeader.toJson ⟨jwtTyp, alg, kid⟩).print, ⟨jwtTyp, alg, kid⟩, B64.encode f.toJson.print,
      B64.encode sig⟩, doc, vm, c, p, f.toJson.print, ?_, rfl, (didOrUrl_isSome kid).2 w1, rfl, rfl, hka, ?_, g3,
      as_of_pair f2, ?_, B64.decode_encode _, FromPrior.print_valid hw, fromPrior_print f hw⟩) ?_ (by simp)
  · unfold parseCompact
    simp only [dotJoin, List.append_assoc, List.cons_append]
    rw [splitOn_dotJoin (nodot _), splitOn_dotJoin (nodot _), splitOn_plain (nodot _)]
    simp only [B64.decode_encode, okOr, compactHeader_print jwtTyp alg kid (plain_of_ascii (by decide)) g1 g2 w3, withKind, bind, Except.bind]
  · rw [find_method]; exact f1
  · simp only [ParsedCompactJWS.verify, e1, okOr, B64.decode_encode, law.verify_sign f3 e2, bind, Except.bind]
  · simp only [answers_cons, answers_nil, and_true, didOrUrl_fst]
    exact hd.symm

/-- C07: the JWT that `FromPrior::pack` returns is unpacked to the same claims and the same issuer key. -/
theorem C07_from_prior_roundtrip (E E' : Env) (f : FromPrior) (issuerKid : Option Str) (tr : List Event) (jwt kid : Str)
    (law : C.Lawful pairs) (hs : SeesDocsOf E' E) (hh : HonestSecrets E)
    (hwire : WireParty E f.iss) (hfit : KeysFit C pairs E f.iss) (hw : f.WF)
    (ha : Answers E tr) (h : Runs (f.pack C issuerKid) tr (.ok (jwt, kid))) :
    Returns E' (FromPrior.unpack C jwt) (f, kid) := by
  obtain ⟨doc, kids, found, secret, pair, alg, h1, rfl, h2, h3, h4, h5, h6⟩ := FromPrior.pack_ok.1 h
  simp only [answers_cons, answers_nil, and_true] at ha
  obtain ⟨ha1, ha2, ha3⟩ := ha
  have ha1 : E.resolve f.iss = .ok (some doc) := ha1.symm
  have ha2 : E.findSecrets kids = .ok found := ha2.symm
  have ha3 : E.getSecret kid = .ok (some secret) := ha3.symm
  have hkm : kid ∈ kids := hh _ _ ha2 _ (List.mem_of_head? h3)
  have hka : kid ∈ doc.authentication := by
    unfold FromPrior.authKids at h2
    split at h2
    · split at h2
      · cases h2
      · split at h2
        · cases h2
        · simp only [res_bind_ok, okOr_eq_ok, find?_eq_self, Except.ok.injEq] at h2
          obtain ⟨_, ⟨rfl, hq⟩, rfl⟩ := h2
          simp only [List.mem_singleton] at hkm
          rw [hkm]; exact hq
    · cases h2; exact hkm
  obtain ⟨w1, w2, w3⟩ := hwire doc ha1 kid (by simp [hka])
  obtain ⟨c, s⟩ := pair
  obtain ⟨vm, p, f1, f2, f3⟩ := hfit doc ha1 kid (by simp [hka]) secret c s ha3 h4
  refine (jwt_gives law ?_ hka w1 w3 f1 f2 f3 h5 hw h6).returns
  rw [w2]; exact hs _ _ ha1

/-- Alice issues a `from_prior` for Bob's DID. -/
example : ∃ tr jwt kid, SeesDocsOf World.bobEnv World.aliceEnv ∧ HonestSecrets World.aliceEnv ∧
    Toy.crypto.Lawful Toy.pairs ∧ WireParty World.aliceEnv World.alice ∧
    KeysFit Toy.crypto Toy.pairs World.aliceEnv World.alice ∧
    FromPrior.WF { iss := World.alice, sub := World.bob, exp := some 1234 } ∧ Answers World.aliceEnv tr ∧
    Runs (FromPrior.pack Toy.crypto { iss := World.alice, sub := World.bob, exp := some 1234 }
      (some b!"did:example:alice#es")) tr (.ok (jwt, kid)) ∧ kid = b!"did:example:alice#es" := by
  obtain ⟨tr, ⟨jwt, kid⟩, h, ha, hk⟩ := World.of_test (E := World.aliceEnv)
    (p := FromPrior.pack Toy.crypto { iss := World.alice, sub := World.bob, exp := some 1234 }
      (some b!"did:example:alice#es"))
    (P := fun x => decide (x.2 = b!"did:example:alice#es")) (by decide +kernel)
  refine ⟨tr, jwt, kid, World.bob_sees, World.honest _ _, Toy.lawful, World.wire_alice, World.fit_alice, ?_, ha, h,
    of_decide_eq_true hk⟩
  constructor
  · decide
  · decide
  · intro s h; cases h
  · intro s h; cases h

end DIDComm
