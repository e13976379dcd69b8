import Verif.Proofs.SendOn
import Verif.Props.Reading
import Verif.Props.ReadingDocs
import Verif.Props.Documents
import Verif.Props.Negative
import Verif.Props.OutcomeUnpack

/-!
# C92: what was received can be sent on

Whatever text a message, a `from_prior`, a document or a secret was read from, it can be packed or written again, and arrives
unchanged.  The conditions that remain are those of sending in general: C01–C07 and C65, C66.
-/

set_option autoImplicit false

namespace DIDComm

variable {C : Crypto} {pairs : Curve → C.Key → C.Key → Prop}

/-- What `unpack` returns is an ordinary plaintext message. -/
theorem unpacked_wf (hf : PrintsFloats C) {text : Str} {opts : UnpackOptions} {tr : List Event} {m : Message} {md : UnpackMetadata}
    (h : Runs (unpack C text opts) tr (.ok (m, md))) (hb : ReadBack C.f64 m.doubles) :
    m.WF C.f64 ∧ m.typ = b!"application/didcomm-plain+json" := by
  obtain ⟨u, t, -, ht, hm⟩ := C73_unpacked text opts tr m md h
  exact ⟨isMessage_wf hf ht.texts hm hb, (C17_plaintext text opts tr m md h).1⟩

/-- C92: a message that `unpack` returned, from whatever text, is packed as plaintext and unpacked to the same message.  Its
doubles have to be read back as they are printed, and it must not have the members of an envelope. -/
theorem C92_plaintext (hf : PrintsFloats C) (text : Str) (o : UnpackOptions) (t0 : List Event) (m : Message) (md : UnpackMetadata)
    (h0 : Runs (unpack C text o) t0 (.ok (m, md))) (hb : ReadBack C.f64 m.doubles) (hn : NotEnvelope m)
    (E E' : Env) (hs : SeesDocsOf E' E) (uopts : UnpackOptions) (tr : List Event) (out : Str)
    (ha : Answers E tr) (h : Runs (packPlaintext C m) tr (.ok out)) :
    ∃ fp k, PriorOf C m fp k ∧ Returns E' (unpack C out uopts) (m, { fromPrior := fp, fromPriorIssuerKid := k }) := by
  obtain ⟨hw, ht⟩ := unpacked_wf hf h0 hb
  exact C01_plaintext_roundtrip E E' m uopts tr out hs hw ht hn ha h

/-- C92: a message that `unpack` returned is signed and unpacked to the same message, even if it has the members of an envelope. -/
theorem C92_signed (hf : PrintsFloats C) (text : Str) (o : UnpackOptions) (t0 : List Event) (m : Message) (md : UnpackMetadata)
    (h0 : Runs (unpack C text o) t0 (.ok (m, md))) (hb : ReadBack C.f64 m.doubles)
    (E E' : Env) (law : C.Lawful pairs) (hs : SeesDocsOf E' E) (hh : HonestSecrets E) (signBy : Str)
    (hwire : WireParty E (didOf signBy)) (hfit : KeysFit C pairs E (didOf signBy)) (uopts : UnpackOptions) (tr : List Event)
    (out kid : Str) (ha : Answers E tr) (h : Runs (packSigned C m signBy) tr (.ok (out, kid))) :
    ∃ fp k alg, PriorOf C m fp k ∧ SignatureOf C m (some kid) (some alg) (some out) ∧
      Returns E' (unpack C out uopts) (m, {
        authenticated := true, nonRepudiation := true, signFrom := some kid, signAlg := some alg,
        signedMessage := some out, fromPrior := fp, fromPriorIssuerKid := k }) := by
  obtain ⟨hw, ht⟩ := unpacked_wf hf h0 hb
  exact C02_signed_roundtrip E E' m signBy uopts tr out kid law hs hh hwire hfit hw ht ha h

/-- The round trips C03–C06 in one: an ordinary message is encrypted in any way and unpacked to the same message. -/
theorem encrypted_roundTrip (m : Message) (hwf : m.WF C.f64) (ht : m.typ = b!"application/didcomm-plain+json")
    (E E' : Env) (law : C.Lawful pairs) (hs : SeesDocsOf E' E) (hh : HonestSecrets E) (to : Str) (from_ signBy : Option Str)
    (opts : PackEncryptedOptions) (uopts : UnpackOptions) (tr : List Event) (out : Str) (md : PackEncryptedMetadata)
    (hn : signBy = none → NotEnvelope m)
    (hu : from_ = none → signBy = none → NotUnwrapped uopts.unwrapReWrappingForward m)
    (hwire : WireParty E (didOf to)) (hopen : Opens C pairs E' E (didOf to) md.toKids)
    (hw : ∀ d, from_ = some d ∨ signBy = some d → WireParty E (didOf d) ∧ KeysFit C pairs E (didOf d))
    (ha : Answers E tr) (h : Runs (packEncrypted C m to from_ signBy opts) tr (.ok (out, md)))
    (hf' : md.messagingService = none) :
    ∃ fp k alg jws md', PriorOf C m fp k ∧
      SignatureOf C m md.signByKid alg jws ∧ Returns E' (unpack C out uopts) (m, md') ∧
      md' = { encrypted := true, authenticated := from_.isSome || signBy.isSome, nonRepudiation := signBy.isSome,
              anonymousSender := from_.isNone || opts.protectSender, encryptedFromKid := md.fromKid,
              encryptedToKids := some md.toKids, signFrom := md.signByKid, fromPriorIssuerKid := k,
              encAlgAuth := if from_.isSome then some opts.encAlgAuth else none,
              encAlgAnon := if from_.isNone || opts.protectSender then some opts.encAlgAnon else none,
              signAlg := alg, signedMessage := jws, fromPrior := fp } := by
  cases signBy with
  | none =>
    have hsb : md.signByKid = none := by
      obtain ⟨t1, t2, t3, inner, sk, env, fk, tk, w, rfl, -, h1, h2, -, hw'⟩ := packEncrypted_ok.1 h
      rcases packInner_ok.1 h1 with ⟨-, rfl, -⟩ | ⟨s, k, hc, -⟩
      · rcases hw' with ⟨-, rfl, rfl⟩ | ⟨svc, -, rfl⟩ <;> rfl
      · cases hc
    cases from_ with
    | none =>
      obtain ⟨fp, k, h1, h2⟩ := C03_anoncrypt_roundtrip E E' m to opts uopts tr out md law hs hwire hopen hwf ht (hn rfl) (hu rfl rfl) ha h hf'
      have hfk : md.fromKid = none := by
        obtain ⟨t1, t2, t3, inner, sk, env, fk, tk, w, rfl, -, q1, q2, -, hw'⟩ := packEncrypted_ok.1 h
        rcases packCrypt_ok.1 q2 with ⟨-, rfl, -⟩ | ⟨_, _, hc, -⟩
        · rcases hw' with ⟨-, rfl, rfl⟩ | ⟨svc, -, rfl⟩ <;> rfl
        · cases hc
      exact ⟨fp, k, none, none, _, h1, .inl ⟨hsb, rfl, rfl⟩, h2, by rw [hsb, hfk]; rfl⟩
    | some f =>
      obtain ⟨w1, w2⟩ := hw f (.inl rfl)
      cases hp : opts.protectSender with
      | false =>
        obtain ⟨fp, k, fk, h1, h2, h3⟩ := C04_authcrypt_roundtrip E E' m to f opts uopts tr out md law hs hh hwire hopen w1 w2 hwf ht (hn rfl) ha h hp hf'
        exact ⟨fp, k, none, none, _, h1, .inl ⟨hsb, rfl, rfl⟩, h3, by rw [hsb, h2]; rfl⟩
      | true =>
        obtain ⟨fp, k, fk, h1, h2, h3⟩ := C05_protect_sender_roundtrip E E' m to f opts uopts tr out md law hs hh hwire hopen w1 w2 hwf ht (hn rfl) ha h hp hf'
        exact ⟨fp, k, none, none, _, h1, .inl ⟨hsb, rfl, rfl⟩, h3, by rw [hsb, h2]; rfl⟩
  | some s =>
    obtain ⟨s1, s2⟩ := hw s (.inr rfl)
    cases from_ with
    | none =>
      obtain ⟨fp, k, sk, alg, jws, h1, h2, hg, h4⟩ := C06_sign_anoncrypt_roundtrip E E' m to s opts uopts tr out md law hs hh hwire hopen s1 s2 hwf ht ha h hf'
      have hfk : md.fromKid = none := by
        obtain ⟨t1, t2, t3, inner, sk, env, fk, tk, w, rfl, -, q1, q2, -, hw'⟩ := packEncrypted_ok.1 h
        rcases packCrypt_ok.1 q2 with ⟨-, rfl, -⟩ | ⟨_, _, hc, -⟩
        · rcases hw' with ⟨-, rfl, rfl⟩ | ⟨svc, -, rfl⟩ <;> rfl
        · cases hc
      exact ⟨fp, k, some alg, some jws, _, h1, h2 ▸ hg, h4, by rw [h2, hfk]; rfl⟩
    | some f =>
      obtain ⟨w1, w2⟩ := hw f (.inl rfl)
      obtain ⟨fp, k, fk, sk, alg, jws, h1, h2, h3, hg, h5⟩ := C06_sign_authcrypt_roundtrip E E' m to f s opts uopts tr out md law hs hh hwire hopen
        w1 w2 s1 s2 hwf ht ha h hf'
      exact ⟨fp, k, some alg, some jws, _, h1, h3 ▸ hg, h5, by rw [h2, h3]; cases opts.protectSender <;> rfl⟩

/-- C92: a message that `unpack` returned is encrypted in any way and unpacked to the same message.  Unless it is signed it must
not have the members of an envelope, and if it is neither signed nor from somebody, it must not be taken for a forward. -/
theorem C92_encrypted (hf : PrintsFloats C) (text : Str) (o : UnpackOptions) (t0 : List Event) (m : Message) (md0 : UnpackMetadata)
    (h0 : Runs (unpack C text o) t0 (.ok (m, md0))) (hb : ReadBack C.f64 m.doubles)
    (E E' : Env) (law : C.Lawful pairs) (hs : SeesDocsOf E' E) (hh : HonestSecrets E) (to : Str) (from_ signBy : Option Str)
    (opts : PackEncryptedOptions) (uopts : UnpackOptions) (tr : List Event) (out : Str) (md : PackEncryptedMetadata)
    (hn : signBy = none → NotEnvelope m)
    (hu : from_ = none → signBy = none → NotUnwrapped uopts.unwrapReWrappingForward m)
    (hwire : WireParty E (didOf to)) (hopen : Opens C pairs E' E (didOf to) md.toKids)
    (hw : ∀ d, from_ = some d ∨ signBy = some d → WireParty E (didOf d) ∧ KeysFit C pairs E (didOf d))
    (ha : Answers E tr) (h : Runs (packEncrypted C m to from_ signBy opts) tr (.ok (out, md)))
    (hf' : md.messagingService = none) :
    ∃ fp k alg jws md', PriorOf C m fp k ∧
      SignatureOf C m md.signByKid alg jws ∧ Returns E' (unpack C out uopts) (m, md') ∧
      md' = { encrypted := true, authenticated := from_.isSome || signBy.isSome, nonRepudiation := signBy.isSome,
              anonymousSender := from_.isNone || opts.protectSender, encryptedFromKid := md.fromKid,
              encryptedToKids := some md.toKids, signFrom := md.signByKid, fromPriorIssuerKid := k,
              encAlgAuth := if from_.isSome then some opts.encAlgAuth else none,
              encAlgAnon := if from_.isNone || opts.protectSender then some opts.encAlgAnon else none,
              signAlg := alg, signedMessage := jws, fromPrior := fp } := by
  obtain ⟨hwf, ht⟩ := unpacked_wf hf h0 hb
  exact encrypted_roundTrip m hwf ht E E' law hs hh to from_ signBy opts uopts tr out md hn hu hwire hopen hw ha h hf'

/-- C92: the claims of a `from_prior` that was unpacked are packed again and unpacked to the same claims. -/
theorem C92_from_prior (jwt0 kid0 : Str) (t0 : List Event) (f : FromPrior) (h0 : Runs (FromPrior.unpack C jwt0) t0 (.ok (f, kid0)))
    (E E' : Env) (law : C.Lawful pairs) (hs : SeesDocsOf E' E) (hh : HonestSecrets E)
    (hwire : WireParty E f.iss) (hfit : KeysFit C pairs E f.iss) (issuerKid : Option Str) (tr : List Event) (jwt kid : Str)
    (ha : Answers E tr) (h : Runs (f.pack C issuerKid) tr (.ok (jwt, kid))) :
    Returns E' (FromPrior.unpack C jwt) (f, kid) := by
  obtain ⟨_, _, _, _, _, b, -, -, -, -, -, -, -, -, -, -, -, -, hj⟩ := FromPrior.unpack_ok.1 h0
  obtain ⟨t, ht, hc⟩ := (C74_claims b f).1 hj
  exact C07_from_prior_roundtrip E E' f issuerKid tr jwt kid law hs hh hwire hfit (isClaims_wf ht.texts hc) ha h

/-- C92: a document that was read is written, and what is written is read as the same document, in Rust and in JavaScript. -/
theorem C92_document (hf : PrintsFloats C) (s : Str) (d : DIDDoc) (h : readDoc (dDIDDoc C.f64) s = .ok d) (hb : ReadBack C.f64 d.doubles) :
    ∃ v, d.toJson = some v ∧ readDoc (dDIDDoc C.f64) v.print = .ok d ∧ wasmDoc C.f64 v.print = .ok (some d) := by
  obtain ⟨t, ht, hi⟩ := (C75_document s d).1 h
  exact C65_round_trip d (isDocument_wf hf ht.texts hi hb)

/-- C92: a secret that was read is read back from what is written for it. -/
theorem C92_secret (hf : PrintsFloats C) (s : Str) (x : Secret) (h : readDoc (dSecret C.f64) s = .ok x) (hb : ReadBack C.f64 x.material.doubles) :
    readDoc (dSecret C.f64) x.toJson.print = .ok x ∧ wasmSecret C.f64 x.toJson.print = .ok (some x) := by
  obtain ⟨t, ht, hi⟩ := (C75_secret s x).1 h
  exact C66_round_trip x (isSecret_wf hf ht.texts hi hb)

/-! ## Examples -/

/-- A message as another implementation may write it: with spaces, an escaped name, equal members, a double. -/
def World.foreign : Str :=
  b!" {\"body\" : {\"b\":1.5e3, \"a\":[], \"a\":null}, \"type\":\"t\\u0041\", \"\\u0069d\":\"1\", \"x\":1, \"x\":[true] }\n"

/-- What is read from it. -/
def World.foreignMsg : Message :=
  { id := b!"1", type_ := b!"tA", body := .obj [(b!"a", .null), (b!"b", .num (.flt b!"1.5e3"))], extraHeaders := [(b!"x", .arr [.bool true])] }

set_option maxRecDepth 100000 in
theorem World.foreign_text : fromJson dJwe World.foreign = .error (.kind .malformed) ∧
    fromJson dJws World.foreign = .error (.kind .malformed) ∧
    fromJson (dMessage Toy.crypto.f64) World.foreign = .ok World.foreignMsg := ⟨by rfl, by rfl, by rfl⟩

theorem World.foreign_read : ∃ tr md, Runs (unpack Toy.crypto World.foreign {}) tr (.ok (World.foreignMsg, md)) := by
  obtain ⟨h, ha⟩ := Prog.run_spec World.env id (unpack Toy.crypto World.foreign {})
  have := C82_accepted World.neverLonger World.printsFloats World.foreign {} World.foreignMsg _ (.bare (.bare World.foreign_text.1
    (.plain (p := none) World.foreign_text.2.1 (.plain (.one World.foreign_text.2.2) rfl rfl)))) _ _ h ha
  rw [this] at h
  exact ⟨_, _, h⟩

/-- It is packed in every way; it has a double, which is read back. -/
example : ReadBack Toy.crypto.f64 World.foreignMsg.doubles ∧ World.foreignMsg.doubles = [b!"1.5e3"] ∧ NotEnvelope World.foreignMsg ∧
    NotUnwrapped true World.foreignMsg ∧ PrintsFloats Toy.crypto ∧
    (∃ tr out, Answers World.aliceEnv tr ∧ Runs (packPlaintext Toy.crypto World.foreignMsg) tr (.ok out)) ∧
    (∃ tr x, Answers World.aliceEnv tr ∧ Runs (packSigned Toy.crypto World.foreignMsg World.alice) tr (.ok x)) ∧
    (∃ tr x, Answers World.aliceEnv tr ∧ x.2.messagingService = none ∧ x.2.toKids = [b!"did:example:bob#p1"] ∧
      Runs (packEncrypted Toy.crypto World.foreignMsg World.bob (some World.alice) (some World.alice)
        { forward := false, protectSender := true }) tr (.ok x)) := by
  refine ⟨by unfold ReadBack; decide, by decide, ⟨⟨b!"iv", by decide, by decide⟩, ⟨b!"payload", by decide, by decide⟩⟩, ?_, World.printsFloats, ?_, ?_, ?_⟩
  · intro _ next v hf
    have := hf.1
    revert this
    decide
  · obtain ⟨tr, out, h, ha, -⟩ := World.of_test (E := World.aliceEnv) (p := packPlaintext Toy.crypto World.foreignMsg)
      (P := fun _ => true) (by decide +kernel)
    exact ⟨tr, out, ha, h⟩
  · obtain ⟨tr, out, h, ha, -⟩ := World.of_test (E := World.aliceEnv) (p := packSigned Toy.crypto World.foreignMsg World.alice)
      (P := fun _ => true) (by decide +kernel)
    exact ⟨tr, out, ha, h⟩
  · obtain ⟨tr, x, h, ha, hk⟩ := World.of_test (E := World.aliceEnv)
      (p := packEncrypted Toy.crypto World.foreignMsg World.bob (some World.alice) (some World.alice) { forward := false, protectSender := true })
      (P := fun x => decide (x.2.messagingService = none ∧ x.2.toKids = [b!"did:example:bob#p1"])) (by decide +kernel)
    exact ⟨tr, x, ha, (of_decide_eq_true hk).1, (of_decide_eq_true hk).2, h⟩

/-- So what Alice signs and encrypts of it arrives. -/
example : ∃ tr x, Runs (packEncrypted Toy.crypto World.foreignMsg World.bob (some World.alice) (some World.alice)
      { forward := false, protectSender := true }) tr (.ok x) ∧ ∃ md, Returns World.bobEnv (unpack Toy.crypto x.1 {}) (World.foreignMsg, md) := by
  obtain ⟨t0, md0, h0⟩ := World.foreign_read
  obtain ⟨tr, x, h, ha, hk⟩ := World.of_test (E := World.aliceEnv)
    (p := packEncrypted Toy.crypto World.foreignMsg World.bob (some World.alice) (some World.alice) { forward := false, protectSender := true })
    (P := fun x => decide (x.2.messagingService = none ∧ x.2.toKids = [b!"did:example:bob#p1"])) (by decide +kernel)
  obtain ⟨k1, k2⟩ := of_decide_eq_true hk
  obtain ⟨_, _, _, _, md', -, -, h', -⟩ := C92_encrypted World.printsFloats World.foreign {} t0 World.foreignMsg md0 h0 (by unfold ReadBack; decide)
    World.aliceEnv World.bobEnv Toy.lawful World.bob_sees (World.honest _ _) World.bob (some World.alice) (some World.alice)
    { forward := false, protectSender := true } {} tr x.1 x.2 (fun h => by cases h) (fun h => by cases h) World.wire_bob
    (World.bob_opens (by rw [k2]; decide) (by rw [k2]; decide))
    (fun d hd => by rcases hd with hd | hd <;> cases hd <;> exact ⟨World.wire_alice, World.fit_alice⟩) ha h k1
  exact ⟨tr, x, h, md', h'⟩

set_option maxRecDepth 100000 in
/-- Claims that were unpacked; a document and a secret that were read. -/
example : (∃ jwt kid tr f, Runs (FromPrior.unpack Toy.crypto jwt) tr (.ok (f, kid)) ∧ f.iss = World.alice) ∧
    (∃ d, readDoc (dDIDDoc Toy.crypto.f64) World.document = .ok d ∧ ReadBack Toy.crypto.f64 d.doubles) ∧
    (∃ x, readDoc (dSecret Toy.crypto.f64) b!"{\"id\":\"i\",\"type\":\"Other\",\"privateKeyJwk\":{\"d\":0.5}}" = .ok x ∧
      ReadBack Toy.crypto.f64 x.material.doubles) := by
  refine ⟨?_, ?_, ?_⟩
  · obtain ⟨tr, x, h, -, hk⟩ := World.of_test (E := World.env)
      (p := do
        let (jwt, _) ← FromPrior.pack Toy.crypto { iss := World.alice, sub := World.bob } none
        FromPrior.unpack Toy.crypto jwt)
      (P := fun x => decide (x.1.iss = World.alice)) (by decide +kernel)
    simp only [runs_bind_ok] at h
    obtain ⟨⟨jwt, _⟩, t1, t2, rfl, -, h⟩ := h
    exact ⟨jwt, x.2, t2, x.1, h, of_decide_eq_true hk⟩
  · exact ⟨_, by rfl, by unfold ReadBack; decide⟩
  · exact ⟨_, by rfl, by unfold ReadBack; decide⟩

/-! ## What the conditions are for -/

/-- A plaintext message with the members of a signed one, the payload written with an escape. -/
def World.escapedProg : Prog (Str × (Message × UnpackMetadata) × Message × UnpackMetadata) := do
  let (jws, _) ← packSigned Toy.crypto { id := b!"signed", type_ := [], body := .null } alice
  let j ← Prog.lift (jwsFromStr jws)
  let text := b!"{\"id\":\"plain\",\"type\":\"\",\"body\":null,\"signatures\":" ++ (Value.arr (j.signatures.map JwsSig.toJson)).print ++
    b!",\"payload\":\"\\u0065" ++ j.payload.drop 1 ++ b!"\"}"
  let x ← unpack Toy.crypto text {}
  let out ← packPlaintext Toy.crypto x.1
  let y ← unpack Toy.crypto out {}
  pure (text, x, y)

set_option maxRecDepth 100000 in
theorem World.escapedTest : World.test World.env World.escapedProg (fun x => decide (x.2.1.1.id = b!"plain" ∧ x.2.1.2 = {} ∧
    x.2.2.1.id = b!"signed" ∧ x.2.2.2.authenticated = true ∧ x.2.2.2.signFrom = some b!"did:example:alice#ed")) = true := by decide +kernel

/-- C92 (negative): a message with the members of an envelope can be received as plaintext, because its text has escapes; packed
as plaintext again it has none, and is unpacked to another message, reported as signed by somebody. -/
theorem C92_becomes_envelope : ∃ (text out : Str) (t1 t2 t3 : List Event) (m m' : Message) (md' : UnpackMetadata),
    Runs (unpack Toy.crypto text {}) t1 (.ok (m, {})) ∧ Runs (packPlaintext Toy.crypto m) t2 (.ok out) ∧
    Runs (unpack Toy.crypto out {}) t3 (.ok (m', md')) ∧ Answers World.env (t1 ++ t2 ++ t3) ∧ m'.id ≠ m.id ∧
    md'.authenticated = true ∧ md'.signFrom = some b!"did:example:alice#ed" := by
  obtain ⟨tr, ⟨text, ⟨m, md⟩, m', md'⟩, h, ha, hk⟩ := World.of_test World.escapedTest
  obtain ⟨k1, k2, k3, k4, k5⟩ := of_decide_eq_true hk
  dsimp only at k1 k2 k3 k4 k5
  subst k2
  unfold World.escapedProg at h
  rw [runs_bind_ok] at h
  obtain ⟨⟨jws, _⟩, t1, _, rfl, -, h⟩ := h
  obtain ⟨j, -, h⟩ := runs_lift_bind_ok.1 h
  simp only [runs_bind_ok] at h
  obtain ⟨x, t2, _, rfl, h1, out, t3, _, rfl, h2, y, t4, t5, rfl, h3, h4⟩ := h
  obtain ⟨rfl, h4⟩ := runs_pure.1 h4
  cases h4
  refine ⟨_, out, t2, t3, t4, m, m', md', h1, h2, h3, fun e he => ha e ?_, ?_, k4, k5⟩
  · simp only [List.mem_append] at he ⊢
    rcases he with (he | he) | he <;> simp [he]
  · rw [k1, k3]; decide

/-- C92 (negative): if serde_json reads a double otherwise than it printed it, a message changes each time it is passed on. -/
theorem C92_drift : ∃ (C : Crypto) (text out : Str) (m m' : Message), PrintsFloats C ∧ Runs (unpack C text {}) [] (.ok (m, {})) ∧
    Runs (packPlaintext C m) [] (.ok out) ∧ Runs (unpack C out {}) [] (.ok (m', {})) ∧
    m.body = .num (.flt b!"0.2") ∧ m'.body = .num (.flt b!"0.3") := by
  refine ⟨{ Toy.crypto with f64 := fun s => if s = b!"0.1" then some b!"0.2" else if s = b!"0.2" then some b!"0.3" else none },
    b!"{\"id\":\"\",\"type\":\"\",\"body\":0.1}", _, { id := [], type_ := [], body := .num (.flt b!"0.2") },
    { id := [], type_ := [], body := .num (.flt b!"0.3") }, ?_, ?_, .ret _, ?_, rfl, rfl⟩
  · intro s t h
    dsimp only at h
    split at h
    · cases h; rfl
    · split at h
      · cases h; rfl
      · cases h
  · exact .ret _
  · exact .ret _

end DIDComm
