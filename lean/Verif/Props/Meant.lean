import Verif.Spec.Meant
import Verif.Props.Authentic
import Verif.Props.RoundTrip
import Verif.Props.Negotiation
import Verif.Props.Validation
import Verif.Props.Forward
import Verif.Proofs.Secrecy

/-!
# C98: whom a message was packed for

Authenticated encryption says that the message was meant for the receiver; a signature inside an encrypted message does not.
-/

set_option autoImplicit false

namespace DIDComm

variable {C : Crypto} {pairs : Curve → C.Key → C.Key → Prop}

/-- C98: if the owners of the reported sender key and of the key that opened the message encrypt for each other only with this library,
the operations `past` so far, then the returned message was packed by one of these, from the reported sender key and for the key that
opened it; without an anonymous layer around it, for all reported recipient keys.  So if the message says for whom it is, the receiver
is among them, and if it says from whom it is, that is the owner of the sender key; provided the key ids in a document belong to its
DID. -/
theorem C98_meant (past : PackRun C → Prop) (msg : Str) (opts : UnpackOptions) (tr : List Event) (m : Message) (md : UnpackMetadata) (k : Str)
    (h : Runs (unpack C msg opts) tr (.ok (m, md))) (hk : md.encryptedFromKid = some k)
    (hwf : ∀ p, past p → p.msg.WF C.f64 ∧ NotEnvelope p.msg)
    (honest : ∀ doc c skey kid secret rkey kids, evResolve (didOf k) (some doc) ∈ tr → KeyFrom C doc doc.keyAgreement k c skey →
      evGet kid (some secret) ∈ tr → secret.asKeyPair C = .ok ⟨c, rkey⟩ → kid ∈ kids → OnlyPackedFor C past c skey rkey k kids)
    (hown : ∀ p, past p → ∀ d doc, p.env.resolve d = .ok (some doc) → ∀ kid ∈ doc.keyAgreement, didOf kid = d)
    (hsec : ∀ p, past p → HonestSecrets p.env) :
    ∃ p kid secret, past p ∧ p.msg = m ∧ p.md.fromKid = some k ∧ evGet kid (some secret) ∈ tr ∧ kid ∈ p.md.toKids ∧
      (md.encAlgAnon = none → ∃ kids, md.encryptedToKids = some kids ∧ kid ∈ kids ∧ ∀ k ∈ kids, k ∈ p.md.toKids) ∧
      (∀ l, m.to = some l → didOf kid ∈ l) ∧ (∀ f, m.from_ = some f → f = didOf k) := by
  obtain ⟨t1, t2, t3, t4, msg1, md1, msg2, md2, msg3, md3, rfl, h1, h2, h3, h4, h5, h6⟩ := unpack_parts h
  have e6 : md.encryptedFromKid = md3.encryptedFromKid ∧ md.encryptedToKids = md3.encryptedToKids ∧ md.encAlgAnon = md3.encAlgAnon := by
    rcases h6 with ⟨-, -, rfl⟩ | ⟨_, _, _, _, _, _, -, -, -, -, -, rfl⟩ <;> exact ⟨rfl, rfl, rfl⟩
  have e3 : md3.encryptedFromKid = md2.encryptedFromKid ∧ md3.encryptedToKids = md2.encryptedToKids ∧ md3.encAlgAnon = md2.encAlgAnon := by
    rcases h3 with ⟨-, rfl, -⟩ | ⟨_, _, _, _, _, -, -, -, -, rfl⟩ <;> exact ⟨rfl, rfl, rfl⟩
  have e1 : md1.encryptedFromKid = none ∧ (md1.encAlgAnon = none → md1.encryptedToKids = none) := by
    rcases h1.metadata with ⟨-, rfl, -⟩ | ⟨_, _, _, _, _, _, _, _, rfl, -⟩
    · exact ⟨rfl, fun _ => rfl⟩
    · exact ⟨rfl, fun h => by cases h⟩
  rcases h2 with ⟨-, rfl, -⟩ | ⟨kids, k', doc, c, skey, kid, secret, rkey, ⟨a1, -⟩, -, a2, a3, -, a4, a5, rfl⟩
  · rw [e6.1, e3.1, e1.1] at hk; cases hk
  rw [e6.1, e3.1] at hk
  cases hk
  have htk : md.encAlgAnon = none → md.encryptedToKids = some kids := by
    intro hn
    rw [e6.2.1, e3.2.1]
    rw [e6.2.2, e3.2.2] at hn
    simp only [UnpackMetadata.auth, e1.2 hn, Option.getD_none]
  obtain ⟨j, hdr, apv, epk, kw, tag, -, -, -, -, hkids, rfl, -, b1, r, ek, cek, ct, iv, hr, hrk, -, -, -, -, b2, b3⟩ := a1
  have hkid : kid ∈ kids := by rw [← hkids, ← hrk]; exact List.mem_map.2 ⟨r, hr, rfl⟩
  obtain ⟨p, hp0, hp, hpk, hpt⟩ := honest doc c skey kid secret rkey kids (by simp [a2]) a3 (by simp [a4]) a5 hkid _ _ _ _ _ _ _ _ _ b1 b2 b3
  have hread : fromJson (dMessage C.f64) p.msg.toJson.print = .ok m := by
    rcases h3 with ⟨rfl, -, -⟩ | ⟨kid, alg, doc, c, key, hs, -, -, -, -⟩
    · rcases hp with rfl | ⟨hdr, kid, sig, rfl⟩
      · exact h4
      · rw [JWS.onWire_eq, jws_not_message] at h4; cases h4
    · obtain ⟨prot, sig, pl, b, hdr, st, raw, d0, -, -, -, -, -, d3, -⟩ := hs
      rcases hp with rfl | ⟨hdr, kid, sig, rfl⟩
      · have := message_not_jws (hwf p hp0).1 (hwf p hp0).2
        unfold jwsFromStr at this
        rw [d0] at this; cases this
      · rw [JWS.onWire_eq] at d0
        have := jws_payload (B64.plain_encode _) d0
        simp only at this
        subst this
        rw [B64.decode_encode] at d3; cases d3
        exact h4
  rw [message_print p.msg (hwf p hp0).1] at hread
  cases hread
  obtain ⟨g1, g2, -⟩ := C31_addressing _ _ _ _ _ _ _ _ p.run
  have hdid : didOf kid = didOf p.to :=
    C36_recipient_did _ _ _ _ _ _ _ _ p.run (fun doc hd => hown p hp0 _ doc (p.answers _ hd).symm) kid (hpt kid hkid)
  refine ⟨p, kid, secret, hp0, rfl, hpk, by simp [a4], hpt kid hkid, fun hn => ⟨kids, htk hn, hkid, hpt⟩, fun l hl => ?_, fun f hf => ?_⟩
  · rw [hdid]; exact g1 l hl
  · cases hfr : p.from_ with
    | none =>
      have hrun := p.run
      rw [hfr] at hrun
      obtain ⟨_, _, _, _, _, _, fk, _, _, -, -, -, q2, -, q3⟩ := packEncrypted_ok.1 hrun
      rcases packCrypt_ok.1 q2 with ⟨-, rfl, -⟩ | ⟨_, _, hc, -⟩
      · rcases q3 with ⟨-, -, q⟩ | ⟨_, -, q⟩ <;> · rw [q] at hpk; cases hpk
      · cases hc
    | some f' =>
      have hrun := p.run
      rw [hfr] at hrun
      obtain ⟨toDoc, fromDoc, found, curve, fk, -, q1, q2, q3, q4, -⟩ := C35_negotiation _ _ _ _ _ _ _ _ hrun
      rw [hpk] at q4
      cases q4
      have hm := hsec p hp0 _ _ (p.answers _ q2).symm k (List.mem_of_find?_eq_some q3)
      rw [g2 f' f hfr hf]
      exact (hown p hp0 _ fromDoc (p.answers _ q1).symm k (meantBy_mem hm)).symm

theorem JwtBy.unique {jwt k k' : Str} {c c' : Curve} {key key' : C.Key} {f f' : FromPrior} (h : JwtBy C jwt k c key f)
    (h' : JwtBy C jwt k' c' key' f') : k = k' ∧ f = f' := by
  obtain ⟨hd, pl, sig, b, hdr, st, sa, raw, payload, rfl, d1, d2, -, rfl, -, d3, -, d4, -, d5⟩ := h
  obtain ⟨hd', pl', sig', b', hdr', st', sa', raw', payload', e, d1', d2', -, rfl, -, d3', -, d4', -, d5'⟩ := h'
  obtain ⟨rfl, e2⟩ := dot_unique (b := pl ++ b!"." ++ sig) (b' := pl' ++ b!"." ++ sig') (by simpa using e) (no_dot d1) (no_dot d1')
  obtain ⟨rfl, -⟩ := dot_unique e2 (no_dot d4) (no_dot d4')
  rw [d1] at d1'; cases d1'
  rw [d2] at d2'; cases d2'
  rw [d4] at d4'; cases d4'
  rw [d5] at d5'; cases d5'
  exact ⟨rfl, rfl⟩

theorem PriorOf.unique {m : Message} {fp fp' : Option FromPrior} {k k' : Option Str} (h : PriorOf C m fp k) (h' : PriorOf C m fp' k') :
    fp = fp' ∧ k = k' := by
  rcases h with ⟨e, rfl, rfl⟩ | ⟨jwt, f, k, c, key, e, rfl, rfl, h⟩ <;>
    rcases h' with ⟨e', rfl, rfl⟩ | ⟨jwt', f', k', c', key', e', rfl, rfl, h'⟩ <;> rw [e] at e' <;> cases e'
  · exact ⟨rfl, rfl⟩
  · obtain ⟨rfl, rfl⟩ := h.unique h'; exact ⟨rfl, rfl⟩

theorem SignatureOf.unique {m : Message} {k k' jws : Str} {a a' : SignAlg} (h : SignatureOf C m (some k) (some a) (some jws))
    (h' : SignatureOf C m (some k') (some a') (some jws)) : a = a' := by
  rcases h with ⟨hc, -⟩ | ⟨_, _, _, c, key, e1, e2, e3, h⟩
  · cases hc
  rcases h' with ⟨hc, -⟩ | ⟨_, _, _, c', key', e1', e2', e3', h'⟩
  · cases hc
  cases e1; cases e2; cases e3; cases e1'; cases e2'; cases e3'
  obtain ⟨prot, sig, pl, b, hdr, st, raw, d0, d1, d2, d3, -⟩ := h
  obtain ⟨prot', sig', pl', b', hdr', st', raw', d0', d1', d2', d3', -⟩ := h'
  rw [d0] at d0'; cases d0'
  rw [d1] at d1'; cases d1'
  rw [d2] at d2'; cases d2'
  cases hdr with
  | mk typ alg => cases alg <;> cases d3 <;> cases d3' <;> rfl

/-- C98: whoever receives a message that is signed and encrypted for them can encrypt the signed message for somebody else, who gets the
same message, reported as encrypted and as signed by the signer.  (`anoncrypt` stands for encryption by whatever program the first
receiver uses.) -/
theorem C98_sent_on (E E' E'' : Env) (m : Message) (to : Str) (from_ : Option Str) (signBy : Str) (opts : PackEncryptedOptions)
    (uopts : UnpackOptions) (tr : List Event) (out : Str) (md : PackEncryptedMetadata)
    (law : C.Lawful pairs) (hs : SeesDocsOf E' E) (hs' : SeesDocsOf E'' E) (hh : HonestSecrets E)
    (hwire : WireParty E (didOf to)) (hopen : Opens C pairs E' E (didOf to) md.toKids)
    (hfw : ∀ f, from_ = some f → WireParty E (didOf f) ∧ KeysFit C pairs E (didOf f))
    (hsw : WireParty E (didOf signBy)) (hsfit : KeysFit C pairs E (didOf signBy))
    (hw : m.WF C.f64) (ht : m.typ = b!"application/didcomm-plain+json") (ha : Answers E tr)
    (h : Runs (packEncrypted C m to from_ (some signBy) opts) tr (.ok (out, md))) (hf : md.messagingService = none) :
    ∃ md' signKid alg jws, Returns E' (unpack C out uopts) (m, md') ∧ md.signByKid = some signKid ∧ md'.signFrom = some signKid ∧
      md'.signAlg = some alg ∧ md'.signedMessage = some jws ∧ SignatureOf C m (some signKid) (some alg) (some jws) ∧
      PriorOf C m md'.fromPrior md'.fromPriorIssuerKid ∧ (∃ t, Answers E t ∧ Runs (packSigned C m signBy) t (.ok (jws, signKid))) ∧
      ∀ (other : Str) (ealg : AnonCryptAlg) (tr' : List Event) (out' : Str) (kids : List Str) (uopts' : UnpackOptions),
        WireParty E' (didOf other) → Opens C pairs E'' E' (didOf other) kids → Answers E' tr' →
        Runs (anoncrypt C other jws ealg) tr' (.ok (out', kids)) →
        Returns E'' (unpack C out' uopts') (m, {
          encrypted := true, authenticated := true, nonRepudiation := true, anonymousSender := true,
          encryptedToKids := some kids, encAlgAnon := some ealg, signFrom := some signKid,
          signAlg := some alg, signedMessage := some jws, fromPrior := md'.fromPrior, fromPriorIssuerKid := md'.fromPriorIssuerKid }) := by
  obtain ⟨t1, t2, t3, inner, sk, env, fk, tk, w, rfl, -, h1, h2, -, hw'⟩ := packEncrypted_ok.1 h
  simp only [answers_append] at ha
  rcases hw' with ⟨-, rfl, rfl⟩ | ⟨svc, -, rfl⟩
  rotate_left
  · cases hf
  rcases packInner_ok.1 h1 with ⟨hc, -⟩ | ⟨s, signKid, hc, rfl, q1⟩
  · cases hc
  cases hc
  obtain ⟨fp, k, sa, g1, g2, g3, g4, g5, g6⟩ := packSigned_gives law hs hh hw ht hsw hsfit ha.1.1 q1
  obtain ⟨fp', k', sa', g1', g2', g3', -⟩ := packSigned_gives law hs' hh hw ht hsw hsfit ha.1.1 q1
  obtain ⟨rfl, rfl⟩ := g1.unique g1'
  cases g2.unique g2'
  have hlast : ∀ (other : Str) (ealg : AnonCryptAlg) (tr' : List Event) (out' : Str) (kids : List Str) (uopts' : UnpackOptions),
      WireParty E' (didOf other) → Opens C pairs E'' E' (didOf other) kids → Answers E' tr' →
      Runs (anoncrypt C other inner ealg) tr' (.ok (out', kids)) →
      Returns E'' (unpack C out' uopts') (m, {
        encrypted := true, authenticated := true, nonRepudiation := true, anonymousSender := true,
        encryptedToKids := some kids, encAlgAnon := some ealg, signFrom := some signKid,
        signAlg := some sa, signedMessage := some inner, fromPrior := fp, fromPriorIssuerKid := k }) :=
    fun other ealg tr' out' kids uopts' h1 h2 h3 h4 =>
      (anoncrypt_gives law h1 h2 uopts' ⟨g4, g6, g3'⟩ (fun _ => not_forwarded g5) h3 h4).returns
  rcases packCrypt_ok.1 h2 with ⟨rfl, rfl, q2⟩ | ⟨f, fromKid, rfl, rfl, q2⟩
  · exact ⟨_, signKid, sa, inner, (anoncrypt_gives law hwire hopen uopts ⟨g4, g6, g3⟩ (fun _ => not_forwarded g5) ha.1.2 q2).returns,
      rfl, rfl, rfl, rfl, g2, g1, ⟨_, ha.1.1, q1⟩, hlast⟩
  · exact ⟨_, signKid, sa, inner, (authcrypt_gives law hs hh hwire hopen (hfw f rfl).1 (hfw f rfl).2 uopts ⟨g4, g6, g3⟩ ha.1.2 q2).returns,
      rfl, rfl, rfl, rfl, g2, g1, ⟨_, ha.1.1, q1⟩, hlast⟩

/-- C98: who gets the signed message from the first receiver cannot tell this from getting it from the signer, encrypted for them: both
give the same message and metadata, if they are encrypted for the same keys with the same algorithm.  (The signer's operation fails if the
message says for whom it is and the receiver is not among them: the recipients the message names are all a receiver has.) -/
theorem C98_unnoticed (E E' E'' : Env) (m : Message) (to : Str) (from_ : Option Str) (signBy other : Str) (opts opts2 : PackEncryptedOptions)
    (uopts uopts' : UnpackOptions) (tr tr2 : List Event) (out out2 : Str) (md md2 : PackEncryptedMetadata)
    (law : C.Lawful pairs) (hs : SeesDocsOf E' E) (hs' : SeesDocsOf E'' E) (hh : HonestSecrets E)
    (hwire : WireParty E (didOf to)) (hopen : Opens C pairs E' E (didOf to) md.toKids)
    (hfw : ∀ f, from_ = some f → WireParty E (didOf f) ∧ KeysFit C pairs E (didOf f))
    (hsw : WireParty E (didOf signBy)) (hsfit : KeysFit C pairs E (didOf signBy))
    (hw : m.WF C.f64) (ht : m.typ = b!"application/didcomm-plain+json") (ha : Answers E tr)
    (h : Runs (packEncrypted C m to from_ (some signBy) opts) tr (.ok (out, md))) (hf : md.messagingService = none)
    (hwire2 : WireParty E (didOf other)) (hopen2 : Opens C pairs E'' E (didOf other) md2.toKids) (ha2 : Answers E tr2)
    (h2 : Runs (packEncrypted C m other none (some signBy) opts2) tr2 (.ok (out2, md2))) (hf2 : md2.messagingService = none)
    (md' : UnpackMetadata) (hr : Returns E' (unpack C out uopts) (m, md')) (jws : Str) (hj : md'.signedMessage = some jws)
    (hwire3 : WireParty E' (didOf other)) (hopen3 : Opens C pairs E'' E' (didOf other) md2.toKids) (tr3 : List Event) (out3 : Str)
    (ha3 : Answers E' tr3) (h3 : Runs (anoncrypt C other jws opts2.encAlgAnon) tr3 (.ok (out3, md2.toKids))) :
    ∃ x, Returns E'' (unpack C out2 uopts') x ∧ Returns E'' (unpack C out3 uopts') x := by
  obtain ⟨md0, signKid, alg, jws0, q1, -, -, -, q5, u1, u2, ⟨u, u3, u4⟩, q6⟩ := C98_sent_on E E' E'' m to from_ signBy opts uopts tr out md law hs hs' hh hwire hopen hfw
    hsw hsfit hw ht ha h hf
  obtain ⟨t0, a0, r0⟩ := hr.1
  cases q1.2 t0 _ a0 r0
  rw [hj] at q5
  cases q5
  have := q6 other opts2.encAlgAnon tr3 out3 md2.toKids uopts' hwire3 hopen3 ha3 h3
  refine ⟨_, ?_, this⟩
  obtain ⟨md3, signKid', alg', jws', p1, -, p3, p4, p5, v1, v2, ⟨v, v3, v4⟩, -⟩ := C98_sent_on E E'' E'' m other none signBy opts2 uopts' tr2 out2 md2
    law hs' hs' hh hwire2 hopen2 (by simp) hsw hsfit hw ht ha2 h2 hf2
  obtain ⟨fp, k, sk, sa, j, -, -, -, hret⟩ := C06_sign_anoncrypt_roundtrip E E'' m other signBy opts2 uopts' tr2 out2 md2 law hs' hh hwire2 hopen2
    hsw hsfit hw ht ha2 h2 hf2
  have hdr : ∀ {t : List Event} {x y : Str}, Runs (packSigned C m signBy) t (.ok (x, y)) → draws t = [] := by
    intro t x y hx
    exact (draws_inner (k := some y) (packInner_ok.2 (.inr ⟨signBy, y, rfl, rfl, hx⟩))).1
  obtain ⟨-, e, -⟩ := runs_det (a := []) (b := []) u4 v4 u3 v3 (by rw [hdr u4, hdr v4])
  cases e
  obtain ⟨t3, a3, r3⟩ := p1.1
  have e := hret.2 t3 _ a3 r3
  cases e
  cases p3; cases p4; cases p5
  cases u1.unique v1
  obtain ⟨e1, e2⟩ := u2.unique v2
  dsimp only at e1 e2
  rw [e1, e2]
  exact hret

/-! ## Examples and exceptions -/

/-- The toy primitives with ideal authenticated encryption: keys are agreed on only by Alice with `did:example:alice#p1` for
`did:example:bob#p1`, and nothing opens but encryptions of `World.msg`. -/
def World.agreeing : Crypto :=
  { World.encrypting with
    ecdh1pu := fun c e s r alg apu apv tag x =>
      if apu = b!"did:example:alice#p1" ∧ apv = b!"did:example:bob#p1" then World.encrypting.ecdh1pu c e s r alg apu apv tag x else none }

/-- Alice has packed `World.msg` for Bob. -/
def World.packedForBob (p : PackRun World.agreeing) : Prop :=
  p.env = World.aliceEnv ∧ p.msg = World.msg ∧ p.md.fromKid = some b!"did:example:alice#p1" ∧ p.md.toKids = [b!"did:example:bob#p1"]

theorem World.joined_one {l : List Str} {s : Str} (hs : (0x2E : UInt8) ∉ s) (hl : l ≠ []) (h : joinWith 0x2E l = s) : l = [s] := by
  match l with
  | [] => exact absurd rfl hl
  | [a] => exact congrArg (fun x => [x]) h
  | a :: b :: r => exact absurd (by rw [← h]; simp [joinWith]) hs

theorem World.packed_run : ∃ (p : PackRun World.agreeing) (tr : List Event) (m : Message) (md : UnpackMetadata), World.packedForBob p ∧
    Runs (unpack World.agreeing p.out {}) tr (.ok (m, md)) ∧ Answers World.bobEnv tr ∧ md.encryptedFromKid = some b!"did:example:alice#p1" ∧
    md.encAlgAnon = none := by
  have h : World.test World.aliceEnv (packEncrypted World.agreeing World.msg World.bob (some World.alice) none { forward := false })
      (fun x => decide (x.2.fromKid = some b!"did:example:alice#p1" ∧ x.2.toKids = [b!"did:example:bob#p1"] ∧
        World.test World.bobEnv (unpack World.agreeing x.1 {})
          (fun y => decide (y.2.encryptedFromKid = some b!"did:example:alice#p1" ∧ y.2.encAlgAnon = none)) = true)) = true := by
    decide +kernel
  obtain ⟨tr, ⟨out, md⟩, h, ha, hk⟩ := World.of_test h
  obtain ⟨k1, k2, k3⟩ := of_decide_eq_true hk
  obtain ⟨tr', ⟨m, md'⟩, h', ha', hk'⟩ := World.of_test k3
  obtain ⟨k4, k5⟩ := of_decide_eq_true hk'
  exact ⟨⟨World.aliceEnv, _, _, _, _, _, tr, out, md, ha, h⟩, tr', m, md', ⟨rfl, rfl, k1, k2⟩, h', ha', k4, k5⟩

/-- C98_meant: a message Alice packed for Bob is accepted, and all hypotheses are met. -/
example : (∃ (p : PackRun World.agreeing) (tr : List Event) (m : Message) (md : UnpackMetadata), World.packedForBob p ∧
      Runs (unpack World.agreeing p.out {}) tr (.ok (m, md)) ∧ md.encryptedFromKid = some b!"did:example:alice#p1" ∧ md.encAlgAnon = none) ∧
    (∀ p, World.packedForBob p → p.msg.WF World.agreeing.f64 ∧ NotEnvelope p.msg) ∧
    (∀ c skey rkey kid kids, kid ∈ kids → OnlyPackedFor World.agreeing World.packedForBob c skey rkey b!"did:example:alice#p1" kids) ∧
    (∀ p, World.packedForBob p → ∀ d doc, p.env.resolve d = .ok (some doc) → ∀ kid ∈ doc.keyAgreement, didOf kid = d) ∧
    ∀ p, World.packedForBob p → HonestSecrets p.env := by
  refine ⟨?_, ?_, ?_, ?_, ?_⟩
  · obtain ⟨p, tr, m, md, h1, h2, -, h3, h4⟩ := World.packed_run
    exact ⟨p, tr, m, md, h1, h2, h3, h4⟩
  · rintro p ⟨-, h, -⟩
    rw [h]
    exact ⟨World.msg_wf, World.msg_notEnvelope⟩
  · intro c skey rkey kid kids hk epk tag kw ek cek iv aad ct payload h1 _ h3
    simp only [World.agreeing, World.encrypting, Option.filter_eq_some_iff, decide_eq_true_eq] at h3
    obtain ⟨p, _, _, _, hp, -⟩ := World.packed_run
    refine ⟨p, hp, .inl (by rw [h3.2, hp.2.1]), hp.2.2.1, ?_⟩
    simp only [World.agreeing] at h1
    split at h1
    · rename_i ha
      have hne : sortStrs kids ≠ [] := by
        intro hn
        have := (sortStrs_perm kids).length_eq
        rw [hn] at this
        simp at this
        rw [List.length_eq_zero_iff.1 this.symm] at hk
        cases hk
      have hj := World.joined_one (by decide) hne ((joinedKids_eq kids).symm.trans ha.2)
      intro kid' hkid'
      rw [hp.2.2.2, ← hj]
      exact (sortStrs_perm kids).mem_iff.2 hkid'
    · cases h1
  · rintro p ⟨h, -⟩ d doc hd
    rw [h] at hd
    have hd' : exampleResolve [World.aliceDoc, World.bobDoc, World.mediatorDoc] d = some doc := Except.ok.inj hd
    have hm := List.mem_of_find?_eq_some hd'
    have hid : doc.id = d := by simpa using List.find?_some hd'
    have : ∀ doc ∈ [World.aliceDoc, World.bobDoc, World.mediatorDoc], ∀ kid ∈ doc.keyAgreement, didOf kid = doc.id := by decide +kernel
    rw [← hid]
    exact this doc hm
  · rintro p ⟨h, -⟩
    rw [h]
    exact World.honest _ _

namespace World

/-- `World.msg`, for whom it may be. -/
def msgFor (to : Option (List Str)) : Message := { msg with to := to }

theorem msgFor_wf (to : Option (List Str)) (h : ∀ l, to = some l → AllUtf8 l) : (msgFor to).WF Toy.crypto.f64 := { msg_wf with to := h }

/-- Alice signs a message and encrypts it for the mediator, who gets it, encrypts what Alice signed for Bob, and Bob gets it. -/
def redirectTest (to : Option (List Str)) : Bool :=
  World.test World.aliceEnv (packEncrypted Toy.crypto (msgFor to) World.mediator none (some World.alice) { forward := false })
    (fun x => decide (x.2.toKids = [b!"did:example:mediator#x1"] ∧ x.2.messagingService = none) &&
      World.test World.mediatorEnv (unpack Toy.crypto x.1 {}) (fun y =>
        World.test World.mediatorEnv (anoncrypt Toy.crypto World.bob (y.2.signedMessage.getD []) .xc20pEcdhEsA256kw) (fun z =>
          decide (z.2 = [b!"did:example:bob#x1", b!"did:example:bob#x2"]))))

theorem mediator_holds : Opens Toy.crypto Toy.pairs mediatorEnv aliceEnv mediator [b!"did:example:mediator#x1"] := by
  intro doc h
  exact mediator_opens.1 doc h _ (by simp) (by cases h; decide +kernel)

/-- What happens in `redirectTest`. -/
theorem redirect_runs {to : Option (List Str)} (h : redirectTest to = true) (hu : ∀ l, to = some l → AllUtf8 l) :
    ∃ (t1 t2 t3 : List Event) (out out' jws : Str) (pmd : PackEncryptedMetadata) (md' : UnpackMetadata),
      Runs (packEncrypted Toy.crypto (msgFor to) mediator none (some alice) { forward := false }) t1 (.ok (out, pmd)) ∧
      Answers aliceEnv t1 ∧ pmd.toKids = [b!"did:example:mediator#x1"] ∧ pmd.messagingService = none ∧
      Runs (unpack Toy.crypto out {}) t2 (.ok (msgFor to, md')) ∧ Answers mediatorEnv t2 ∧
      Returns mediatorEnv (unpack Toy.crypto out {}) (msgFor to, md') ∧ md'.signedMessage = some jws ∧
      Runs (anoncrypt Toy.crypto bob jws .xc20pEcdhEsA256kw) t3 (.ok (out', [b!"did:example:bob#x1", b!"did:example:bob#x2"])) ∧
      Answers mediatorEnv t3 ∧ ∃ alg signKid, pmd.signByKid = some signKid ∧
      Returns bobEnv (unpack Toy.crypto out' {}) (msgFor to, {
          encrypted := true, authenticated := true, nonRepudiation := true, anonymousSender := true,
          encryptedToKids := some [b!"did:example:bob#x1", b!"did:example:bob#x2"], encAlgAnon := some .xc20pEcdhEsA256kw,
          signFrom := some signKid, signAlg := some alg, signedMessage := some jws, fromPrior := md'.fromPrior,
          fromPriorIssuerKid := md'.fromPriorIssuerKid }) := by
  obtain ⟨t1, ⟨out, pmd⟩, r1, a1, h⟩ := of_test h
  rw [Bool.and_eq_true] at h
  obtain ⟨k1, k2⟩ := of_decide_eq_true h.1
  obtain ⟨t2, ⟨m', md0⟩, r2, a2, h⟩ := of_test h.2
  obtain ⟨t3, ⟨out', kids⟩, r3, a3, h⟩ := of_test h
  have h := of_decide_eq_true h
  dsimp only at k1 k2 h r2
  subst h
  obtain ⟨md', signKid, alg, jws, q1, q2, -, -, q3, -, -, -, q4⟩ := C98_sent_on aliceEnv mediatorEnv bobEnv (msgFor to) mediator none alice
    { forward := false } {} t1 out pmd Toy.lawful (fun _ _ h => h) (fun _ _ h => h) (honest _ _) wire_mediator
    (by rw [k1]; exact mediator_holds) (by simp) wire_alice fit_alice (msgFor_wf to hu) rfl a1 r1 k2
  obtain ⟨rfl, rfl⟩ : m' = World.msgFor to ∧ md0 = md' := by cases q1.2 t2 _ a2 r2; exact ⟨rfl, rfl⟩
  rw [q3] at r3
  exact ⟨t1, t2, t3, out, out', jws, pmd, md0, r1, a1, k1, k2, r2, a2, q1, q3, r3, a3, alg, signKid, q2,
    q4 bob _ t3 out' _ {} wire_bob (bob_opens (by simp) (by decide +kernel)) a3 r3⟩

end World

/-- C98 (negative): `unpack` reports a message as encrypted for the receiver and signed by the signer although the signer packed it for
somebody else only, and said so in the message.  (This is a case of `C98_sent_on`, whose hypotheses it meets.) -/
theorem C98_redirected : ∃ (m : Message) (out out' : Str) (t1 t2 : List Event) (pmd : PackEncryptedMetadata) (md : UnpackMetadata),
    m.to = some [World.mediator] ∧
    Runs (packEncrypted Toy.crypto m World.mediator none (some World.alice) { forward := false }) t1 (.ok (out, pmd)) ∧
    Answers World.aliceEnv t1 ∧ pmd.toKids = [b!"did:example:mediator#x1"] ∧
    Runs (unpack Toy.crypto out' {}) t2 (.ok (m, md)) ∧ Answers World.bobEnv t2 ∧ md.encrypted = true ∧ md.nonRepudiation = true ∧
    md.signFrom = pmd.signByKid ∧ pmd.signByKid.isSome ∧ md.encryptedToKids = some [b!"did:example:bob#x1", b!"did:example:bob#x2"] := by
  have h : World.redirectTest (some [World.mediator]) = true := by decide +kernel
  obtain ⟨t1, t2, t3, out, out', jws, pmd, md', r1, a1, k1, -, -, -, -, -, -, -, alg, sk, e, ⟨t4, a4, r4⟩, -⟩ := World.redirect_runs h
    (by intro l h; cases h; unfold AllUtf8; decide)
  exact ⟨_, out, out', t1, t4, pmd, _, rfl, r1, a1, k1, r4, a4, rfl, rfl, by rw [e], by rw [e]; rfl, rfl⟩

/-- C98_unnoticed: Alice signs a message that says nothing about whom it is for, once for the mediator and once for Bob; Bob gets the
same from Alice and from the mediator. -/
example : ∃ (t2 : List Event) (out2 out3 : Str) (md2 : PackEncryptedMetadata) (x : Message × UnpackMetadata),
    Runs (packEncrypted Toy.crypto (World.msgFor none) World.bob none (some World.alice) { forward := false, encAlgAnon := .xc20pEcdhEsA256kw }) t2
      (.ok (out2, md2)) ∧
    Returns World.bobEnv (unpack Toy.crypto out2 {}) x ∧ Returns World.bobEnv (unpack Toy.crypto out3 {}) x := by
  have h : World.redirectTest none = true := by decide +kernel
  obtain ⟨t1, -, t3, out, out3, jws, pmd, md', r1, a1, k1, k2, -, -, hr, hj, r3, a3, -⟩ := World.redirect_runs h (by simp)
  have h2 : World.test World.aliceEnv (packEncrypted Toy.crypto (World.msgFor none) World.bob none (some World.alice)
        { forward := false, encAlgAnon := .xc20pEcdhEsA256kw })
      (fun x => decide (x.2.toKids = [b!"did:example:bob#x1", b!"did:example:bob#x2"] ∧ x.2.messagingService = none)) = true := by
    decide +kernel
  obtain ⟨t2, ⟨out2, md2⟩, r2, a2, h2⟩ := World.of_test h2
  obtain ⟨l1, l2⟩ := of_decide_eq_true h2
  dsimp only at l1 l2
  have ho : Opens Toy.crypto Toy.pairs World.bobEnv World.aliceEnv World.bob md2.toKids := by
    rw [l1]; exact World.bob_opens (by simp) (by decide +kernel)
  obtain ⟨x, hx⟩ := C98_unnoticed World.aliceEnv World.mediatorEnv World.bobEnv (World.msgFor none) World.mediator none World.alice World.bob
    _ _ {} {} t1 t2 out out2 pmd md2 Toy.lawful (fun _ _ h => h) (fun _ _ h => h) (World.honest _ _) World.wire_mediator
    (by rw [k1]; exact World.mediator_holds) (by simp) World.wire_alice World.fit_alice (World.msgFor_wf none (by simp)) rfl a1 r1 k2
    World.wire_bob ho a2 r2 l2 md' hr jws hj World.wire_bob ho t3 out3 a3 (by rw [l1]; exact r3)
  exact ⟨t2, out2, out3, md2, x, r2, hx⟩

/-- C98 (negative): the recipient keys reported with an authenticated sender key need not be keys the sender encrypted for: if somebody
encrypts the authenticated message once more, anonymously, for other keys of the receiver, only these are reported. -/
theorem C98_relabelled : ∃ (t1 t2 t3 : List Event) (out out' : Str) (pmd : PackEncryptedMetadata) (kids : List Str) (m : Message)
    (md : UnpackMetadata),
    Runs (packEncrypted Toy.crypto World.msg World.bob (some World.alice) none { forward := false }) t1 (.ok (out, pmd)) ∧
    Answers World.aliceEnv t1 ∧ pmd.toKids = [b!"did:example:bob#p1"] ∧
    Runs (anoncrypt Toy.crypto b!"did:example:bob#x1" out .xc20pEcdhEsA256kw) t2 (.ok (out', kids)) ∧ Answers World.mediatorEnv t2 ∧
    Runs (unpack Toy.crypto out' {}) t3 (.ok (m, md)) ∧ Answers World.bobEnv t3 ∧ md.encryptedFromKid = pmd.fromKid ∧ pmd.fromKid.isSome ∧
    md.encryptedToKids = some [b!"did:example:bob#x1"] := by
  have h : World.test World.aliceEnv (packEncrypted Toy.crypto World.msg World.bob (some World.alice) none { forward := false })
      (fun x => decide (x.2.fromKid = some b!"did:example:alice#p1" ∧ x.2.toKids = [b!"did:example:bob#p1"]) &&
        World.test World.mediatorEnv (anoncrypt Toy.crypto b!"did:example:bob#x1" x.1 .xc20pEcdhEsA256kw) (fun z =>
          World.test World.bobEnv (unpack Toy.crypto z.1 {}) (fun w =>
            decide (w.2.encryptedFromKid = some b!"did:example:alice#p1" ∧ w.2.encryptedToKids = some [b!"did:example:bob#x1"])))) = true := by
    decide +kernel
  obtain ⟨t1, ⟨out, pmd⟩, r1, a1, h⟩ := World.of_test h
  rw [Bool.and_eq_true] at h
  obtain ⟨k1, k2⟩ := of_decide_eq_true h.1
  obtain ⟨t2, ⟨out', kids⟩, r2, a2, h⟩ := World.of_test h.2
  obtain ⟨t3, ⟨m, md⟩, r3, a3, h⟩ := World.of_test h
  obtain ⟨k3, k4⟩ := of_decide_eq_true h
  dsimp only at k1 k2 k3 k4
  exact ⟨t1, t2, t3, out, out', pmd, kids, m, md, r1, a1, k2, r2, a2, r3, a3, by rw [k1, k3], by rw [k1]; rfl, k4⟩

end DIDComm
