import Verif.Spec.Issuers
import Verif.Props.ThirdParty
import Verif.Props.Authentic
import Verif.Props.Negotiation

/-!
# C107: the name of a signer is not signed, that of an issuer is

The key id of a signed message is outside what is signed; the key id of a `from_prior` is part of it.
-/

set_option autoImplicit false

namespace DIDComm

variable {C : Crypto} {pairs : Curve → C.Key → C.Key → Prop} {E E' : Env}

theorem plain_of_decode {s : Str} {b : Bytes} (h : B64.decode s = some b) : Plain s := by
  obtain ⟨pad, rfl, hp⟩ := B64.decode_some h
  refine plain_of_ascii fun x hx => ?_
  rcases List.mem_append.1 hx with hx | hx
  · exact isSym_plain x (B64.encode_sym b x hx)
  · have : x = 61 := by rcases hp with rfl | rfl | rfl <;> simp_all
    subst this
    decide

/-- C107: whatever signed message `unpack` reports, by whomever it is signed: if somebody else's document lists the public key of the
signer under a key id `other` of its own, then the signed message with `other` written in place of the signer's key id is accepted
as well, by everybody who sees that document and those the first receiver saw.  It is reported as the same message, with the same
claims, not to be repudiated, signed by `other`.  No secret is needed for this. -/
theorem C107_taken_over (hd : NeverLonger C) (hf : PrintsFloats C) (text : Str) (opts : UnpackOptions) (tr : List Event) (m : Message)
    (md : UnpackMetadata) (h : Runs (unpack C text opts) tr (.ok (m, md))) (ha : Answers E tr) (k signed : Str)
    (hk : md.signFrom = some k) (hm : md.signedMessage = some signed) :
    ∃ prot sig pl doc c key, (∃ t, JsonText t signed ∧ IsSigned t ⟨[⟨k, prot, sig⟩], pl⟩) ∧
      E.resolve (didOf k) = .ok (some doc) ∧ KeyFrom C doc doc.authentication k c key ∧
      ∀ (E' : Env) (other : Str) (doc' : DIDDoc) (opts' : UnpackOptions), SeesDocsOf E' E → WireKid (didOf other) other →
        E'.resolve (didOf other) = .ok (some doc') → KeyFrom C doc' doc'.authentication other c key →
        Returns E' (unpack C (JWS.onWire ⟨[⟨other, prot, sig⟩], pl⟩) opts') (m, {
          authenticated := true, nonRepudiation := true, signFrom := some other, signAlg := md.signAlg,
          signedMessage := some (JWS.onWire ⟨[⟨other, prot, sig⟩], pl⟩), fromPrior := md.fromPrior,
          fromPriorIssuerKid := md.fromPriorIssuerKid }) := by
  have key := C81_unpack hd hf text opts tr _ h ha
  generalize hx : (Except.ok (m, md) : Res (Message × UnpackMetadata)) = x at key
  cases key with
  | unwrapFailed => cases hx
  | authFailed => cases hx
  | signFailed => cases hx
  | plainFailed => cases hx
  | unpacked hu hau hsi hp =>
    rename_i u md1 a s m1 p
    cases hx
    have h0 : Unsaid (pastAuth u md1 a).2 := by
      have := hu.unsigned u md1 rfl ⟨rfl, rfl, rfl⟩
      cases a with
      | none => exact this
      | some a => exact this
    generalize pastAuth u md1 a = v at *
    obtain ⟨v, md2⟩ := v
    cases hsi with
    | notJws hn =>
      exfalso
      have : md2.signedMessage = some signed := by cases p <;> exact hm
      rw [h0.1] at this
      cases this
    | signed hr hh hc =>
      rename_i sg pl w hdr sa
      have hv : v = signed := by
        cases p with
        | none => exact Option.some.inj hm
        | some p => exact Option.some.inj hm
      subst hv
      obtain ⟨k', prot, sig⟩ := sg
      have hk' : k' = k := by
        cases p with
        | none => exact Option.some.inj hk
        | some p => exact Option.some.inj hk
      subst hk'
      cases hr with
      | one hr =>
        cases hh with
        | cons hh hnil =>
          cases hh with
          | json hb hhd =>
            cases hc with
            | verified hfr hdoc hkey hsch hraw hver hpl hut =>
              cases hdoc with
              | found hdoc =>
                cases hkey with
                | key hl hvm hsc hkp =>
                  rename_i b doc c st ky raw vm sa'
                  obtain ⟨t, ht, hi⟩ := (C74_signed v ⟨[⟨k', prot, sig⟩], pl⟩).1 hr
                  refine ⟨prot, sig, pl, doc, c, ky, ⟨t, ht, hi⟩, hdoc, ⟨hl, vm, hvm, asKeyPair_keyAlg hkp, hkp⟩, ?_⟩
                  intro E' other doc' opts' hs hw hd' hk2
                  obtain ⟨hl2, vm2, hvm2, -, hkp2⟩ := hk2
                  have hread : fromJson dJws (JWS.onWire ⟨[⟨other, prot, sig⟩], pl⟩) = .ok ⟨[⟨other, prot, sig⟩], pl⟩ := by
                    rw [JWS.onWire_eq]
                    refine jws_print ⟨[⟨other, prot, sig⟩], pl⟩ (plain_of_decode hpl) fun s hs => ?_
                    obtain rfl := List.mem_singleton.1 hs
                    exact ⟨hw.2.2, plain_of_decode hb, plain_of_decode hraw⟩
                  have hjm : Recognised dJwe (JWS.onWire ⟨[⟨other, prot, sig⟩], pl⟩) (.ok none) := by
                    refine .other ?_
                    rw [JWS.onWire_eq]
                    exact jws_not_jwe _
                  have hx := (C81_exact (E := E') hd hf _ opts' _).1
                    (.unpacked (.none (.notJwe hjm)) (.notJwe hjm) (a := none)
                      (.signed (.one hread) (.cons (.json hb hhd) .nil)
                        (.verified hw.1 (.found hd') (.key hl2 hvm2 hsc hkp2) hsch hraw hver hpl hut)) (hp.seen hs))
                  obtain ⟨r1, a1⟩ := Prog.run_spec E' id (unpack C (JWS.onWire ⟨[⟨other, prot, sig⟩], pl⟩) opts')
                  have hr1 := hx _ _ r1 a1
                  rw [hr1] at r1
                  have hret := unpack_returns a1 r1
                  obtain ⟨-, e1, e2⟩ := h0
                  cases p with
                  | none =>
                    dsimp only at e1 e2
                    simpa only [pastAuth, pastSign, UnpackMetadata.seeSign, UnpackMetadata.seePrior, e1, e2] using hret
                  | some p => exact hret

/-- A document of somebody else that lists Alice's Ed25519 public key. -/
def World.malloryDoc : DIDDoc :=
  { id := b!"did:example:mallory"
    keyAgreement := []
    authentication := [b!"did:example:mallory#ed"]
    verificationMethod := [World.method b!"did:example:mallory#ed" b!"OKP" b!"Ed25519" [1]]
    service := [] }

/-- An agent that sees the four documents and has no secrets. -/
def World.malloryEnv : Env := World.envOf [World.aliceDoc, World.bobDoc, World.mediatorDoc, World.malloryDoc] []

/-- Alice signs a message and encrypts it for Bob; Bob takes it out and passes it on as signed by Mallory's key, with Alice still in its
`from`. -/
example : ∃ (text text' : Str) (tr : List Event) (m : Message) (md md' : UnpackMetadata),
    Runs (unpack Toy.crypto text {}) tr (.ok (m, md)) ∧ Answers World.env tr ∧ md.signFrom = some b!"did:example:alice#ed" ∧
    m.from_ = some World.alice ∧ Returns World.malloryEnv (unpack Toy.crypto text' {}) (m, md') ∧ md'.nonRepudiation = true ∧
    md'.signFrom = some b!"did:example:mallory#ed" := by
  have ht : World.test World.env (do
      let x ← packEncrypted Toy.crypto World.msg World.bob (some World.alice) (some World.alice) { forward := false }
      let y ← unpack Toy.crypto x.1 {}
      pure (x.1, y)) (fun z => decide (z.2.2.signFrom = some b!"did:example:alice#ed" ∧ z.2.1.from_ = some World.alice ∧
        z.2.2.signedMessage.isSome)) = true := by decide +kernel
  obtain ⟨tr, ⟨text, m, md⟩, h, ha, hk⟩ := World.of_test ht
  obtain ⟨k1, k2, k3⟩ := of_decide_eq_true hk
  obtain ⟨signed, hs⟩ := Option.isSome_iff_exists.1 k3
  simp only [runs_bind_ok] at h
  obtain ⟨x, t1, _, rfl, -, y, t2, t3, rfl, h2, h3⟩ := h
  obtain ⟨rfl, h3⟩ := runs_pure.1 h3
  cases h3
  have ha := (answers_append.1 (answers_append.1 ha).2).1
  obtain ⟨prot, sig, pl, doc, c, key, -, hdoc, ⟨-, vm, hvm, -, hkp⟩, hall⟩ :=
    C107_taken_over World.neverLonger World.printsFloats _ _ _ _ _ h2 ha _ _ k1 hs
  have hdoc' : World.env.resolve (didOf b!"did:example:alice#ed") = .ok (some World.aliceDoc) := by rfl
  rw [hdoc'] at hdoc
  cases hdoc
  have hvm' : methodOf World.aliceDoc b!"did:example:alice#ed" = some (World.method b!"did:example:alice#ed" b!"OKP" b!"Ed25519" [1]) := by
    rfl
  rw [hvm'] at hvm
  cases hvm
  have hkp' : (World.method b!"did:example:alice#ed" b!"OKP" b!"Ed25519" [1]).asKeyPair Toy.crypto = .ok ⟨.ed25519, [1]⟩ := by rfl
  rw [hkp'] at hkp
  cases hkp
  refine ⟨x.1, _, t2, m, md, _, h2, ha, k1, k2, hall World.malloryEnv b!"did:example:mallory#ed" World.malloryDoc {} ?_ ?_ ?_ ?_, rfl, rfl⟩
  · intro d doc hd
    simp only [World.env, World.malloryEnv, World.envOf, exampleResolve, Except.ok.injEq] at hd ⊢
    exact List.find?_append (xs := [World.aliceDoc, World.bobDoc, World.mediatorDoc]) (ys := [World.malloryDoc]) ▸ by rw [hd]; rfl
  · exact ⟨by decide, rfl, plain_of_ascii (by decide)⟩
  · rfl
  · exact ⟨by decide, _, rfl, rfl, rfl⟩

/-- What is read of a header of a `from_prior` has the key id that was written. -/
theorem compact_kid {typ : Str} {alg : JwsAlg} {kid : Str} {hdr : CompactHeader} (hk : validUtf8 kid = true)
    (h : fromJson dCompactHeader (CompactHeader.onWire ⟨typ, alg, kid⟩) = .ok hdr) : hdr.kid = kid := by
  rw [CompactHeader.onWire_eq] at h
  by_cases he : NeedsEscape kid
  · rw [compactHeader_escaped _ _ _ he] at h; cases h
  have hp : Plain kid := by
    refine ⟨hk, fun b hb => ⟨fun e => he ⟨b, hb, .inl e⟩, fun e => he ⟨b, hb, .inr (.inl e)⟩, ?_⟩⟩
    by_cases hlt : b < 0x20
    · exact absurd ⟨b, hb, .inr (.inr hlt)⟩ he
    · simpa using hlt
  obtain ⟨t, ht, hd⟩ := fromJson_ok h
  rw [parseJson_print] at ht
  · cases ht
    unfold dCompactHeader CompactHeader.toJson at hd
    rw [asStruct_tree _ _ _ (by decide) (by keys_utf8)] at hd
    simp only [Option.bind_eq_bind, Option.bind_some] at hd
    rw [reqField_tree (name := b!"kid") (v := .str kid) (by simp), dBorrow_plain hp] at hd
    simp only [Option.bind_eq_some_iff, Option.some.injEq] at hd
    obtain ⟨_, -, _, -, _, rfl, rfl⟩ := hd
    rfl
  · simp [CompactHeader.toJson, Value.NumsOk, Value.NumsOkM]

/-- C107: if the owner of every key that can stand for the reported issuer key `k` of a prior DID uses it with this library only, for the
messages `msgs` and the packings `past`, then the reported claims were packed by one of these, and that packing reported the key id
`k`.  So, if key ids in a document belong to its DID, the issuer named in the claims is the DID of `k`, and not the
subject. -/
theorem C107_issuer (msg : Str) (opts : UnpackOptions) (tr : List Event) (m : Message) (md : UnpackMetadata) (k : Str)
    (msgs : Message → Prop) (past : IssueRun C → Prop) (h : Runs (unpack C msg opts) tr (.ok (m, md)))
    (hk : md.fromPriorIssuerKid = some k) (hwf : ∀ p, past p → p.claims.WF ∧ validUtf8 p.kid = true)
    (honest : ∀ doc c key, evResolve (didOf k) (some doc) ∈ tr → KeyFrom C doc doc.authentication k c key →
      OnlyIssued C c key msgs past)
    (hown : ∀ p, past p → ∀ d doc, p.env.resolve d = .ok (some doc) → ∀ kid ∈ doc.authentication, didOf kid = d)
    (hsec : ∀ p, past p → HonestSecrets p.env) :
    ∃ p, past p ∧ md.fromPrior = some p.claims ∧ p.kid = k ∧ p.claims.iss = didOf k ∧ p.claims.iss ≠ p.claims.sub ∧
      PlainDid p.claims.iss ∧ PlainDid p.claims.sub := by
  cases hj : m.fromPrior with
  | none =>
    obtain ⟨t1, t2, t3, t4, msg1, md1, msg2, md2, msg3, md3, rfl, h1, h2, h3, h4, h5, h6⟩ := unpack_parts h
    rcases h6 with ⟨-, -, rfl⟩ | ⟨_, _, _, _, _, _, hp, -⟩
    · exfalso
      have e1 : md1.fromPriorIssuerKid = none := by
        rcases h1.metadata with ⟨-, rfl, -⟩ | ⟨_, _, _, _, _, _, _, _, rfl, -⟩ <;> rfl
      have e2 : md2.fromPriorIssuerKid = none := by
        rcases h2 with ⟨-, rfl, -⟩ | ⟨_, _, _, _, _, _, _, _, -, -, -, -, -, -, -, rfl⟩ <;> exact e1
      have e3 : md.fromPriorIssuerKid = none := by
        rcases h3 with ⟨-, rfl, -⟩ | ⟨_, _, _, _, _, -, -, -, -, rfl⟩ <;> exact e2
      rw [e3] at hk; cases hk
    · rw [hj] at hp; cases hp
  | some jwt =>
    obtain ⟨k', fp', doc, c, key, e1, e2, -, e3, e4, e5⟩ := C13_from_prior msg opts tr m md jwt h hj
    rw [hk] at e1; cases e1
    obtain ⟨hd, pl, sig, b, hdr, st, sa, raw, payload, -, d1, d2, -, d6, -, -, d3, d4, -, d5⟩ := e5
    rcases honest doc c key e3 e4 _ _ _ d3 with ⟨m', hm, a, ht⟩ | ⟨p, a, hp, ht⟩
    · obtain ⟨rfl, -⟩ := dot_unique ht (no_dot d1) (encode_no_dot _)
      rw [B64.decode_encode] at d1; cases d1
      exact absurd d2 (jwsHeader_not_compact _ _ _)
    · obtain ⟨rfl, rfl⟩ := dot_unique ht (no_dot d1) (encode_no_dot _)
      rw [B64.decode_encode] at d4; cases d4
      rw [B64.decode_encode] at d1; cases d1
      rw [fromPrior_print p.claims (hwf p hp).1] at d5
      cases d5
      have hkid : p.kid = k := (compact_kid (hwf p hp).2 d2).symm.trans d6
      obtain ⟨v1, v2, v3, -, idoc, found, secret, htr, hhead, -, hin, -⟩ := C15_issue p.claims p.issuerKid p.trace p.jwt p.kid p.run
      have hdoc : p.env.resolve p.claims.iss = .ok (some idoc) := by
        have ha := p.answers (evResolve p.claims.iss (some idoc)) (by rw [htr]; simp)
        exact ha.symm
      have hmem : p.kid ∈ idoc.authentication := by
        refine (hin fun kids found' hf kid hkid => ?_).1
        have ha := p.answers _ hf
        exact hsec p hp _ _ ha.symm kid hkid
      exact ⟨p, hp, e2, hkid, by rw [← hkid]; exact (hown p hp _ idoc hdoc p.kid hmem).symm, v3, v1, v2⟩

/-- With ideal signatures and an Alice who packed `World.claims`, every hypothesis of the theorem is met. -/
example : ∃ (text : Str) (tr : List Event) (m : Message) (md : UnpackMetadata) (past : IssueRun World.signing → Prop),
    Runs (unpack World.signing text {}) tr (.ok (m, md)) ∧ md.fromPriorIssuerKid = some b!"did:example:alice#ed" ∧ (∃ p, past p) ∧
    (∀ p, past p → p.claims.WF ∧ validUtf8 p.kid = true) ∧ (∀ c key, OnlyIssued World.signing c key (· = World.msg) past) ∧
    (∀ p, past p → ∀ d doc, p.env.resolve d = .ok (some doc) → ∀ kid ∈ doc.authentication, didOf kid = d) ∧
    ∀ p, past p → HonestSecrets p.env := by
  have h : World.test World.env (do
      let (jwt, k) ← FromPrior.pack World.signing World.claims none
      let y ← unpack World.signing (Message.toJson { id := [], type_ := [], body := .null, fromPrior := some jwt }).print {}
      pure (k, y)) (fun x => decide (x.1 = b!"did:example:alice#ed" ∧ x.2.2.fromPriorIssuerKid = some b!"did:example:alice#ed")) = true := by
    decide +kernel
  obtain ⟨tr, ⟨k, m, md⟩, h, ha, hk⟩ := World.of_test h
  obtain ⟨k1, k2⟩ := of_decide_eq_true hk
  simp only [runs_bind_ok] at h
  obtain ⟨⟨jwt, k'⟩, t1, _, rfl, h1, y, t2, t3, rfl, h2, h3⟩ := h
  obtain ⟨rfl, h3⟩ := runs_pure.1 h3
  cases h3
  subst k1
  let p0 : IssueRun World.signing := ⟨World.env, World.claims, none, t1, jwt, _, (answers_append.1 ha).1, h1⟩
  refine ⟨_, t2, m, md, fun p => p = p0, h2, k2, ⟨p0, rfl⟩, ?_, ?_, ?_, ?_⟩
  · rintro p rfl
    show World.claims.WF ∧ validUtf8 b!"did:example:alice#ed" = true
    exact ⟨⟨by decide +kernel, by decide +kernel, fun _ h => (by cases h), fun _ h => (by cases h)⟩, by decide +kernel⟩
  · intro c key text sig st hv
    simp only [World.signing] at hv
    split at hv
    · rename_i ht
      rcases ht with rfl | rfl
      · exact .inl ⟨_, rfl, .edDSA, by rw [JwsHeader.onWire_eq]; rfl⟩
      · exact .inr ⟨p0, .edDSA, rfl, by rw [CompactHeader.onWire_eq]; rfl⟩
    · cases hv
  · rintro p rfl d doc hd kid hkid
    simp only [p0, World.env, World.envOf, exampleResolve, Except.ok.injEq] at hd
    have h1 := List.find?_some hd
    have h2 := List.mem_of_find?_eq_some hd
    simp only [beq_iff_eq] at h1
    subst h1
    revert kid
    simp only [List.mem_cons, List.not_mem_nil, or_false] at h2
    rcases h2 with rfl | rfl | rfl <;> decide
  · rintro p rfl
    exact World.honest _ _

end DIDComm
