import Verif.Proofs.OutcomeUnpackUnique

/-!
# C81, C82: how unpacking ends

The tables are in `Verif.Spec.OutcomeUnpack`: they say, in terms of the text, of the answers of the resolvers and of the
cryptographic functions, what comes out of unpacking or with which error it ends.
-/

set_option autoImplicit false

namespace DIDComm

variable {C : Crypto} {E : Env}

/-! ## C81: the table is complete and exact -/

/-- C81: every run of `unpack` ends in one of the ways of the table. -/
theorem C81_unpack (hd : NeverLonger C) (hf : PrintsFloats C) (t : Str) (opts : UnpackOptions) (tr : List Event)
    (r : Res (Message × UnpackMetadata)) (h : Runs (unpack C t opts) tr r) (ha : Answers E tr) : Unpacked C E opts t r := by
  rcases unpacked t opts tr r h ha with rfl | h'
  · exact absurd h (C25_ends hd hf t opts tr)
  · exact h'

/-- C81: a way of the table is taken by every run or by none, and exactly one is: what the resolvers answer decides how unpacking
ends. -/
theorem C81_exact (hd : NeverLonger C) (hf : PrintsFloats C) (t : Str) (opts : UnpackOptions) (x : Res (Message × UnpackMetadata)) :
    Unpacked C E opts t x ↔ ∀ tr r, Runs (unpack C t opts) tr r → Answers E tr → r = x := by
  constructor
  · intro hx tr r h ha
    exact (C81_unpack hd hf t opts tr r h ha).unique hx
  · intro h
    obtain ⟨h1, h2⟩ := Prog.run_spec E id (unpack C t opts)
    have := C81_unpack hd hf t opts _ _ h1 h2
    rwa [h _ _ h1 h2] at this

/-- C81: so two runs with the same answers end the same way. -/
theorem C81_determined (hd : NeverLonger C) (hf : PrintsFloats C) (t : Str) (opts : UnpackOptions) (tr tr' : List Event)
    (r r' : Res (Message × UnpackMetadata)) (h : Runs (unpack C t opts) tr r) (ha : Answers E tr) (h' : Runs (unpack C t opts) tr' r')
    (ha' : Answers E tr') : r = r' :=
  (C81_unpack hd hf t opts tr r h ha).unique (C81_unpack hd hf t opts tr' r' h' ha')

/-- C81: unpacking never ends but with a result or an error of the library: there is exactly one way for every text. -/
theorem C81_one_way (hd : NeverLonger C) (hf : PrintsFloats C) (t : Str) (opts : UnpackOptions) :
    ∃ x, Unpacked C E opts t x ∧ ∀ y, Unpacked C E opts t y → y = x := by
  obtain ⟨h1, h2⟩ := Prog.run_spec E id (unpack C t opts)
  exact ⟨_, C81_unpack hd hf t opts _ _ h1 h2, fun y hy => hy.unique (C81_unpack hd hf t opts _ _ h1 h2)⟩

/-! ## C82: what is accepted -/

theorem entryFor_of {j : JWE} {r : JweRecipient} (hr : r ∈ j.recipients) (hn : (kidsOf j).Nodup) : entryFor j r.kid = some r := by
  unfold entryFor
  unfold kidsOf at hn
  generalize j.recipients = l at *
  induction l with
  | nil => cases hr
  | cons a l ih =>
    rw [List.map_cons, List.nodup_cons] at hn
    rcases List.mem_cons.1 hr with rfl | hr
    · simp
    · have : a.kid ≠ r.kid := fun h => hn.1 (h ▸ List.mem_map_of_mem hr)
      rw [List.find?_cons_of_neg (by simpa using this)]
      exact ih hr hn.2

theorem ReadsJwe.recognised {t : Str} {j : JWE} {hdr : JweHeader} {apu : Option Bytes} {apv : Bytes} (h : ReadsJwe C t j hdr apu apv) :
    Recognised dJwe t (.ok (some j)) ∧ JweHeaderRead C j (.ok (hdr, apu, apv)) := by
  refine ⟨.one h.text, ?_⟩
  obtain ⟨b, h1, h2⟩ := h.header
  rcases h.apu with ⟨h3, rfl⟩ | ⟨a, x, h3, h4, rfl⟩
  · exact .anonymous (.json h1 h2) h.apv h3
  · exact .named (.json h1 h2) h.apv h3 h4

theorem OpensWith.decrypts {j : JWE} {hdr : JweHeader} {ce : ContentEnc} {c : Curve} {kid : Str} {agree : C.Key → Bytes → Option Bytes}
    {kw tag payload : Bytes} {epk : C.Key} (h : OpensWith C j ce kid kw tag payload) (hn : (kidsOf j).Nodup)
    (he : C.fromJwk c hdr.epk = some epk) (ha : agree epk tag = some kw) : Decrypts C j hdr ce c kid agree (.ok payload) := by
  obtain ⟨r, ek, cek, ct, iv, hr, rfl, h1, h2, h3, h4, h5, h6⟩ := h
  exact .opened (entryFor_of hr hn) h1 he h2 ha h5 h3 h4 h6

theorem WeHave.opened {α : Type} {all : Bool} {kids : List Str} {kid : Str} {p : KeyPair C} (h : WeHave C E all kids kid p)
    {tried : Str → KeyPair C → Res (α × Bytes) → Prop} {a : α} {b : Bytes} (ht : tried kid p (.ok (a, b))) (hu : IsUtf8 b) :
    OpenedFor C E all tried kids (.ok (a, b)) := by
  obtain ⟨h1, -, -, rest, s, h2, h3, h4, h5⟩ := h
  exact .opened h1 h2 (.last (.read h4 h5) ht h3) hu

/-- C82: an anonymous envelope from anywhere, which opens with a key of ours, is opened. -/
theorem C82_anon_layer (all : Bool) (t : Str) (kids : List Str) (alg : AnonCryptAlg) (kid : Str) (p : KeyPair C) (payload : Bytes)
    (h : AnonOpens C t kids alg p.curve kid p.key payload) (hu : IsUtf8 payload) (hk : WeHave C E all kids kid p) :
    AnonLayer C E all t (.ok (some (kids, alg, payload))) := by
  obtain ⟨j, hdr, apv, ce, epk, kw, tag, hr, ha, hs, he, rfl, hv, h1, h2, h3⟩ := h
  obtain ⟨hj, hh⟩ := hr.recognised
  have := hk.opened (tried := TriedAnon C j hdr none apv) (.opened hk.2.2.1 he rfl (h3.decrypts hk.2.1 h1 h2)) hu
  exact .opened hj hh ha ⟨hv, .inl ⟨rfl, hs⟩⟩ this

/-- C82: an envelope of a sender whose document is known, which opens with a key of ours, is opened. -/
theorem C82_auth_layer (all : Bool) (t : Str) (kids : List Str) (fromKid kid : Str) (c : Curve) (skey : C.Key) (p : KeyPair C)
    (payload : Bytes) (h : AuthOpens C t kids fromKid c skey kid p.key payload) (hu : IsUtf8 payload) (hf : IsUtf8 fromKid)
    (hs : TheyHave C E DIDDoc.keyAgreement fromKid c skey) (hk : WeHave C E all kids kid p) (hc : p.curve = c) :
    AuthLayer C E all t (.ok (some (kids, fromKid, .a256cbcHs512Ecdh1puA256kw, payload))) := by
  obtain ⟨j, hdr, apv, epk, kw, tag, hr, ha, hsk, he, rfl, hv, h1, h2, h3⟩ := h
  obtain ⟨hj, hh⟩ := hr.recognised
  obtain ⟨hfr, doc, hd, hl, vm, hm, -, hkp⟩ := hs
  subst hc
  have := hk.opened (tried := TriedAuth C j hdr apv fromKid ⟨p.curve, skey⟩)
    (.opened (s := ⟨p.curve, skey⟩) hk.2.2.1 rfl he (h3.decrypts hk.2.1 h1 h2)) hu
  exact .opened hj hh ha ⟨hv, .inr ⟨_, rfl, hf, hsk⟩⟩ (.opened hfr (.read hd hl hm hkp) this)

/-- C82: a JWS with one signature, which verifies with the key of a signer whose document is known, is accepted. -/
theorem C82_sign_layer (t : Str) (kid : Str) (alg : SignAlg) (c : Curve) (key : C.Key) (payload : Bytes)
    (h : SignedBy C t kid alg c key payload) (hk : TheyHave C E DIDDoc.authentication kid c key) :
    SignLayer C E t (.ok (some (kid, alg, payload))) := by
  obtain ⟨prot, sig, pl, b, hdr, st, raw, h1, h2, h3, h4, h5, h6, h7, h8⟩ := h
  obtain ⟨hfr, doc, hd, hl, vm, hm, ht, hkp⟩ := hk
  exact .signed (s := ⟨kid, prot, sig⟩) (.one h1) (.cons (.json h2 h3) .nil)
    (.verified hfr (.found hd) (.key hl hm h4 hkp) h4 h5 h6 h7 h8)

theorem ArrivesOpen.layers {u : Str} {md md' : UnpackMetadata} {m : Message} (h : ArrivesOpen C E u md m md') :
    ∃ s p, SignLayer C E u (.ok s) ∧ PlainLayer C E (pastSign u md s).1 (.ok (m, p)) ∧ md' = (pastSign u md s).2.seePrior p := by
  cases h with
  | plain hn hp => exact ⟨none, _, .notJws (.other hn), hp, rfl⟩
  | signed hs hk hp => exact ⟨some _, _, C82_sign_layer _ _ _ _ _ _ hs hk, hp, rfl⟩

theorem ArrivesAuth.layers {all : Bool} {u : Str} {md md' : UnpackMetadata} {m : Message} (h : ArrivesAuth C E all u md m md') :
    AnonLayer C E all u (.ok none) ∧ ∃ a, AuthLayer C E all u (.ok a) ∧ ArrivesOpen C E (pastAuth u md a).1 (pastAuth u md a).2 m md' := by
  cases h with
  | bare hn ho => exact ⟨.notJwe (.other hn), none, .notJwe (.other hn), ho⟩
  | auth ha hu hf hs hk hc ho =>
    refine ⟨?_, some _, C82_auth_layer _ _ _ _ _ _ _ _ _ ha hu hf hs hk hc, ho⟩
    obtain ⟨j, hdr, apv, epk, kw, tag, hr, ha, -⟩ := ha
    obtain ⟨hj, hh⟩ := hr.recognised
    exact .otherAlg hj hh (by rw [ha]; simp)

theorem Arrives.unwraps {opts : UnpackOptions} {t : Str} {md md' : UnpackMetadata} {m : Message} (h : Arrives C E opts t md m md') :
    ∃ u md1, Unwraps C E opts t md (.ok (u, md1)) ∧ ArrivesAuth C E opts.expectDecryptByAllKeys u md1 m md' := by
  induction h with
  | bare h => exact ⟨_, _, .none h.layers.1, h⟩
  | anon ha hu hk hn ho =>
    have hl := C82_anon_layer _ _ _ _ _ _ _ ha hu hk
    refine ⟨_, _, ?_, ho⟩
    cases hw : opts.unwrapReWrappingForward with
    | false => exact .notAsked hl hw
    | true =>
      rcases hn with hn | hn
      · rw [hw] at hn; cases hn
      · exact .last hl hw hn
  | rewrapped ha hu hk ho hm hf hw hi ih =>
    obtain ⟨u, md1, h1, h2⟩ := ih
    exact ⟨u, md1, .again (C82_anon_layer _ _ _ _ _ _ _ ha hu hk) ho (.ours (.one hm) hf hw) h1, h2⟩

/-- C82: a message that arrives, from whatever implementation, is unpacked: every run returns that message, with the metadata that
follow from its layers. -/
theorem C82_accepted (hd : NeverLonger C) (hf : PrintsFloats C) (t : Str) (opts : UnpackOptions) (m : Message) (md : UnpackMetadata)
    (h : Arrives C E opts t {} m md) (tr : List Event) (r : Res (Message × UnpackMetadata)) (hr : Runs (unpack C t opts) tr r)
    (ha : Answers E tr) : r = .ok (m, md) := by
  obtain ⟨u, md1, h1, h2⟩ := h.unwraps
  obtain ⟨-, a, h3, h4⟩ := h2.layers
  obtain ⟨s, p, h5, h6, rfl⟩ := h4.layers
  exact (C81_exact hd hf t opts _).1 (.unpacked h1 h3 h5 h6) tr r hr ha

/-- Conversely, what was opened with the first key had the evidence for it. -/
theorem AnonLayer.evidence {t : Str} {kids : List Str} {alg : AnonCryptAlg} {u : Str}
    (h : AnonLayer C E false t (.ok (some (kids, alg, u)))) (hn : kids.Nodup) :
    IsUtf8 u ∧ ∃ kid p, AnonOpens C t kids alg p.curve kid p.key u ∧ WeHave C E false kids kid p := by
  cases h with
  | opened h hh ha hb ho =>
    cases h with | one h =>
    rename_i j hdr apu apv
    cases ho with
    | opened ho hf ht hu =>
      refine ⟨hu, ?_⟩
      rename_i found
      have hne : ∀ {kid : Str} {rest : List Str} {p : KeyPair C}, found = kid :: rest → OurSecret C E kid (.ok p) →
          TriedAnon C j hdr apu apv kid p (.ok (alg, u)) →
          ∃ kid p, AnonOpens C t (kidsOf j) alg p.curve kid p.key u ∧ WeHave C E false (kidsOf j) kid p := by
        intro kid rest p hfk hs htr
        subst hfk
        cases hs with
        | read hg hk =>
          cases htr with
          | opened hc he hap hd =>
            subst hap
            cases hd with
            | opened e1 e2 e3 e4 e5 e6 e7 e8 e9 =>
              refine ⟨kid, p, ?_, ho, hn, hc, rest, _, hf, .inl rfl, hg, hk⟩
              have hr := List.mem_of_find?_eq_some e1
              have hkid := List.find?_some e1
              have hskid : hdr.skid = none := by
                rcases hb.2 with ⟨_, h⟩ | ⟨_, h, _⟩
                · exact h
                · cases h
              have hread : ReadsJwe C t j hdr none apv := by
                cases hh with
                | anonymous h1 h2 h3 =>
                  cases h1 with
                  | json h4 h5 => exact ⟨h, ⟨_, h4, h5⟩, .inl ⟨h3, rfl⟩, h2⟩
              exact ⟨j, hdr, apv, _, _, _, _, hread, ha, hskid, he, rfl, hb.1, e3, e5,
                _, _, _, _, _, hr, by simpa using hkid, e2, e4, e7, e8, e6, e9⟩
      cases ht with
      | last hs ht hl => exact hne rfl hs ht
      | more hs ht hl => cases hl

/-! ## Examples -/

theorem World.envelopes : ∃ t kid p, AnonOpens Toy.crypto t [b!"did:example:bob#x1", b!"did:example:bob#x2"] .a256cbcHs512EcdhEsA256kw
      p.curve kid p.key World.msg.toJson.print ∧
    WeHave Toy.crypto World.env false [b!"did:example:bob#x1", b!"did:example:bob#x2"] kid p ∧ IsUtf8 World.msg.toJson.print := by
  have : World.test World.env (do
      let x ← packEncrypted Toy.crypto World.msg World.bob none none { forward := false, encAlgAnon := .a256cbcHs512EcdhEsA256kw }
      let y ← tryUnpackAnoncrypt Toy.crypto x.1 {} {}
      pure (x.1, y)) (fun z => decide (z.2 = (some World.msg.toJson.print,
        UnpackMetadata.seeAnon {} [b!"did:example:bob#x1", b!"did:example:bob#x2"] .a256cbcHs512EcdhEsA256kw))) = true := by
    decide +kernel
  obtain ⟨tr, z, h, ha, hz⟩ := World.of_test this
  rcases runs_bind.1 h with ⟨_, _, h'⟩ | ⟨x, t1, t2, rfl, _, h⟩
  · cases h'
  rcases runs_bind.1 h with ⟨_, _, h'⟩ | ⟨y, t3, t4, rfl, h1, h⟩
  · cases h'
  obtain ⟨rfl, h⟩ := runs_pure.1 h
  cases h
  have hy := of_decide_eq_true hz
  dsimp only at hy
  subst hy
  have ha := (answers_append.1 (answers_append.1 ha).2).1
  obtain ⟨r', hr', he⟩ := anonLayer x.1 {} {} t3 _ h1 ha
  cases r' with
  | error _ => cases he
  | ok o =>
    cases o with
    | none => cases he
    | some w =>
      obtain ⟨kids, alg, u⟩ := w
      simp only [Except.map, Option.elim, Except.ok.injEq, Prod.mk.injEq, Option.some.injEq, UnpackMetadata.seeAnon,
        UnpackMetadata.mk.injEq, true_and, and_true] at he
      obtain ⟨rfl, hk, rfl⟩ := he
      subst hk
      obtain ⟨hu, kid, p, h2, h3⟩ := hr'.evidence (by decide)
      exact ⟨x.1, kid, p, h2, h3, hu⟩

set_option maxRecDepth 100000 in
/-- The plaintext of the message, and what it is not. -/
theorem World.plain_text : fromJson dJwe World.msg.toJson.print = .error (.kind .malformed) ∧
    fromJson dJws World.msg.toJson.print = .error (.kind .malformed) ∧
    fromJson (dMessage Toy.crypto.f64) World.msg.toJson.print = .ok World.msg := ⟨by rfl, by rfl, by rfl⟩

/-- The plaintext arrives. -/
theorem World.plain_arrives (md : UnpackMetadata) : ArrivesAuth Toy.crypto World.env false World.msg.toJson.print md World.msg md :=
  .bare World.plain_text.1 (.plain (p := none) World.plain_text.2.1 (.plain (.one World.plain_text.2.2) rfl rfl))

/-- An envelope for two keys of Bob's arrives, and every run returns the message. -/
example : ∃ t, ∀ tr r, Runs (unpack Toy.crypto t {}) tr r → Answers World.env tr → r = .ok (World.msg,
    UnpackMetadata.seeAnon {} [b!"did:example:bob#x1", b!"did:example:bob#x2"] .a256cbcHs512EcdhEsA256kw) := by
  obtain ⟨t, kid, p, h1, h2, h3⟩ := World.envelopes
  refine ⟨t, C82_accepted World.neverLonger World.printsFloats t {} _ _
    (.anon h1 h3 h2 (.inr (.notForward (.one World.plain_text.2.2) ?_)) (World.plain_arrives _))⟩
  intro next v hf
  have := hf.1
  revert this
  decide

/-- A text that ends too early, and one that is no message at all. -/
example (opts : UnpackOptions) (tr : List Event) (r : Res (Message × UnpackMetadata)) (ha : Answers World.aliceEnv tr) :
    (Runs (unpack Toy.crypto b!"{\"id\":" opts) tr r → r = .error (.kind .invalidState)) ∧
    (Runs (unpack Toy.crypto b!"[]" opts) tr r → r = .error (.kind .malformed)) := by
  refine ⟨fun h => ?_, fun h => ?_⟩
  · exact (C81_exact World.neverLonger World.printsFloats _ opts _).1 (.unwrapFailed (.failed (.cutOff (.cutOff (by rfl))))) tr r h ha
  · exact (C81_exact World.neverLonger World.printsFloats _ opts _).1 (.plainFailed (.none (.notJwe (.other (by rfl))))
      (.notJwe (.other (by rfl))) (.notJws (.other (by rfl))) (.notMessage (.other (by rfl)))) tr r h ha

end DIDComm
