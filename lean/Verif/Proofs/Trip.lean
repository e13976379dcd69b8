import Verif.Proofs.RoundTrip

/-! # Round trips: signatures, plaintext, and whole messages -/

set_option autoImplicit false

namespace DIDComm

variable {C : Crypto} {pairs : Curve → C.Key → C.Key → Prop}

/-! ## Texts that are not envelopes -/

theorem reqField_tree_none {α : Type} {m : List (Str × Value)} {name : Str} {d : Tree → Option α}
    (h : named name m = []) : reqField (m.map fun p => (p.1, p.2.tree)) name d = none := by
  simp [reqField, field_tree, h]

theorem fromJson_print_none {α : Type} {d : Nat → Tree → Option α} {_ : Early d} {v : Value} (hv : v.NumsOk)
    (h : d depthLimit v.tree = none) : fromJson d v.print = .error (.kind .malformed) := by
  simp [fromJson, parseJson_print v hv, h]

theorem bind_none_right {α β : Type} (o : Option α) : (o.bind fun _ => (none : Option β)) = none := by
  cases o <;> rfl

/-- An object without one of the members of an encrypted envelope is none. -/
theorem not_jwe {l : List (Str × Value)} (hk : KeysUtf8 l) (hn : (Value.obj l).NumsOk)
    (h : ∃ k ∈ [b!"protected", b!"recipients", b!"iv", b!"ciphertext", b!"tag"], k ∉ l.map Prod.fst) :
    jweFromStr (Value.obj l).print = .error (.kind .malformed) := by
  apply fromJson_print_none hn
  unfold dJwe
  rw [asStruct_tree _ _ _ (by decide) hk]
  simp only [Option.bind_eq_bind, Option.bind_some]
  obtain ⟨k, hk, hm⟩ := h
  have hm := named_of_not_mem hm
  simp only [List.mem_cons, List.not_mem_nil, or_false] at hk
  rcases hk with rfl | rfl | rfl | rfl | rfl <;> simp [reqField_tree_none hm, bind_none_right]

/-- An object without one of the members of a signed envelope is none. -/
theorem not_jws {l : List (Str × Value)} (hk : KeysUtf8 l) (hn : (Value.obj l).NumsOk)
    (h : ∃ k ∈ [b!"signatures", b!"payload"], k ∉ l.map Prod.fst) :
    jwsFromStr (Value.obj l).print = .error (.kind .malformed) := by
  apply fromJson_print_none hn
  unfold dJws
  rw [asStruct_tree _ _ _ (by decide) hk]
  simp only [Option.bind_eq_bind, Option.bind_some]
  obtain ⟨k, hk, hm⟩ := h
  have hm := named_of_not_mem hm
  simp only [List.mem_cons, List.not_mem_nil, or_false] at hk
  rcases hk with rfl | rfl <;> simp [reqField_tree_none hm, bind_none_right]

/-- An object without an id is not a message. -/
theorem not_message {f64 : Str → Option Str} {l : List (Str × Value)} (hk : KeysUtf8 l) (hn : (Value.obj l).NumsOk)
    (h : b!"id" ∉ l.map Prod.fst) :
    fromJson (dMessage f64) (Value.obj l).print = .error (.kind .malformed) := by
  apply fromJson_print_none hn
  unfold dMessage
  rw [asMap_tree _ _ (by decide) hk]
  simp only [Option.bind_eq_bind, Option.bind_some]
  simp [reqField_tree_none (named_of_not_mem h)]

/-- The member names of a message are the standard ones and the extra headers. -/
theorem Message.keys {m : Message} {k : Str} (h : k ∉ m.extraHeaders.map Prod.fst) (hr : k ∉ reservedHeaders) :
    ∃ l, m.toJson = .obj l ∧ k ∉ l.map Prod.fst := by
  refine ⟨_, rfl, ?_⟩
  have opt : ∀ {α : Type} (n : Str) (f : α → Value) (o : Option α), n ∈ reservedHeaders →
      k ∉ (optMember n f o).map Prod.fst := by
    intro α n f o hn
    cases o with
    | none => simp [optMember]
    | some a => simp only [optMember, List.map_cons, List.map_nil, List.mem_singleton]; rintro rfl; exact hr hn
  simp only [List.map_append, List.mem_append, not_or]
  refine ⟨⟨⟨⟨⟨⟨⟨⟨⟨?_, opt _ _ _ (by decide)⟩, opt _ _ _ (by decide)⟩, opt _ _ _ (by decide)⟩, opt _ _ _ (by decide)⟩, h⟩,
    opt _ _ _ (by decide)⟩, opt _ _ _ (by decide)⟩, opt _ _ _ (by decide)⟩, opt _ _ _ (by decide)⟩
  simp only [List.map_cons, List.map_nil]
  intro hk
  apply hr
  revert hk
  simp only [reservedHeaders, List.mem_cons, List.not_mem_nil, or_false]
  rintro (h | h | h | h) <;> simp [h]

theorem Message.keysUtf8 {m : Message} (h : m.WF C.f64) {l : List (Str × Value)} (hl : m.toJson = .obj l) : KeysUtf8 l := by
  have hx := h.extra.keys
  unfold Message.toJson at hl
  cases hl
  keys_utf8

theorem message_not_jwe {m : Message} (h : m.WF C.f64) (hn : NotEnvelope m) :
    jweFromStr m.toJson.print = .error (.kind .malformed) := by
  obtain ⟨k, hk, hm⟩ := hn.1
  obtain ⟨l, hl, hkl⟩ := Message.keys hm (by clear hm; revert hk; revert k; decide)
  have := Message.numsOk h
  rw [hl] at this ⊢
  exact not_jwe (Message.keysUtf8 h hl) this ⟨k, hk, hkl⟩

theorem message_not_jws {m : Message} (h : m.WF C.f64) (hn : NotEnvelope m) :
    jwsFromStr m.toJson.print = .error (.kind .malformed) := by
  obtain ⟨k, hk, hm⟩ := hn.2
  obtain ⟨l, hl, hkl⟩ := Message.keys hm (by clear hm; revert hk; revert k; decide)
  have := Message.numsOk h
  rw [hl] at this ⊢
  exact not_jws (Message.keysUtf8 h hl) this ⟨k, hk, hkl⟩

theorem JWS.numsOk (j : JWS) : j.toJson.NumsOk := by
  simp only [JWS.toJson, Value.NumsOk, Value.NumsOkM, and_true]
  exact numsOkL_map _ _ (fun s _ => by simp [JwsSig.toJson, Value.NumsOk, Value.NumsOkM])

theorem jws_not_jwe (j : JWS) : jweFromStr j.toJson.print = .error (.kind .malformed) :=
  not_jwe (by keys_utf8) j.numsOk ⟨b!"tag", by decide, by simp⟩

theorem jws_not_message (f64 : Str → Option Str) (j : JWS) :
    fromJson (dMessage f64) j.toJson.print = .error (.kind .malformed) :=
  not_message (by keys_utf8) j.numsOk (by simp)

theorem jwe_not_jws (j : JWE) : jwsFromStr j.toJson.print = .error (.kind .malformed) :=
  not_jws (by keys_utf8) j.numsOk ⟨b!"payload", by decide, by simp⟩

theorem jwe_not_message (f64 : Str → Option Str) (j : JWE) :
    fromJson (dMessage f64) j.toJson.print = .error (.kind .malformed) :=
  not_message (by keys_utf8) j.numsOk (by simp)

/-! ## Signatures -/

theorem signAlgFor_ok {c : Curve} {alg : JwsAlg} (h : signAlgFor c = .ok alg) :
    validUtf8 alg.asStr = true ∧ JwsAlg.ofStr alg.asStr = alg ∧ curveFor alg = .ok c ∧
      ∃ sa, signAlgOf alg = some sa ∧ ∃ st, Scheme alg c st sa := by
  cases c <;> simp only [signAlgFor, fail, Except.ok.injEq, reduceCtorEq] at h <;> subst h
  · exact ⟨by decide, rfl, rfl, _, rfl, _, .edDSA⟩
  · exact ⟨by decide, rfl, rfl, _, rfl, _, .es256⟩
  · exact ⟨by decide, rfl, rfl, _, rfl, _, .es256k⟩

theorem as_of_pair {vm : VerificationMethod} {c : Curve} {key : C.Key} (h : vm.asKeyPair C = .ok ⟨c, key⟩) :
    vm.as C c = .ok key := by
  simp [VerificationMethod.as, asCurve, asKeyPair_keyAlg h, h, bind, Except.bind]

theorem secret_as_ok {s : Secret} {c : Curve} {key : C.Key} (h : s.as C c = .ok key) :
    s.asKeyPair C = .ok ⟨c, key⟩ := by
  unfold Secret.as asCurve at h
  split at h
  · cases h
  · simp only [res_bind_ok] at h
    obtain ⟨p, hp, h⟩ := h
    split at h
    · rename_i hc
      cases h
      obtain ⟨c', key⟩ := p
      simp only at hc; subst hc
      exact hp
    · cases h

/-- A run without random draws determines the result. -/
theorem gives_of_run {α : Type} {E : Env} {p : Prog α} {tr : List Event} {r : Res α} (h : Runs p tr r)
    (ha : Answers E tr) (hr : ∀ ev ∈ tr, ev.query ≠ .random) : Gives E p r := by
  induction h with
  | ret r =>
    intro tr' r' _ h'
    cases h'; rfl
  | ask q k a tr r h ih =>
    rw [answers_cons] at ha
    intro tr' r' ha' h'
    cases h' with
    | ask _ _ a' tr' _ h' =>
      rw [answers_cons] at ha'
      have : a' = a := by
        cases q with
        | random => exact absurd rfl (hr ⟨.random, a⟩ (by simp))
        | resolve d => exact ha'.1.trans ha.1.symm
        | findSecrets d => exact ha'.1.trans ha.1.symm
        | getSecret d => exact ha'.1.trans ha.1.symm
      subst this
      exact ih ha.2 (fun ev he => hr ev (by simp [he])) _ _ ha'.2 h'

theorem Gives.run {α : Type} {E : Env} {p : Prog α} {r : Res α} (h : Gives E p r) : ∃ tr, Answers E tr ∧ Runs p tr r := by
  obtain ⟨h1, h2⟩ := Prog.run_spec E id p
  exact ⟨_, h2, h _ _ h2 h1 ▸ h1⟩

/-- A signed envelope is accepted by a receiver that sees the signer's document. -/
theorem sign_gives {E : Env} {doc : DIDDoc} {kid : Str} {curve : Curve} {s p : C.Key} {vm : VerificationMethod}
    {payload : Bytes} {alg : JwsAlg} {out : Str} (law : C.Lawful pairs)
    (hfk : HasFragment kid) (hfp : Plain kid) (hd : E.resolve (didOf kid) = .ok (some doc))
    (hfa : kid ∈ doc.authentication) (hvm : methodOf doc kid = some vm)
    (hsp : vm.asKeyPair C = .ok ⟨curve, p⟩) (hpr : pairs curve s p) (hpt : validUtf8 payload = true)
    (ha : signAlgFor curve = .ok alg) (h : jwsSign C payload kid curve s alg = .ok out) (md : UnpackMetadata) :
    Gives E (tryUnpackSign C out md) (.ok (some payload, md.sign kid (signAlgOf alg) out)) ∧
      (∃ sa st, signAlgOf alg = some sa ∧ Scheme alg curve st sa) ∧
      jweFromStr out = .error (.kind .malformed) ∧ messageFromStr C out = .error (.kind .malformed) ∧
      validUtf8 out = true := by
  obtain ⟨st, sig, h1, h2, rfl⟩ := jwsSign_ok.1 h
  obtain ⟨g1, g2, g3, sa, g4, st', g5⟩ := signAlgFor_ok ha
  have hprint := jws_print ⟨[⟨kid, jwsProtected alg, B64.encode sig⟩], B64.encode payload⟩ (B64.plain_encode _)
    (by
      intro x hx
      simp only [List.mem_singleton] at hx
      subst hx
      exact ⟨hfp, B64.plain_encode _, B64.plain_encode _⟩)
  refine ⟨?_, ⟨sa, st', g4, g5⟩, jws_not_jwe _, jws_not_message _ _, ?_⟩
  · refine gives_of_run (tr := [evResolve (didOrUrl kid).1 (some doc)]) (tryUnpackSign_ok.2 (.inr
      ⟨⟨⟨[⟨kid, jwsProtected alg, B64.encode sig⟩], B64.encode payload⟩, [⟨signedTyp, alg⟩]⟩, _, ⟨signedTyp, alg⟩, doc, vm,
        curve, p, payload, rfl, hprint, ?_, rfl, rfl, (didOrUrl_isSome kid).2 hfk, rfl, hfa, ?_, g3, as_of_pair hsp, ?_,
        B64.decode_encode _, hpt, rfl⟩)) ?_ (by simp)
    · simp only [JWS.parse, parseJwsHeaders, jwsProtected, B64.decode_encode, okOr,
        jwsHeader_print signedTyp alg (by decide) g1 g2, bind, Except.bind]
    · rw [find_method]; exact hvm
    · simp only [ParsedJWS.verify, findSig, if_true, okOr, bind, Except.bind, List.getElem?_cons_zero, h1,
        B64.decode_encode, law.verify_sign hpr h2]
    · simp only [answers_cons, answers_nil, and_true, didOrUrl_fst]
      exact hd.symm
  · apply Value.print_valid
    simp only [JWS.toJson, Value.Utf8, Value.Utf8M, and_true]
    refine ⟨by decide, ?_, by decide, (B64.plain_encode _).1⟩
    apply utf8L_map
    intro r hr
    simp only [List.mem_singleton] at hr
    subst hr
    simp only [JwsSig.toJson, Value.Utf8, Value.Utf8M, and_true]
    exact ⟨by decide, ⟨by decide, hfp.1⟩, by decide, (B64.plain_encode _).1, by decide, (B64.plain_encode _).1⟩

/-! ## Plaintext -/

/-- The printed message is read back, with its `from_prior`. -/
theorem plain_gives {E E' : Env} {m : Message} {tr : List Event} {out : Str} (hs : SeesDocsOf E' E) (hw : m.WF C.f64)
    (ht : m.typ = plaintextTyp) (ha : Answers E tr) (h : Runs (packPlaintext C m) tr (.ok out)) :
    out = m.toJson.print ∧ ∃ fp kid, PriorOf C m fp kid ∧ ∀ md : UnpackMetadata,
      md.fromPrior = none → md.fromPriorIssuerKid = none →
      Gives E' (tryUnpackPlaintext C out md) (.ok (some m, { md with fromPrior := fp, fromPriorIssuerKid := kid })) := by
  obtain ⟨fp, h1, h2, rfl⟩ := packPlaintext_ok.1 h
  refine ⟨rfl, ?_⟩
  have hm : messageFromStr C m.toJson.print = .ok m := message_print m hw
  cases hfp : m.fromPrior with
  | none =>
    refine ⟨none, none, .inl ⟨hfp, rfl, rfl⟩, ?_⟩
    intro md hmd1 hmd2
    refine gives_of_run (tr := []) (tryUnpackPlaintext_ok.2 (.inr ⟨m, rfl, hm, ht, .inl ⟨hfp, rfl, ?_⟩⟩))
      (answers_nil _) (by simp)
    cases md; simp only at hmd1 hmd2; subst hmd1; subst hmd2; rfl
  | some jwt =>
    rw [hfp] at h1
    simp only [unpackFromPrior, runs_ok] at h1
    obtain ⟨f, kid, t1, t2, rfl, h1, rfl, -⟩ := h1
    obtain ⟨doc, c, key, e1, e2, rfl, e3⟩ := fromPrior_layer h1
    refine ⟨some f, some kid, .inr ⟨jwt, f, kid, c, key, hfp, rfl, rfl, e1⟩, ?_⟩
    intro md _ _
    refine gives_of_run (tr := [evResolve (didOf kid) (some doc)]) (tryUnpackPlaintext_ok.2 (.inr ⟨m, rfl, hm, ht,
      .inr ⟨jwt, f, kid, hfp, h1, rfl⟩⟩)) ?_ (by simp)
    simp only [List.append_nil, answers_cons, answers_nil, and_true] at ha ⊢
    exact (hs _ _ ha.symm).symm

theorem afterSign_gives {E : Env} {m : Message} {t : Str} {md md' : UnpackMetadata}
    (h : Gives E (tryUnpackPlaintext C t md) (.ok (some m, md'))) : Gives E (afterSign C t md) (.ok (m, md')) := by
  unfold afterSign
  exact Gives.bind h (Gives.lift_bind (a := m) rfl Gives.pure)

/-- Nothing is said yet about signature and `from_prior`. -/
structure UnpackMetadata.Fresh (md : UnpackMetadata) : Prop where
  nonRepudiation : md.nonRepudiation = false
  signFrom : md.signFrom = none
  signAlg : md.signAlg = none
  signedMessage : md.signedMessage = none
  fromPrior : md.fromPrior = none
  fromPriorIssuerKid : md.fromPriorIssuerKid = none

/-- The metadata completed with signature and `from_prior`. -/
def UnpackMetadata.inner (md : UnpackMetadata) (kid : Option Str) (sa : Option SignAlg) (sm : Option Str)
    (fp : Option FromPrior) (k : Option Str) : UnpackMetadata :=
  { md with
    authenticated := md.authenticated || kid.isSome
    nonRepudiation := kid.isSome
    signFrom := kid
    signAlg := sa
    signedMessage := sm
    fromPrior := fp
    fromPriorIssuerKid := k }

theorem packSigned_gives {E E' : Env} {m : Message} {signBy : Str} {tr : List Event} {out kid : Str}
    (law : C.Lawful pairs) (hs : SeesDocsOf E' E) (hh : HonestSecrets E) (hw : m.WF C.f64) (ht : m.typ = plaintextTyp)
    (hwire : WireParty E (didOf signBy)) (hfit : KeysFit C pairs E (didOf signBy))
    (ha : Answers E tr) (h : Runs (packSigned C m signBy) tr (.ok (out, kid))) :
    ∃ fp k sa, PriorOf C m fp k ∧ SignatureOf C m (some kid) (some sa) (some out) ∧
      (∀ md : UnpackMetadata, md.Fresh →
        Gives E' (afterAuth C out md) (.ok (m, md.inner (some kid) (some sa) (some out) fp k))) ∧
      jweFromStr out = .error (.kind .malformed) ∧ messageFromStr C out = .error (.kind .malformed) ∧
      validUtf8 out = true := by
  obtain ⟨doc, kids, found, secret, pair, tr', payload, alg, h1, rfl, h2, h3, h4, h5, h6, h7⟩ := packSigned_ok.1 h
  simp only [answers_cons, didOrUrl_fst] at ha
  obtain ⟨ha1, ha2, ha3, ha4⟩ := ha
  have ha1 : E.resolve (didOf signBy) = .ok (some doc) := ha1.symm
  have ha2 : E.findSecrets kids = .ok found := ha2.symm
  have ha3 : E.getSecret kid = .ok (some secret) := ha3.symm
  have hkm : kid ∈ kids := hh _ _ ha2 _ (List.mem_of_head? h3)
  have hka : kid ∈ doc.authentication := by
    unfold signKids at h2
    split at h2
    · simp only [res_bind_ok, okOr_eq_ok, find?_eq_self, Except.ok.injEq] at h2
      obtain ⟨_, ⟨_, hq⟩, rfl⟩ := h2
      simp only [List.mem_singleton] at hkm
      rw [hkm]; exact hq
    · cases h2; exact hkm
  obtain ⟨w1, w2, w3⟩ := hwire doc ha1 kid (by simp [hka])
  obtain ⟨c, s⟩ := pair
  obtain ⟨vm, p, f1, f2, f3⟩ := hfit doc ha1 kid (by simp [hka]) secret c s ha3 h4
  obtain ⟨rfl, fp, k, g1, g2⟩ := plain_gives hs hw ht ha4 h5
  have hdoc : E'.resolve (didOf kid) = .ok (some doc) := by rw [w2]; exact hs _ _ ha1
  have hpv := Message.print_valid hw
  obtain ⟨-, ⟨sa, st, e1, e2⟩, e3, e4, e5⟩ := sign_gives law w1 w3 hdoc hka f1 f2 f3 hpv h6 h7 {}
  refine ⟨fp, k, sa, g1, ?_, ?_, e3, e4, e5⟩
  · obtain ⟨t, -, hr⟩ := (sign_gives law w1 w3 hdoc hka f1 f2 f3 hpv h6 h7 {}).1.run
    obtain ⟨kid', alg', doc', c', key', s1, -, -, -, -, s2⟩ := sign_layer hr
    have hk : some kid = some kid' := congrArg UnpackMetadata.signFrom s2
    have hl : signAlgOf alg = some alg' := congrArg UnpackMetadata.signAlg s2
    cases hk
    rw [e1] at hl
    cases hl
    exact .inr ⟨kid, sa, out, c', key', rfl, rfl, rfl, s1⟩
  · intro md hmd
    rw [afterAuth_eq]
    refine Gives.bind (sign_gives law w1 w3 hdoc hka f1 f2 f3 hpv h6 h7 md).1 ?_
    refine afterSign_gives ?_
    have := g2 (md.sign kid (signAlgOf alg) out) hmd.fromPrior hmd.fromPriorIssuerKid
    rw [e1] at this
    simpa [UnpackMetadata.inner, UnpackMetadata.sign, e1] using this

theorem packPlain_gives {E E' : Env} {m : Message} {tr : List Event} {out : Str}
    (hs : SeesDocsOf E' E) (hw : m.WF C.f64) (ht : m.typ = plaintextTyp) (hn : NotEnvelope m)
    (ha : Answers E tr) (h : Runs (packPlaintext C m) tr (.ok out)) :
    ∃ fp k, PriorOf C m fp k ∧
      (∀ md : UnpackMetadata, md.Fresh →
        Gives E' (afterAuth C out md) (.ok (m, md.inner none none none fp k))) ∧
      jweFromStr out = .error (.kind .malformed) ∧ messageFromStr C out = .ok m ∧
      validUtf8 out = true := by
  obtain ⟨rfl, fp, k, g1, g2⟩ := plain_gives hs hw ht ha h
  refine ⟨fp, k, g1, ?_, message_not_jwe hw hn, message_print m hw, Message.print_valid hw⟩
  intro md hmd
  rw [afterAuth_eq, trySign_not_jws (message_not_jws hw hn)]
  refine afterSign_gives ?_
  have := g2 md hmd.fromPrior hmd.fromPriorIssuerKid
  obtain ⟨a1, a2, a3, a4, -, -⟩ := hmd
  cases md
  simp only at a1 a2 a3 a4
  subst a1; subst a2; subst a3; subst a4
  simpa [UnpackMetadata.inner] using this

/-! ## Encryption -/

theorem unwrap_once {E : Env} {t p : Str} {opts : UnpackOptions} {n : Nat} {md md' : UnpackMetadata}
    (h : Gives E (tryUnpackAnoncrypt C t opts md) (.ok (some p, md')))
    (hf : opts.unwrapReWrappingForward = true → Gives E (tryUnwrapForwarded C p) (.ok none)) :
    Gives E (unwrapLoop C opts (n + 1) t md) (.ok (p, md')) := by
  rw [unwrapLoop]
  refine Gives.bind h ?_
  simp only
  split
  · rename_i ho
    exact Gives.bind (hf ho) Gives.pure
  · exact Gives.pure

theorem not_forwarded {E : Env} {p : Str} (h : messageFromStr C p = .error (.kind .malformed)) :
    Gives E (tryUnwrapForwarded C p) (.ok none) :=
  gives_of_run (tryUnwrapForwarded_ok.2 (.inl ⟨rfl, rfl, h⟩)) (answers_nil _) (by simp)

theorem not_forward_message {E : Env} {p : Str} {m : Message} (h : messageFromStr C p = .ok m)
    (hn : ∀ next v, ¬ IsForward m next v) : Gives E (tryUnwrapForwarded C p) (.ok none) := by
  refine gives_of_run (tryUnwrapForwarded_ok.2 (.inr (.inl ⟨m, rfl, rfl, h, ?_⟩))) (answers_nil _) (by simp)
  cases hf : tryParseForward m with
  | none => rfl
  | some f => exact absurd ((C41_only m f.next f.forwardedMsg).1 hf) (hn _ _)

/-- Opening the innermost content: how the text inside the encryption is read. -/
def Reads (C : Crypto) (E : Env) (inner : Str) (m : Message) (f : UnpackMetadata → UnpackMetadata) : Prop :=
  jweFromStr inner = .error (.kind .malformed) ∧ validUtf8 inner = true ∧
    ∀ md : UnpackMetadata, md.Fresh → Gives E (afterAuth C inner md) (.ok (m, f md))

theorem keys_fromDoc {doc : DIDDoc} {kids : List Str} {vms : List VerificationMethod} {c : Curve}
    {l : List (Str × C.Key)} (hv : kids.map (methodOf doc) = vms.map some)
    (h : keysOf C c (vms.filter (fun vm => decide (vm.keyAlg = some c))) = .ok l) : FromDoc C doc c l := by
  intro p hp
  obtain ⟨vm, h1, h2, h3⟩ := keysOf_mem h hp
  obtain ⟨-, h4⟩ := methods_mem hv (List.mem_filter.1 h1).1
  exact ⟨vm, h2 ▸ h4, h3⟩

/-- The envelope's texts need no escapes. -/
structure JWE.IsPlain (j : JWE) : Prop where
  protected_ : Plain j.protected_
  iv : Plain j.iv
  ciphertext : Plain j.ciphertext
  tag : Plain j.tag
  recipients : ∀ r ∈ j.recipients, Plain r.kid ∧ Plain r.encryptedKey

/-- What encryption prints. -/
theorem jwe_printed {ce : ContentEnc} {kdf : Kdf} {curve : Curve} {pt : Bytes} {alg : JweAlg} {enc : EncAlg}
    {sender : Option (Str × C.Key)} {rcps : List (Str × C.Key)} {tr : List Event} {out : Str}
    (hk : ∀ k ∈ rcps.map Prod.fst, Plain k)
    (h : Runs (jweEncrypt C ce kdf curve pt alg enc sender rcps) tr (.ok out)) :
    ∃ j : JWE, out = j.toJson.print ∧ j.IsPlain := by
  obtain ⟨_, _, _, _, _, _, _, _, rs, _, _, _, _, _, h5, rfl⟩ := jweEncrypt_ok.1 h
  exact ⟨_, rfl, B64.plain_encode _, B64.plain_encode _, B64.plain_encode _, B64.plain_encode _, wrapAll_plain h5 hk⟩

theorem JWE.IsPlain.read {j : JWE} (h : j.IsPlain) : jweFromStr j.toJson.print = .ok j :=
  jwe_print j h.protected_ h.iv h.ciphertext h.tag h.recipients

/-- The anoncrypt step sees of a text only the envelope read from it. -/
theorem tryAnon_congr {t t' : Str} (h : jweFromStr t' = jweFromStr t) (opts : UnpackOptions) (md : UnpackMetadata) :
    tryUnpackAnoncrypt C t' opts md = tryUnpackAnoncrypt C t opts md := by
  unfold tryUnpackAnoncrypt; rw [h]

/-- So does the authcrypt step. -/
theorem tryAuth_congr {t t' : Str} (h : jweFromStr t' = jweFromStr t) (opts : UnpackOptions) (md : UnpackMetadata) :
    tryUnpackAuthcrypt C t' opts md = tryUnpackAuthcrypt C t opts md := by
  unfold tryUnpackAuthcrypt; rw [h]

/-- Unpacking `t` after any layers removed so far gives `m`. -/
def Lands (C : Crypto) (E : Env) (opts : UnpackOptions) (t : Str) (m : Message) (g : UnpackMetadata → UnpackMetadata) : Prop :=
  ∀ (n : Nat) (md : UnpackMetadata), md.Fresh →
    Gives E (unwrapLoop C opts (n + 1) t md >>= fun x => afterAnon C opts x.1 x.2) (.ok (m, g md))

theorem Lands.unpack {E : Env} {opts : UnpackOptions} {t : Str} {m : Message} {g : UnpackMetadata → UnpackMetadata}
    (h : Lands C E opts t m g) : Gives E (unpack C t opts) (.ok (m, g {})) := by
  rw [unpack_eq]
  exact h _ {} ⟨rfl, rfl, rfl, rfl, rfl, rfl⟩

theorem UnpackMetadata.Fresh.anon {md : UnpackMetadata} (h : md.Fresh) (kids : List Str) (alg : AnonCryptAlg) :
    (md.anon kids alg).Fresh := ⟨h.1, h.2, h.3, h.4, h.5, h.6⟩

theorem UnpackMetadata.Fresh.auth {md : UnpackMetadata} (h : md.Fresh) (kids : List Str) (kid : Str) (alg : AuthCryptAlg) :
    (md.auth kids kid alg).Fresh := ⟨h.1, h.2, h.3, h.4, h.5, h.6⟩

theorem meantBy_mem {who k : Str} {l : List Str} (hm : k ∈ meantBy who l) : k ∈ l := by
  unfold meantBy at hm
  split at hm
  · exact (List.mem_filter.1 hm).1
  · exact hm

/-- What `anoncrypt` prints can be opened, also after being printed differently. -/
theorem anoncrypt_opens {E E' : Env} {to inner : Str} {alg : AnonCryptAlg} {tr : List Event} {out : Str}
    {toKids : List Str} (law : C.Lawful pairs) (hwire : WireParty E (didOf to))
    (ho : Opens C pairs E' E (didOf to) toKids) (hi : validUtf8 inner = true)
    (ha : Answers E tr) (h : Runs (anoncrypt C to inner alg) tr (.ok (out, toKids))) :
    ∃ j : JWE, out = j.toJson.print ∧ j.IsPlain ∧ ∀ t', jweFromStr t' = .ok j → ∀ (opts : UnpackOptions) (md : UnpackMetadata),
      Gives E' (tryUnpackAnoncrypt C t' opts md) (.ok (some inner, md.anon toKids alg)) := by
  obtain ⟨doc, kids, vms, curve, toKeys, tr', rfl, h1, h2, h3, h4, h5, rfl, h6⟩ := anoncrypt_ok.1 h
  simp only [answers_cons, didOrUrl_fst] at ha
  have ha1 : E.resolve (didOf to) = .ok (some doc) := ha.1.symm
  obtain ⟨rfl, -⟩ := agreementKids_ok.1 h1
  rw [methodsOf_ok] at h2
  have hk := keysOf_fst h5
  have hopen := ho doc ha1
  rw [← hk] at hopen ⊢
  have hw : ∀ k ∈ toKeys.map Prod.fst, WireKid (didOf to) k := by
    intro k hk'
    rw [hk] at hk'
    obtain ⟨vm, hv, rfl⟩ := List.mem_map.1 hk'
    exact hwire doc ha1 _ (List.mem_append.2 (.inl (meantBy_mem (methods_mem h2 (List.mem_filter.1 hv).1).1)))
  obtain ⟨j, rfl, hj⟩ := jwe_printed (fun k hk => (hw k hk).2.2) h6
  refine ⟨j, rfl, hj, fun t' ht opts md => ?_⟩
  rw [tryAnon_congr (ht.trans hj.read.symm)]
  exact anon_gives law h4 (keys_fromDoc h2 h5) hw hopen hi h6 opts md

theorem anoncrypt_lands {E E' : Env} {to inner : Str} {alg : AnonCryptAlg} {tr : List Event} {out : Str}
    {toKids : List Str} {m : Message} {f : UnpackMetadata → UnpackMetadata}
    (law : C.Lawful pairs) (hwire : WireParty E (didOf to)) (ho : Opens C pairs E' E (didOf to) toKids)
    (opts : UnpackOptions) (hr : Reads C E' inner m f)
    (hf : opts.unwrapReWrappingForward = true → Gives E' (tryUnwrapForwarded C inner) (.ok none))
    (ha : Answers E tr) (h : Runs (anoncrypt C to inner alg) tr (.ok (out, toKids))) :
    ∃ j : JWE, out = j.toJson.print ∧ j.IsPlain ∧ ∀ t', jweFromStr t' = .ok j →
      Lands C E' opts t' m (fun md => f (md.anon toKids alg)) := by
  obtain ⟨j, rfl, hj, hg⟩ := anoncrypt_opens law hwire ho hr.2.1 ha h
  refine ⟨j, rfl, hj, fun t' ht n md hmd => ?_⟩
  refine Gives.bind (unwrap_once (hg t' ht opts md) hf) ?_
  rw [afterAnon_eq, tryAuth_not_jwe hr.1]
  exact hr.2.2 _ (hmd.anon _ _)

theorem anoncrypt_gives {E E' : Env} {to inner : Str} {alg : AnonCryptAlg} {tr : List Event} {out : Str}
    {toKids : List Str} {m : Message} {f : UnpackMetadata → UnpackMetadata}
    (law : C.Lawful pairs) (hwire : WireParty E (didOf to)) (ho : Opens C pairs E' E (didOf to) toKids)
    (opts : UnpackOptions) (hr : Reads C E' inner m f)
    (hf : opts.unwrapReWrappingForward = true → Gives E' (tryUnwrapForwarded C inner) (.ok none))
    (ha : Answers E tr) (h : Runs (anoncrypt C to inner alg) tr (.ok (out, toKids))) :
    Gives E' (unpack C out opts) (.ok (m, f (({} : UnpackMetadata).anon toKids alg))) := by
  obtain ⟨j, rfl, hj, hl⟩ := anoncrypt_lands law hwire ho opts hr hf ha h
  exact (hl _ hj.read).unpack

/-- The metadata of the authenticated layer, and of the anonymous one around it if there is one. -/
def UnpackMetadata.auths (md : UnpackMetadata) (ps : Bool) (toKids : List Str) (alg : AnonCryptAlg) (fromKid : Str) :
    UnpackMetadata :=
  (if ps then md.anon toKids alg else md).auth toKids fromKid .a256cbcHs512Ecdh1puA256kw

theorem authcrypt_lands {E E' : Env} {to from_ inner : Str} {encAuth : AuthCryptAlg} {alg : AnonCryptAlg} {ps : Bool}
    {tr : List Event} {out fromKid : Str} {toKids : List Str} {m : Message} {f : UnpackMetadata → UnpackMetadata}
    (law : C.Lawful pairs) (hs : SeesDocsOf E' E) (hh : HonestSecrets E)
    (hwire : WireParty E (didOf to)) (ho : Opens C pairs E' E (didOf to) toKids)
    (hfw : WireParty E (didOf from_)) (hfit : KeysFit C pairs E (didOf from_))
    (opts : UnpackOptions) (hr : Reads C E' inner m f)
    (ha : Answers E tr) (h : Runs (authcrypt C to from_ inner encAuth alg ps) tr (.ok (out, fromKid, toKids))) :
    ∃ j : JWE, out = j.toJson.print ∧ j.IsPlain ∧ ∀ t', jweFromStr t' = .ok j →
      Lands C E' opts t' m (fun md => f (md.auths ps toKids alg fromKid)) := by
  obtain ⟨doc, fromDoc, fromKids, found, fromVms, kids, vms, fromVm, secret, curve, toKeys, sk, tr', rfl, h1, -, h2,
    h3, h4, h5, rfl, h6, h7, h8, rfl, h9, h10⟩ := authcrypt_ok.1 h
  simp only [answers_cons, didOrUrl_fst] at ha
  obtain ⟨ha1, ha2, ha3, ha4, -⟩ := ha
  have ha1 : E.resolve (didOf to) = .ok (some doc) := ha1.symm
  have ha2 : E.resolve (didOf from_) = .ok (some fromDoc) := ha2.symm
  have ha3 : E.findSecrets fromKids = .ok found := ha3.symm
  have ha4 : E.getSecret fromVm.id = .ok (some secret) := ha4.symm
  obtain ⟨rfl, -⟩ := agreementKids_ok.1 h1
  obtain ⟨rfl, -⟩ := agreementKids_ok.1 h3
  rw [methodsOf_ok] at h2 h4
  have hk := keysOf_fst h8
  have hopen := ho doc ha1
  rw [← hk] at hopen ⊢
  have hw : ∀ k ∈ toKeys.map Prod.fst, WireKid (didOf to) k := by
    intro k hk'
    rw [hk] at hk'
    obtain ⟨vm, hv, rfl⟩ := List.mem_map.1 hk'
    exact hwire doc ha1 _ (List.mem_append.2 (.inl (meantBy_mem (methods_mem h4 (List.mem_filter.1 hv).1).1)))
  have hmem : fromVm ∈ fromVms := by
    unfold chooseSender at h5
    rw [okOr_eq_ok] at h5
    exact (List.mem_filter.1 (List.mem_of_find?_eq_some h5)).1
  obtain ⟨hm1, hm2⟩ := methods_mem h2 hmem
  have hka : fromVm.id ∈ fromDoc.keyAgreement := meantBy_mem (hh _ _ ha3 _ hm1)
  obtain ⟨w1, w2, w3⟩ := hfw fromDoc ha2 fromVm.id (by simp [hka])
  obtain ⟨vm', sp, f1, f2, f3⟩ := hfit fromDoc ha2 fromVm.id (by simp [hka]) secret curve sk ha4 (secret_as_ok h9)
  have hfd : E'.resolve (didOf fromVm.id) = .ok (some fromDoc) := by rw [w2]; exact hs _ _ ha2
  have auth := fun {t o} (hrun : Runs (jweEncrypt C .a256cbcHs512 .ecdh1pu curve inner .ecdh1pu .a256cbcHs512
      (some (fromVm.id, sk)) toKeys) t (.ok o)) (md : UnpackMetadata) =>
    auth_gives law h7 (keys_fromDoc h4 h8) hw hopen w1 w3 hfd hka f1 f2 f3 hr.2.1 hrun opts md
  unfold authEncrypt at h10
  rw [runs_bind_ok] at h10
  obtain ⟨o1, t1, t2, rfl, e1, e2⟩ := h10
  obtain ⟨p, g1, g2, g3, -, -, -, -, g8, -⟩ := jwe_open law (by decide) rfl (by decide) rfl
    (by rintro x hx; cases hx; exact w3) (fun k hk => (hw k hk).2.2) e1
  obtain ⟨j1, rfl, hj1⟩ := jwe_printed (fun k hk => (hw k hk).2.2) e1
  have hjp : p.jwe = j1 := by
    have := g1.symm.trans hj1.read
    cases this; rfl
  cases ps with
  | false =>
    obtain ⟨rfl, e2⟩ := runs_pure.1 e2
    cases e2
    refine ⟨j1, rfl, hj1, fun t' ht n md hmd => ?_⟩
    rw [← hjp] at ht
    rw [unwrapLoop_skip (tryAnon_other ht g2 (by rw [g3]; decide))]
    refine Gives.bind Gives.pure ?_
    simp only
    rw [afterAnon_eq, tryAuth_congr (ht.trans g1.symm)]
    refine Gives.bind (auth e1 _) ?_
    exact hr.2.2 _ (hmd.auth _ _ _)
  | true =>
    have hnm : messageFromStr C j1.toJson.print = .error (.kind .malformed) := jwe_not_message _ _
    simp only [if_true] at e2
    obtain ⟨j2, rfl, hj2⟩ := jwe_printed (fun k hk => (hw k hk).2.2) e2
    refine ⟨j2, rfl, hj2, fun t' ht n md hmd => ?_⟩
    have hg := anon_gives law h7 (keys_fromDoc h4 h8) hw hopen g8 e2 opts md
    rw [← tryAnon_congr (ht.trans hj2.read.symm)] at hg
    refine Gives.bind (unwrap_once hg (fun _ => not_forwarded hnm)) ?_
    rw [afterAnon_eq]
    refine Gives.bind (auth e1 _) ?_
    exact hr.2.2 _ ((hmd.anon _ _).auth _ _ _)

theorem authcrypt_gives {E E' : Env} {to from_ inner : Str} {encAuth : AuthCryptAlg} {alg : AnonCryptAlg} {ps : Bool}
    {tr : List Event} {out fromKid : Str} {toKids : List Str} {m : Message} {f : UnpackMetadata → UnpackMetadata}
    (law : C.Lawful pairs) (hs : SeesDocsOf E' E) (hh : HonestSecrets E)
    (hwire : WireParty E (didOf to)) (ho : Opens C pairs E' E (didOf to) toKids)
    (hfw : WireParty E (didOf from_)) (hfit : KeysFit C pairs E (didOf from_))
    (opts : UnpackOptions) (hr : Reads C E' inner m f)
    (ha : Answers E tr) (h : Runs (authcrypt C to from_ inner encAuth alg ps) tr (.ok (out, fromKid, toKids))) :
    Gives E' (unpack C out opts) (.ok (m, f ((if ps then ({} : UnpackMetadata).anon toKids alg else {}).auth toKids fromKid
      .a256cbcHs512Ecdh1puA256kw))) := by
  obtain ⟨j, rfl, hj, hl⟩ := authcrypt_lands law hs hh hwire ho hfw hfit opts hr ha h
  exact (hl _ hj.read).unpack

end DIDComm
