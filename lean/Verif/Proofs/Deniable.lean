import Verif.Spec.Deniable
import Verif.Proofs.Trip
import Verif.Proofs.Secrecy

/-! # What a receiver can make alone: proofs -/

set_option autoImplicit false

namespace DIDComm

variable {C : Crypto} {pairs : Curve → C.Key → C.Key → Prop}

/-- The primitives as the forger uses them: for sending, the receiving side of the key agreement. -/
def forger (C : Crypto) : Crypto :=
  { C with
    sign := fun _ _ _ _ => none
    ecdhEs := fun _ _ _ _ _ _ _ => none
    ecdh1pu := fun c e s r alg apu apv tag rcv =>
      if rcv = true then C.ecdh1pu c e s r alg apu apv tag true
      else (C.toJwkPublic c e).bind fun j => (C.fromJwk c j).bind fun e' => C.ecdh1pu c e' s r alg apu apv tag true }

theorem forger_lawful (law : C.Lawful pairs) : (forger C).Lawful (fun _ a b => a = b) where
  verify_sign := by intro c s p m t sig _ h; cases h
  ecdhEs_agree := by intro c r e j s p alg apu apv kw _ _ _ h; cases h
  ecdh1pu_agree := by
    intro c r e j ss sp s p alg apu apv tag kw _ hj hs hp h
    subst hs; subst hp
    have hj : C.toJwkPublic c e = some j := hj
    simp only [forger, Bool.false_eq_true, if_false, hj, Option.bind_some] at h
    obtain ⟨e', h1, h2⟩ := Option.bind_eq_some_iff.1 h
    exact ⟨e', h1, h2⟩
  unwrap_wrap := fun h1 h2 => law.unwrap_wrap (C := C) h1 h2
  dec_enc := fun h => law.dec_enc (C := C) h
  jwk_ok := fun h => law.jwk_ok (C := C) h

theorem forgeKeys_wrapAll {c : Curve} {e epk sender : C.Key} {j : Value} {fromKid apv tag cek : Bytes} (hj : C.toJwkPublic c e = some j)
    (he : C.fromJwk c j = some epk) {own : List (Str × C.Key)} {rs : List JweRecipient} :
    forgeKeys C c epk sender fromKid apv tag cek own = some rs ↔
      wrapAll (forger C) .ecdh1pu c e (some sender) b!"ECDH-1PU+A256KW" fromKid apv tag cek own = .ok rs := by
  induction own generalizing rs with
  | nil => simp [forgeKeys, wrapAll]
  | cons p r ih =>
    obtain ⟨kid, key⟩ := p
    have hd : ∀ kw, deriveKey (forger C) .ecdh1pu c e (some sender) key b!"ECDH-1PU+A256KW" fromKid apv tag false = .ok kw ↔
        C.ecdh1pu c epk sender key b!"ECDH-1PU+A256KW" fromKid apv tag true = some kw := by
      intro kw
      simp [deriveKey, okOr_eq_ok, forger, hj, he]
    simp only [wrapAll, res_bind_ok, okOr_eq_ok, Except.ok.injEq, hd, ← ih]
    simp only [forgeKeys, bind, Option.bind_eq_some_iff, Option.some.injEq]
    rfl

theorem forged_jweEncrypt {c : Curve} {payload : Bytes} {fromKid : Str} {sender : C.Key} {own : List (Str × C.Key)} {r1 r2 r3 : Nat}
    {out : Str} (h : forged C c payload fromKid sender own r1 r2 r3 = some out) :
    Runs (jweEncrypt (forger C) .a256cbcHs512 .ecdh1pu c payload .ecdh1pu .a256cbcHs512 (some (fromKid, sender)) own)
      [evRandom r1, evRandom r2, evRandom r3] (.ok out) := by
  simp only [forged, forgeHeader, sha_joinedKids, bind, Option.bind_eq_some_iff, Option.some.injEq] at h
  obtain ⟨cek, h1, e, h2, j, h3, epk, h4, ⟨ct, tag⟩, h5, rs, h6, rfl⟩ := h
  exact jweEncrypt_ok.2 ⟨r1, r2, r3, cek, e, j, ct, tag, rs, rfl, h1, h2, h3, h5, (forgeKeys_wrapAll h3 h4).1 h6, rfl⟩

/-- What was forged is opened like an envelope of the sender's. -/
theorem forged_opens {E : Env} {fromDoc : DIDDoc} {vm : VerificationMethod} {did fromKid : Str} {c : Curve} {payload : Bytes} {sender : C.Key}
    {own : List (Str × C.Key)} {r1 r2 r3 : Nat} {out : Str} (law : C.Lawful pairs) (hc : c = .x25519 ∨ c = .p256)
    (hw : ∀ k ∈ own.map Prod.fst, WireKid did k) (hown : OwnKeys C E c own) {found : List Str}
    (f1 : E.findSecrets (own.map Prod.fst) = .ok found) (f2 : found ≠ []) (f3 : ∀ k ∈ found, k ∈ own.map Prod.fst)
    (hfk : HasFragment fromKid) (hfp : Plain fromKid) (hfd : E.resolve (didOf fromKid) = .ok (some fromDoc))
    (hfa : fromKid ∈ fromDoc.keyAgreement) (hvm : methodOf fromDoc fromKid = some vm) (hsp : vm.asKeyPair C = .ok ⟨c, sender⟩)
    (hpt : validUtf8 payload = true) (h : forged C c payload fromKid sender own r1 r2 r3 = some out) :
    ∃ p : ParsedJWE, jweFromStr out = .ok p.jwe ∧ p.jwe.parse C = .ok p ∧ p.protected_.alg = .ecdh1pu ∧ validUtf8 out = true ∧
      ∀ (opts : UnpackOptions) (md : UnpackMetadata), Gives E (tryUnpackAuthcrypt C out opts md)
        (.ok (some payload, md.auth (own.map Prod.fst) fromKid .a256cbcHs512Ecdh1puA256kw)) := by
  obtain ⟨p, g1, g2, g3, g4, g5, g6, g7, g8, g9⟩ := jwe_open (C := forger C) (forger_lawful law) (by decide) rfl (by decide) rfl
    (by rintro x hx; cases hx; exact hfp) (fun k hk => (hw k hk).2.2) (forged_jweEncrypt h)
  have g2 : p.jwe.parse C = .ok p := g2
  have g6 : p.verifyDidcomm C = .ok p := g6
  refine ⟨p, g1, g2, g3, g8, fun opts md => ?_⟩
  have hne : own.map Prod.fst ≠ [] := by
    cases found with
    | nil => exact absurd rfl f2
    | cons k r => exact List.ne_nil_of_mem (f3 k (by simp))
  have hf : found.isEmpty = false := by cases found <;> simp_all
  have hfk' : (didOrUrl fromKid).2.isNone = false := by
    have := (didOrUrl_isSome fromKid).2 hfk
    cases hx : (didOrUrl fromKid).2 <;> simp_all
  unfold tryUnpackAuthcrypt
  refine Gives.lift_bind (a := some p.jwe) (by rw [g1]; rfl) ?_
  simp only
  refine Gives.lift_bind g2 ?_
  rw [if_neg (by simp [g3])]
  refine Gives.lift_bind g6 ?_
  refine Gives.lift_bind (a := fromKid) (by rw [g5]; rfl) ?_
  simp only [hfp.1, hfk', Bool.true_eq_false, if_false, didOrUrl_fst, find_method]
  refine Gives.bind (Gives.withKind (Gives.resolve hfd)) (Gives.lift_bind (a := fromDoc) rfl ?_)
  refine Gives.lift_bind (a := fromKid) (by rw [find?_eq_self.2 ⟨rfl, hfa⟩]; rfl) ?_
  refine Gives.lift_bind (a := vm) (by rw [hvm]; rfl) (Gives.lift_bind hsp ?_)
  rw [g7]
  refine Gives.lift_bind (checkRecipients_wire hne hw) (Gives.bind (Gives.findSecrets f1) ?_)
  rw [hf, if_neg (by simp)]
  have hx : ∀ k ∈ found, ∃ secret key, E.getSecret k = .ok (some secret) ∧ secret.asKeyPair C = .ok key ∧
      authDecryptWith C p fromKid ⟨c, sender⟩ k key = .ok (.a256cbcHs512Ecdh1puA256kw, payload) := by
    intro k hk
    obtain ⟨⟨k', key⟩, hm, rfl⟩ := List.mem_map.1 (f3 k hk)
    obtain ⟨secret, e1, e2⟩ := hown _ hm
    refine ⟨secret, _, e1, e2, ?_⟩
    have hdec : p.decrypt C .a256cbcHs512 .ecdh1pu c (some (fromKid, sender)) k' key = .ok payload :=
      g9 k' key (some (fromKid, sender)) (f3 _ hk) rfl (by
        intro q e r j apv tag kw hq hg hj hkw
        obtain ⟨secret', e3, e4⟩ := hown _ hq
        simp only at e1 e2 e3 e4
        rw [e1] at e3; cases e3
        rw [e2] at e4; cases e4
        simp only [deriveKey, Option.map_some, okOr_eq_ok] at hkw ⊢
        exact (forger_lawful law).ecdh1pu_agree hg hj rfl rfl hkw)
    simp only [authDecryptWith]
    rw [if_pos ⟨hc, trivial, g4⟩, hdec]
    rfl
  refine Gives.bind (decryptLoop_gives f2 hx none) (Gives.lift_bind (a := (.a256cbcHs512Ecdh1puA256kw, payload)) rfl ?_)
  simp only [hpt, Bool.true_eq_false, if_false]
  unfold UnpackMetadata.auth
  cases md.encryptedToKids <;> exact Gives.pure

/-- What the sender wrapped, the receiver could have wrapped. -/
theorem forgeKeys_of_wrapAll {E : Env} (law : C.Lawful pairs) {c : Curve} {r : Nat} {e epk ss sp : C.Key} {j : Value} {fromKid apv tag cek : Bytes}
    (hg : C.genKey c r = some e) (hj : C.toJwkPublic c e = some j) (he : C.fromJwk c j = some epk) (hp : pairs c ss sp)
    {l : List (Str × C.Key)} {rs : List JweRecipient}
    (hown : ∀ p ∈ l, ∃ secret s, E.getSecret p.1 = .ok (some secret) ∧ secret.asKeyPair C = .ok ⟨c, s⟩ ∧ pairs c s p.2)
    (h : wrapAll C .ecdh1pu c e (some ss) b!"ECDH-1PU+A256KW" fromKid apv tag cek l = .ok rs) :
    ∃ own, own.map Prod.fst = l.map Prod.fst ∧ OwnKeys C E c own ∧ forgeKeys C c epk sp fromKid apv tag cek own = some rs := by
  induction l generalizing rs with
  | nil => cases h; exact ⟨[], rfl, (by intro p hp; cases hp), rfl⟩
  | cons p l ih =>
    obtain ⟨kid, q⟩ := p
    simp only [wrapAll, deriveKey, res_bind_ok, okOr_eq_ok, Except.ok.injEq] at h
    obtain ⟨kw, h1, ek, h2, rs', h3, rfl⟩ := h
    obtain ⟨own, g1, g2, g3⟩ := ih (fun p hp => hown p (by simp [hp])) h3
    obtain ⟨secret, s, f1, f2, f3⟩ := hown (kid, q) (by simp)
    obtain ⟨e', k1, k2⟩ := law.ecdh1pu_agree hg hj hp f3 h1
    rw [he] at k1; cases k1
    refine ⟨(kid, s) :: own, by simp [g1], ?_, ?_⟩
    · intro p hp
      rcases List.mem_cons.1 hp with rfl | hp
      · exact ⟨secret, f1, f2⟩
      · exact g2 p hp
    · simp only [forgeKeys, bind, Option.bind_eq_some_iff, Option.some.injEq]
      exact ⟨kw, k2, ek, h2, rs', g3, rfl⟩

/-- The envelope the sender made, the receiver could have made. -/
theorem forged_of_jweEncrypt {E : Env} (law : C.Lawful pairs) {c : Curve} {ss sp : C.Key} {payload : Bytes} {fromKid out : Str} {tr : List Event}
    (hp : pairs c ss sp) {l : List (Str × C.Key)} (hne : l ≠ [])
    (hown : ∀ p ∈ l, ∃ secret s, E.getSecret p.1 = .ok (some secret) ∧ secret.asKeyPair C = .ok ⟨c, s⟩ ∧ pairs c s p.2)
    (h : Runs (jweEncrypt C .a256cbcHs512 .ecdh1pu c payload .ecdh1pu .a256cbcHs512 (some (fromKid, ss)) l) tr (.ok out)) :
    ∃ own r1 r2 r3, own.map Prod.fst = l.map Prod.fst ∧ OwnKeys C E c own ∧ tr = [evRandom r1, evRandom r2, evRandom r3] ∧
      forged C c payload fromKid sp own r1 r2 r3 = some out := by
  obtain ⟨r1, r2, r3, cek, e, j, ct, tag, rs, rfl, h1, h2, h3, h4, h5, rfl⟩ := jweEncrypt_ok.1 h
  obtain ⟨epk, he⟩ : ∃ epk, C.fromJwk c j = some epk := by
    cases l with
    | nil => exact absurd rfl hne
    | cons p l =>
      obtain ⟨secret, s, f1, f2, f3⟩ := hown p (by simp)
      obtain ⟨kid, q⟩ := p
      simp only [wrapAll, deriveKey, Option.map_some, res_bind_ok, okOr_eq_ok, Except.ok.injEq] at h5
      obtain ⟨kw, h1, -⟩ := h5
      obtain ⟨e', k1, -⟩ := law.ecdh1pu_agree h2 h3 hp f3 h1
      exact ⟨e', k1⟩
  obtain ⟨own, g1, g2, g3⟩ := forgeKeys_of_wrapAll law h2 h3 he hp hown h5
  refine ⟨own, r1, r2, r3, g1, g2, rfl, ?_⟩
  simp only [forged, forgeHeader, sha_joinedKids, bind, Option.bind_eq_some_iff, Option.some.injEq, g1]
  exact ⟨cek, h1, e, h2, j, h3, epk, he, (ct, tag), h4, rs, g3, rfl⟩

/-- What `authcrypt` made, the receiver could have made. -/
theorem authcrypt_forged {E E' : Env} {to from_ inner : Str} {encAuth : AuthCryptAlg} {alg : AnonCryptAlg} {ps : Bool}
    {tr : List Event} {out fromKid : Str} {toKids : List Str} (law : C.Lawful pairs) (hh : HonestSecrets E) (hfit : KeysFit C pairs E (didOf from_))
    (hall : ∀ doc, E.resolve (didOf to) = .ok (some doc) → ∀ k ∈ toKids, HoldsSecret C pairs E' doc k)
    (ha : Answers E tr) (h : Runs (authcrypt C to from_ inner encAuth alg ps) tr (.ok (out, fromKid, toKids))) :
    ∃ c sender own r1 r2 r3 doc env, E.resolve (didOf from_) = .ok (some doc) ∧ KeyFrom C doc doc.keyAgreement fromKid c sender ∧
      own.map Prod.fst = toKids ∧ OwnKeys C E' c own ∧ forged C c inner fromKid sender own r1 r2 r3 = some env ∧
      if ps then ∃ toDoc pubs r4 r5 r6, E.resolve (didOf to) = .ok (some toDoc) ∧ pubs.map Prod.fst = toKids ∧
          (∀ p ∈ pubs, KeyFrom C toDoc toDoc.keyAgreement p.1 c p.2) ∧ draws tr = [r1, r2, r3, r4, r5, r6] ∧
          Runs (jweEncrypt C alg.ce .ecdhEs c env .ecdhEs alg.enc none pubs) [evRandom r4, evRandom r5, evRandom r6] (.ok out)
        else draws tr = [r1, r2, r3] ∧ env = out := by
  obtain ⟨doc, fromDoc, fromKids, found, fromVms, kids, vms, fromVm, secret, curve, toKeys, sk, tr', rfl, h1, -, h2,
    h3, h4, h5, rfl, h6, h7, h8, rfl, h9, h10⟩ := authcrypt_ok.1 h
  simp only [answers_cons, didOrUrl_fst] at ha
  obtain ⟨ha1, ha2, ha3, ha4, -⟩ := ha
  have ha1 : E.resolve (didOf to) = .ok (some doc) := ha1.symm
  have ha2 : E.resolve (didOf from_) = .ok (some fromDoc) := ha2.symm
  have ha3 : E.findSecrets fromKids = .ok found := ha3.symm
  have ha4 : E.getSecret fromVm.id = .ok (some secret) := ha4.symm
  obtain ⟨rfl, -⟩ := agreementKids_ok.1 h1
  obtain ⟨rfl, -⟩ := agreementKids_ok.1 h3
  rw [methodsOf_ok] at h2 h4
  have hk := keysOf_fst h8
  have hd := keys_fromDoc h4 h8
  have hopen := hall doc ha1
  have hcho := h5
  unfold chooseSender at hcho
  rw [okOr_eq_ok] at hcho
  have hmem : fromVm ∈ fromVms := (List.mem_filter.1 (List.mem_of_find?_eq_some hcho)).1
  have hne : toKeys ≠ [] := by
    have := List.find?_some hcho
    simp only [List.any_eq_true, decide_eq_true_eq] at this
    obtain ⟨t, t1, t2⟩ := this
    intro hx
    have : t.id ∈ toKeys.map Prod.fst := by
      rw [hk]
      exact List.mem_map.2 ⟨t, List.mem_filter.2 ⟨t1, by simp [t2, h6]⟩, rfl⟩
    rw [hx] at this; cases this
  obtain ⟨hm1, hm2⟩ := methods_mem h2 hmem
  have hka : fromVm.id ∈ fromDoc.keyAgreement := meantBy_mem (hh _ _ ha3 _ hm1)
  obtain ⟨vm', sp, f1, f2, f3⟩ := hfit fromDoc ha2 fromVm.id (by simp [hka]) secret curve sk ha4 (secret_as_ok h9)
  have hkf : KeyFrom C fromDoc fromDoc.keyAgreement fromVm.id curve sp := ⟨hka, vm', f1, asKeyPair_keyAlg f2, f2⟩
  have hown : ∀ p ∈ toKeys, ∃ secret s, E'.getSecret p.1 = .ok (some secret) ∧ secret.asKeyPair C = .ok ⟨curve, s⟩ ∧ pairs curve s p.2 := by
    intro p hp
    have hk' : p.1 ∈ toKeys.map Prod.fst := List.mem_map.2 ⟨p, hp, rfl⟩
    obtain ⟨secret, s, e1, e2, e3⟩ := holds_key hd hk' (hopen _ (hk ▸ hk'))
    exact ⟨secret, s, e1, e2, e3 _ hp⟩
  unfold authEncrypt at h10
  rw [runs_bind_ok] at h10
  obtain ⟨o1, t1, t2, rfl, e1, e2⟩ := h10
  obtain ⟨own, r1, r2, r3, g1, g2, rfl, g3⟩ := forged_of_jweEncrypt law f3 hne hown e1
  refine ⟨curve, sp, own, r1, r2, r3, fromDoc, o1, ha2, hkf, g1.trans hk, g2, g3, ?_⟩
  cases ps with
  | false =>
    obtain ⟨rfl, e2⟩ := runs_pure.1 e2
    cases e2
    exact ⟨by simp, rfl⟩
  | true =>
    simp only [if_true] at e2 ⊢
    obtain ⟨r4, r5, r6, -, -, -, -, -, -, rfl, -⟩ := jweEncrypt_ok.1 e2
    refine ⟨doc, toKeys, r4, r5, r6, ha1, hk, ?_, by simp, e2⟩
    intro p hp
    have hk' : p.1 ∈ toKeys.map Prod.fst := List.mem_map.2 ⟨p, hp, rfl⟩
    rw [hk] at hk'
    obtain ⟨vm, hv, hv'⟩ := List.mem_map.1 hk'
    obtain ⟨w, w1, w2⟩ := hd p hp
    have w3 := (as_ok w2).2
    exact ⟨hv' ▸ meantBy_mem (methods_mem h4 (List.mem_filter.1 hv).1).1, w, w1, asKeyPair_keyAlg w3, w3⟩

end DIDComm
