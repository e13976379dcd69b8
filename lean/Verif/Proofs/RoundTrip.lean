import Verif.Spec.Receiver
import Verif.Proofs.Envelope
import Verif.Proofs.Evidence
import Verif.Proofs.Steps
import Verif.Proofs.Utf8
import Verif.Proofs.Select

/-! # Round trips, step by step -/

set_option autoImplicit false

namespace DIDComm

variable {C : Crypto} {pairs : Curve → C.Key → C.Key → Prop}

theorem Gives.returns {α : Type} {E : Env} {p : Prog α} {a : α} (h : Gives E p (.ok a)) : Returns E p a := by
  refine ⟨?_, fun tr r ha hr => h tr r ha hr⟩
  obtain ⟨h1, h2⟩ := Prog.run_spec E id p
  exact ⟨_, h2, h _ _ h2 h1 ▸ h1⟩

/-! ## JWE -/

theorem wrapAll_kids' {kdf : Kdf} {curve : Curve} {epk : C.Key} {skey : Option C.Key} {alg apu apv tag cek : Bytes}
    {l : List (Str × C.Key)} {rs : List JweRecipient}
    (h : wrapAll C kdf curve epk skey alg apu apv tag cek l = .ok rs) : rs.map JweRecipient.kid = l.map Prod.fst := by
  induction l generalizing rs with
  | nil => cases h; rfl
  | cons p r ih =>
    obtain ⟨kid, key⟩ := p
    simp only [wrapAll, res_bind_ok, okOr_eq_ok, Except.ok.injEq] at h
    obtain ⟨kw, _, ek, _, l', h, rfl⟩ := h
    simp [ih h]

theorem wrapAll_find {kdf : Kdf} {curve : Curve} {epk : C.Key} {skey : Option C.Key} {alg apu apv tag cek : Bytes}
    {l : List (Str × C.Key)} {rs : List JweRecipient}
    (h : wrapAll C kdf curve epk skey alg apu apv tag cek l = .ok rs) {kid : Str} (hk : kid ∈ l.map Prod.fst) :
    ∃ key kw ek, (kid, key) ∈ l ∧ deriveKey C kdf curve epk skey key alg apu apv tag false = .ok kw ∧
      C.wrap kw cek = some ek ∧ rs.find? (fun r => r.kid == kid) = some ⟨kid, B64.encode ek⟩ := by
  induction l generalizing rs with
  | nil => cases hk
  | cons p r ih =>
    obtain ⟨kid', key⟩ := p
    simp only [wrapAll, res_bind_ok, okOr_eq_ok, Except.ok.injEq] at h
    obtain ⟨kw, h1, ek, h2, l', h, rfl⟩ := h
    by_cases he : kid' = kid
    · subst he
      exact ⟨key, kw, ek, by simp, h1, h2, by simp⟩
    · have hk' : kid ∈ r.map Prod.fst := by
        simp only [List.map_cons, List.mem_cons] at hk
        rcases hk with h | h
        · exact absurd h.symm he
        · exact h
      obtain ⟨key', kw', ek', hm, h3, h4, h5⟩ := ih h hk'
      exact ⟨key', kw', ek', by simp [hm], h3, h4, by rw [List.find?_cons_of_neg (by simpa using he)]; exact h5⟩

theorem wrapAll_plain {kdf : Kdf} {curve : Curve} {epk : C.Key} {skey : Option C.Key} {alg apu apv tag cek : Bytes}
    {l : List (Str × C.Key)} {rs : List JweRecipient}
    (h : wrapAll C kdf curve epk skey alg apu apv tag cek l = .ok rs) (hp : ∀ k ∈ l.map Prod.fst, Plain k) :
    ∀ r ∈ rs, Plain r.kid ∧ Plain r.encryptedKey := by
  induction l generalizing rs with
  | nil => cases h; intro r hr; cases hr
  | cons p r ih =>
    obtain ⟨kid', key⟩ := p
    simp only [wrapAll, res_bind_ok, okOr_eq_ok, Except.ok.injEq] at h
    obtain ⟨kw, h1, ek, h2, l', h, rfl⟩ := h
    intro x hx
    rcases List.mem_cons.1 hx with rfl | hx
    · exact ⟨hp _ (by simp), B64.plain_encode _⟩
    · exact ih h (fun k hk => hp k (by simp only [List.map_cons, List.mem_cons]; exact .inr hk)) x hx

/-- An envelope is read back and opened by whoever derives the same key. -/
theorem jwe_open {ce : ContentEnc} {kdf : Kdf} {curve : Curve} {pt : Bytes} {alg : JweAlg} {enc : EncAlg}
    {sender : Option (Str × C.Key)} {rcps : List (Str × C.Key)} {tr : List Event} {out : Str}
    (law : C.Lawful pairs)
    (ha : validUtf8 alg.asStr = true) (hr : JweAlg.ofStr alg.asStr = alg)
    (he : validUtf8 enc.asStr = true) (her : EncAlg.ofStr enc.asStr = enc)
    (hs : ∀ x, sender = some x → Plain x.1) (hk : ∀ k ∈ rcps.map Prod.fst, Plain k)
    (h : Runs (jweEncrypt C ce kdf curve pt alg enc sender rcps) tr (.ok out)) :
    ∃ p : ParsedJWE, jweFromStr out = .ok p.jwe ∧ p.jwe.parse C = .ok p ∧ p.protected_.alg = alg ∧
      p.protected_.enc = enc ∧ p.apu = sender.map Prod.fst ∧ p.verifyDidcomm C = .ok p ∧
      p.jwe.recipients.map JweRecipient.kid = rcps.map Prod.fst ∧ validUtf8 out = true ∧
      ∀ (kid : Str) (key : C.Key) (snd : Option (Str × C.Key)), kid ∈ rcps.map Prod.fst →
        snd.map Prod.fst = sender.map Prod.fst →
        (∀ q e r j apv tag kw, (kid, q) ∈ rcps → C.genKey curve r = some e → C.toJwkPublic curve e = some j →
          deriveKey C kdf curve e (sender.map Prod.snd) q alg.asStr ((sender.map Prod.fst).getD []) apv tag false = .ok kw →
          ∃ e', C.fromJwk curve j = some e' ∧
            deriveKey C kdf curve e' (snd.map Prod.snd) key alg.asStr ((sender.map Prod.fst).getD []) apv tag true = .ok kw) →
        p.decrypt C ce kdf curve snd kid key = .ok pt := by
  obtain ⟨r1, r2, r3, cek, epk, j, ct, tag, rs, rfl, h1, h2, h3, h4, h5, rfl⟩ := jweEncrypt_ok.1 h
  obtain ⟨hj, hjd⟩ := law.jwk_ok h3
  have hs1 : ∀ s, sender.map Prod.fst = some s → Plain s := by
    intro s hs'
    obtain ⟨x, hx, rfl⟩ := Option.map_eq_some_iff.1 hs'
    exact hs x hx
  have hs2 : ∀ s, (sender.map Prod.fst).map B64.encode = some s → Plain s := by
    intro s hs'
    obtain ⟨x, hx, rfl⟩ := Option.map_eq_some_iff.1 hs'
    exact B64.plain_encode _
  have hrs := wrapAll_plain h5 hk
  have hkids := wrapAll_kids' h5
  have hj1 := jwe_print ⟨jweProtected C alg enc (sender.map Prod.fst) (rcps.map Prod.fst) j, rs,
    B64.encode (C.genNonce ce r3), B64.encode ct, B64.encode tag⟩ (B64.plain_encode _) (B64.plain_encode _)
    (B64.plain_encode _) (B64.plain_encode _) hrs
  have hh := jweHeader_print (f64 := C.f64) encryptedTyp alg enc (sender.map Prod.fst)
    ((sender.map Prod.fst).map B64.encode) (B64.encode (apvOf C (rcps.map Prod.fst))) j (by decide) ha hr he her hs1 hs2
    (B64.plain_encode _) hj (by omega)
  refine ⟨⟨_, ⟨some encryptedTyp, alg, enc, sender.map Prod.fst, (sender.map Prod.fst).map B64.encode,
    B64.encode (apvOf C (rcps.map Prod.fst)), j⟩, sender.map Prod.fst, apvOf C (rcps.map Prod.fst)⟩, hj1, ?_, rfl, rfl, rfl,
    ?_, hkids, ?_, ?_⟩
  · simp only [JWE.parse, jweProtected, B64.decode_encode, okOr, bind, Except.bind]
    rw [hh]
    simp only [B64.decode_encode]
    cases sender with
    | none => rfl
    | some x => simp [B64.decode_encode, Except.map]
  · simp only [ParsedJWE.verifyDidcomm, hkids, ne_eq, not_true, if_false]
    cases sender with
    | none => rfl
    | some x => simp [(hs1 x.1 rfl).1]
  · apply Value.print_valid
    simp only [JWE.toJson, Value.Utf8, Value.Utf8M, and_true]
    refine ⟨by decide, (B64.plain_encode _).1, by decide, ?_, by decide, (B64.plain_encode _).1, by decide,
      (B64.plain_encode _).1, by decide, (B64.plain_encode _).1⟩
    apply utf8L_map
    intro r hr
    simp only [JweRecipient.toJson, Value.Utf8, Value.Utf8M, and_true]
    exact ⟨by decide, ⟨by decide, (hrs r hr).1.1⟩, by decide, (hrs r hr).2.1⟩
  · intro kid key snd hkid hsnd hd
    obtain ⟨q, kw, ek, hm, h6, h7, h8⟩ := wrapAll_find h5 hkid
    obtain ⟨e', he', hkw⟩ := hd q epk r2 j _ _ kw hm h2 h3 h6
    simp only [ParsedJWE.decrypt, hsnd, ne_eq, not_true, if_false, h8, okOr, B64.decode_encode, he', hkw,
      law.unwrap_wrap h1 h7, law.dec_enc h4, bind, Except.bind]

/-! ## The steps of unpacking -/

theorem decryptLoop_gives {α : Type} {E : Env} {all : Bool} {f : Str → KeyPair C → Res α} {found : List Str} {x : α}
    (hne : found ≠ []) (h : ∀ k ∈ found, ∃ secret key, E.getSecret k = .ok (some secret) ∧
      secret.asKeyPair C = .ok key ∧ f k key = .ok x) (acc : Option α) :
    Gives E (decryptLoop C all f found acc) (.ok (some x)) := by
  induction found generalizing acc with
  | nil => exact absurd rfl hne
  | cons k r ih =>
    obtain ⟨secret, key, h1, h2, h3⟩ := h k (by simp)
    simp only [decryptLoop]
    refine Gives.bind (Gives.getSecret h1) (Gives.lift_bind (a := secret) rfl (Gives.lift_bind h2 (Gives.lift_bind h3 ?_)))
    split
    · by_cases hr : r = []
      · subst hr; exact Gives.pure
      · exact ih hr (fun k hk => h k (by simp [hk])) (some x)
    · exact Gives.pure

theorem checkRecipients_wire {did : Str} {kids : List Str} (hne : kids ≠ []) (h : ∀ k ∈ kids, WireKid did k) :
    checkRecipients kids = .ok () := by
  cases kids with
  | nil => exact absurd rfl hne
  | cons k0 r =>
    have : (k0 :: r).any (fun k => decide ((didOrUrl k).1 ≠ (didOrUrl k0).1) || (didOrUrl k).2.isNone) = false := by
      rw [List.any_eq_false]
      intro k hk
      have h1 := h k hk
      have h0 := h k0 (by simp)
      have h2 : ¬ ((didOrUrl k).2.isNone = true) := fun hn => (didOrUrl_isNone k).1 hn h1.1
      simp [didOrUrl_fst, h1.2.1, h0.2.1, h2]
    simp only [checkRecipients, this]
    rfl

theorem AnonCryptAlg.enc_ok (alg : AnonCryptAlg) : validUtf8 alg.enc.asStr = true ∧ EncAlg.ofStr alg.enc.asStr = alg.enc ∧
    anonEnc alg.enc = some (alg.ce, alg) := by
  cases alg <;> exact ⟨by decide, rfl, rfl⟩

/-- The recipients' keys are those of the document. -/
def FromDoc (C : Crypto) (doc : DIDDoc) (c : Curve) (rcps : List (Str × C.Key)) : Prop :=
  ∀ p ∈ rcps, ∃ vm, methodOf doc p.1 = some vm ∧ vm.as C c = .ok p.2

theorem holds_key {E : Env} {doc : DIDDoc} {c : Curve} {rcps : List (Str × C.Key)} {kid : Str}
    (hd : FromDoc C doc c rcps) (hk : kid ∈ rcps.map Prod.fst) (h : HoldsSecret C pairs E doc kid) :
    ∃ secret s, E.getSecret kid = .ok (some secret) ∧ secret.asKeyPair C = .ok ⟨c, s⟩ ∧
      ∀ q, (kid, q) ∈ rcps → pairs c s q := by
  obtain ⟨secret, vm, c', s, p, h1, h2, h3, h4, h5⟩ := h
  have key : ∀ q, (kid, q) ∈ rcps → c' = c ∧ p = q := by
    intro q hq
    obtain ⟨vm', h6, h7⟩ := hd _ hq
    rw [h3] at h6; cases h6
    have := (as_ok h7).2
    rw [h4] at this
    cases this
    exact ⟨rfl, rfl⟩
  obtain ⟨⟨k, q⟩, hq, rfl⟩ := List.mem_map.1 hk
  obtain ⟨rfl, -⟩ := key q hq
  exact ⟨secret, s, h1, h2, fun q hq => (key q hq).2 ▸ h5⟩

/-- An anonymously encrypted envelope is opened by a receiver that has the key. -/
theorem anon_gives {E : Env} {doc : DIDDoc} {did : Str} {curve : Curve} {pt : Bytes} {alg : AnonCryptAlg}
    {rcps : List (Str × C.Key)} {tr : List Event} {out : Str} (law : C.Lawful pairs)
    (hc : curve = .x25519 ∨ curve = .p256) (hd : FromDoc C doc curve rcps)
    (hw : ∀ k ∈ rcps.map Prod.fst, WireKid did k) (ho : CanOpen C pairs E doc (rcps.map Prod.fst))
    (hpt : validUtf8 pt = true)
    (h : Runs (jweEncrypt C alg.ce .ecdhEs curve pt .ecdhEs alg.enc none rcps) tr (.ok out))
    (opts : UnpackOptions) (md : UnpackMetadata) :
    Gives E (tryUnpackAnoncrypt C out opts md) (.ok (some pt, md.anon (rcps.map Prod.fst) alg)) := by
  obtain ⟨h1, h2, h3⟩ := alg.enc_ok
  obtain ⟨p, g1, g2, g3, g4, g5, g6, g7, g8, g9⟩ := jwe_open law (by decide) rfl h1 h2 (by simp) (fun k hk => (hw k hk).2.2) h
  obtain ⟨found, f1, f2, f3⟩ := ho
  have hne : rcps.map Prod.fst ≠ [] := by
    cases found with
    | nil => exact absurd rfl f2
    | cons k r => exact List.ne_nil_of_mem (f3 k (by simp)).1
  have hf : found.isEmpty = false := by cases found <;> simp_all
  unfold tryUnpackAnoncrypt
  refine Gives.lift_bind (a := some p.jwe) (by rw [g1]; rfl) ?_
  simp only
  refine Gives.lift_bind g2 ?_
  rw [if_neg (by simp [g3])]
  refine Gives.lift_bind g6 ?_
  rw [g7]
  refine Gives.lift_bind (checkRecipients_wire hne hw) (Gives.bind (Gives.findSecrets f1) ?_)
  rw [hf, if_neg (by simp)]
  have hx : ∀ k ∈ found, ∃ secret key, E.getSecret k = .ok (some secret) ∧ secret.asKeyPair C = .ok key ∧
      anonDecryptWith C p k key = .ok (alg, pt) := by
    intro k hk
    obtain ⟨hk1, hk2⟩ := f3 k hk
    obtain ⟨secret, s, e1, e2, e3⟩ := holds_key hd hk1 hk2
    refine ⟨secret, _, e1, e2, ?_⟩
    have hdec := g9 k s none hk1 rfl (by
      intro q e r j apv tag kw hq hg hj hkw
      simp only [deriveKey, okOr_eq_ok] at hkw ⊢
      exact law.ecdhEs_agree hg hj (e3 q hq) hkw)
    simp only [anonDecryptWith, if_pos hc, g4, h3, hdec, bind, Except.bind]
  refine Gives.bind (decryptLoop_gives f2 hx none) (Gives.lift_bind (a := (alg, pt)) rfl ?_)
  simp only [hpt, Bool.true_eq_false, if_false]
  exact Gives.pure

/-- An authenticated envelope is opened by a receiver that has the key and sees the sender's. -/
theorem auth_gives {E : Env} {doc fromDoc : DIDDoc} {did fromKid : Str} {curve : Curve} {pt : Bytes} {ss sp : C.Key}
    {vm : VerificationMethod}
    {rcps : List (Str × C.Key)} {tr : List Event} {out : Str} (law : C.Lawful pairs)
    (hc : curve = .x25519 ∨ curve = .p256) (hd : FromDoc C doc curve rcps)
    (hw : ∀ k ∈ rcps.map Prod.fst, WireKid did k) (ho : CanOpen C pairs E doc (rcps.map Prod.fst))
    (hfk : HasFragment fromKid) (hfp : Plain fromKid) (hfd : E.resolve (didOf fromKid) = .ok (some fromDoc))
    (hfa : fromKid ∈ fromDoc.keyAgreement) (hvm : methodOf fromDoc fromKid = some vm)
    (hsp : vm.asKeyPair C = .ok ⟨curve, sp⟩) (hpr : pairs curve ss sp)
    (hpt : validUtf8 pt = true)
    (h : Runs (jweEncrypt C .a256cbcHs512 .ecdh1pu curve pt .ecdh1pu .a256cbcHs512 (some (fromKid, ss)) rcps) tr (.ok out))
    (opts : UnpackOptions) (md : UnpackMetadata) :
    Gives E (tryUnpackAuthcrypt C out opts md)
      (.ok (some pt, md.auth (rcps.map Prod.fst) fromKid .a256cbcHs512Ecdh1puA256kw)) := by
  obtain ⟨p, g1, g2, g3, g4, g5, g6, g7, g8, g9⟩ := jwe_open law (by decide) rfl (by decide) rfl
    (by rintro x hx; cases hx; exact hfp) (fun k hk => (hw k hk).2.2) h
  obtain ⟨found, f1, f2, f3⟩ := ho
  have hne : rcps.map Prod.fst ≠ [] := by
    cases found with
    | nil => exact absurd rfl f2
    | cons k r => exact List.ne_nil_of_mem (f3 k (by simp)).1
  have hf : found.isEmpty = false := by cases found <;> simp_all
  have hfk' : (didOrUrl fromKid).2.isNone = false := by
    have := (didOrUrl_isSome fromKid).2 hfk
    cases hx : (didOrUrl fromKid).2 <;> simp_all
  unfold tryUnpackAuthcrypt
  refine Gives.lift_bind (a := some p.jwe) (by rw [g1]; rfl) ?_
  simp only
  refine Gives.lift_bind g2 ?_
  rw [if_neg (by simp [g3])]
  refine Gives.lift_bind g6 ?_
  refine Gives.lift_bind (a := fromKid) (by rw [g5]; rfl) ?_
  simp only [hfp.1, hfk', Bool.true_eq_false, if_false, didOrUrl_fst, find_method]
  refine Gives.bind (Gives.withKind (Gives.resolve hfd)) (Gives.lift_bind (a := fromDoc) rfl ?_)
  refine Gives.lift_bind (a := fromKid) (by rw [find?_eq_self.2 ⟨rfl, hfa⟩]; rfl) ?_
  refine Gives.lift_bind (a := vm) (by rw [hvm]; rfl) (Gives.lift_bind hsp ?_)
  rw [g7]
  refine Gives.lift_bind (checkRecipients_wire hne hw) (Gives.bind (Gives.findSecrets f1) ?_)
  rw [hf, if_neg (by simp)]
  have hx : ∀ k ∈ found, ∃ secret key, E.getSecret k = .ok (some secret) ∧ secret.asKeyPair C = .ok key ∧
      authDecryptWith C p fromKid ⟨curve, sp⟩ k key = .ok (.a256cbcHs512Ecdh1puA256kw, pt) := by
    intro k hk
    obtain ⟨hk1, hk2⟩ := f3 k hk
    obtain ⟨secret, s, e1, e2, e3⟩ := holds_key hd hk1 hk2
    refine ⟨secret, _, e1, e2, ?_⟩
    have hdec := g9 k s (some (fromKid, sp)) hk1 rfl (by
      intro q e r j apv tag kw hq hg hj hkw
      simp only [deriveKey, Option.map_some, okOr_eq_ok] at hkw ⊢
      exact law.ecdh1pu_agree hg hj hpr (e3 q hq) hkw)
    simp only [authDecryptWith]
    rw [if_pos ⟨hc, trivial, g4⟩, hdec]
    rfl
  refine Gives.bind (decryptLoop_gives f2 hx none) (Gives.lift_bind (a := (.a256cbcHs512Ecdh1puA256kw, pt)) rfl ?_)
  simp only [hpt, Bool.true_eq_false, if_false]
  unfold UnpackMetadata.auth
  cases md.encryptedToKids <;> exact Gives.pure

end DIDComm
