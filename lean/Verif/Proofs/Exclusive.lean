import Verif.Spec.Exclusive
import Verif.Props.Onion

/-! # Who can open an envelope: proofs -/

set_option autoImplicit false

namespace DIDComm

variable {C : Crypto} {pairs : Curve → C.Key → C.Key → Prop}

/-- What was wrapped, for whom. -/
theorem wrapAll_mem {kdf : Kdf} {curve : Curve} {epk : C.Key} {skey : Option C.Key} {alg apu apv tag cek : Bytes} :
    ∀ {l : List (Str × C.Key)} {rs : List JweRecipient}, wrapAll C kdf curve epk skey alg apu apv tag cek l = .ok rs →
      ∀ r ∈ rs, ∃ key kw ek, (r.kid, key) ∈ l ∧ deriveKey C kdf curve epk skey key alg apu apv tag false = .ok kw ∧
        C.wrap kw cek = some ek ∧ r.encryptedKey = B64.encode ek
  | [], rs, h => by cases h; intro r hr; cases hr
  | (kid, key) :: l, rs, h => by
    simp only [wrapAll, res_bind_ok, okOr_eq_ok, Except.ok.injEq] at h
    obtain ⟨kw, h1, ek, h2, rs', h3, rfl⟩ := h
    intro r hr
    rcases List.mem_cons.1 hr with rfl | hr
    · exact ⟨key, kw, ek, by simp, h1, h2, rfl⟩
    · obtain ⟨key', kw', ek', a, b, c, d⟩ := wrapAll_mem h3 r hr
      exact ⟨key', kw', ek', by simp [a], b, c, d⟩

/-- An envelope that was made is read back, and whoever opens it derives a key for which it was made. -/
theorem jwe_shut {ce : ContentEnc} {kdf : Kdf} {curve : Curve} {pt : Bytes} {alg : JweAlg} {enc : EncAlg}
    {sender : Option (Str × C.Key)} {rcps : List (Str × C.Key)} {tr : List Event} {out : Str}
    (law : C.Lawful pairs) (ex : C.Exclusive pairs)
    (ha : validUtf8 alg.asStr = true) (hr : JweAlg.ofStr alg.asStr = alg)
    (he : validUtf8 enc.asStr = true) (her : EncAlg.ofStr enc.asStr = enc)
    (hs : ∀ x, sender = some x → Plain x.1) (hk : ∀ k ∈ rcps.map Prod.fst, Plain k)
    (hd : kdf = .ecdh1pu → sender ≠ none)
    (h : Runs (jweEncrypt C ce kdf curve pt alg enc sender rcps) tr (.ok out)) :
    ∃ p : ParsedJWE, jweFromStr out = .ok p.jwe ∧ p.jwe.parse C = .ok p ∧ p.protected_.alg = alg ∧
      p.protected_.enc = enc ∧
      ∀ ce' c' snd kid key x, p.decrypt C ce' kdf c' snd kid key = .ok x →
        (∃ q, (kid, q) ∈ rcps ∧ c' = curve ∧ pairs curve key q) ∧ (ce' = ce → x = pt) := by
  obtain ⟨r1, r2, r3, cek, epk, j, ct, tag, rs, rfl, h1, h2, h3, h4, h5, rfl⟩ := jweEncrypt_ok.1 h
  obtain ⟨hj, hjd⟩ := law.jwk_ok h3
  have hs1 : ∀ s, sender.map Prod.fst = some s → Plain s := by
    intro s hs'
    obtain ⟨x, hx, rfl⟩ := Option.map_eq_some_iff.1 hs'
    exact hs x hx
  have hs2 : ∀ s, (sender.map Prod.fst).map B64.encode = some s → Plain s := by
    intro s hs'
    obtain ⟨x, hx, rfl⟩ := Option.map_eq_some_iff.1 hs'
    exact B64.plain_encode _
  have hrs := wrapAll_plain h5 hk
  have hj1 := jwe_print ⟨jweProtected C alg enc (sender.map Prod.fst) (rcps.map Prod.fst) j, rs,
    B64.encode (C.genNonce ce r3), B64.encode ct, B64.encode tag⟩ (B64.plain_encode _) (B64.plain_encode _)
    (B64.plain_encode _) (B64.plain_encode _) hrs
  have hh := jweHeader_print (f64 := C.f64) encryptedTyp alg enc (sender.map Prod.fst)
    ((sender.map Prod.fst).map B64.encode) (B64.encode (apvOf C (rcps.map Prod.fst))) j (by decide) ha hr he her hs1 hs2
    (B64.plain_encode _) hj (by omega)
  refine ⟨⟨_, ⟨some encryptedTyp, alg, enc, sender.map Prod.fst, (sender.map Prod.fst).map B64.encode,
    B64.encode (apvOf C (rcps.map Prod.fst)), j⟩, sender.map Prod.fst, apvOf C (rcps.map Prod.fst)⟩, hj1, ?_, rfl, rfl, ?_⟩
  · simp only [JWE.parse, jweProtected, B64.decode_encode, okOr, bind, Except.bind]
    rw [hh]
    simp only [B64.decode_encode]
    cases sender with
    | none => rfl
    | some x => simp [B64.decode_encode, Except.map]
  · intro ce' c' snd kid key x hx
    obtain ⟨hsnd, epk', tag', kw', a1, a2, r, ek, cek', ct', iv', b1, rfl, b2, b3, b5, b6, b4, b7⟩ := decrypt_ok hx
    simp only [B64.decode_encode, Option.some.injEq] at b3
    subst b3
    obtain ⟨q, kw, ek', d1, d2, d3, d4⟩ := wrapAll_mem h5 r b1
    rw [d4, B64.decode_encode] at b2
    cases b2
    cases ex.wrapped h1 d3 b4
    refine ⟨⟨q, d1, ?_⟩, ?_⟩
    rotate_left
    · rintro rfl
      rw [law.unwrap_wrap h1 d3] at b4
      simp only [B64.decode_encode, Option.some.injEq] at b4 b5 b6 b7
      subst b4 b5 b6
      rw [law.dec_enc h4] at b7
      exact (Option.some.inj b7).symm
    cases kdf with
    | ecdhEs =>
      simp only [deriveKey, okOr_eq_ok] at a2 d2
      exact ex.anonymous h2 h3 d2 a1 a2
    | ecdh1pu =>
      cases sender with
      | none => exact absurd rfl (hd rfl)
      | some y =>
        cases snd with
        | none => simp [deriveKey, fail] at a2
        | some z =>
          simp only [deriveKey, okOr_eq_ok, Option.map_some] at a2 d2
          exact ex.sender h2 h3 d2 a1 a2

/-- A text that is an envelope is opened, or unpacking fails. -/
theorem unpack_opened {t : Str} {p : ParsedJWE} {opts : UnpackOptions} {tr : List Event} {x : Message × UnpackMetadata} {md : UnpackMetadata}
    {n : Nat} (ht : jweFromStr t = .ok p.jwe) (hp : p.jwe.parse C = .ok p)
    (h : Runs (unwrapLoop C opts n t md >>= fun x => afterAnon C opts x.1 x.2) tr (.ok x)) :
    (p.protected_.alg = .ecdhEs → ∃ kid secret key ce x, evGet kid (some secret) ∈ tr ∧ secret.asKeyPair C = .ok key ∧
      p.decrypt C ce .ecdhEs key.curve none kid key.key = .ok x) ∧
    (p.protected_.alg = .ecdh1pu → ∃ kid secret key ce snd x, evGet kid (some secret) ∈ tr ∧ secret.asKeyPair C = .ok key ∧
      p.decrypt C ce .ecdh1pu key.curve snd kid key.key = .ok x) := by
  rw [runs_bind_ok] at h
  obtain ⟨⟨msg1, md1⟩, t1, t2, rfl, h1, h2⟩ := h
  rw [afterAnon_eq, runs_bind_ok] at h2
  obtain ⟨⟨auth, md2⟩, t2, t3, rfl, h2, -⟩ := h2
  have same : ∀ {j p'}, jweFromStr t = .ok j → j.parse C = .ok p' → p' = p := by
    intro j p' e1 e2
    rw [ht] at e1; cases e1
    rw [hp] at e2; cases e2
    rfl
  have anon : ∀ {payload : Str} {md md' : UnpackMetadata} {tr : List Event},
      Runs (tryUnpackAnoncrypt C t opts md) tr (.ok (some payload, md')) → p.protected_.alg = .ecdhEs ∧
        ∃ kid secret key ce x, evGet kid (some secret) ∈ tr ∧ secret.asKeyPair C = .ok key ∧
          p.decrypt C ce .ecdhEs key.curve none kid key.key = .ok x := by
    intro payload md md' tr h
    rcases tryUnpackAnoncrypt_ok.1 h with ⟨h, -⟩ | ⟨jwe, p', found, tr', alg, payload, ho, g1, g2, ha, -, -, rfl, -, g5, -, -⟩
    · cases h
    cases same g1 g2
    obtain ⟨kid, secret, key, -, e2, e3, e4⟩ := decryptLoop_used g5
    refine ⟨ha, kid, secret, key, ?_⟩
    unfold anonDecryptWith at e4
    split at e4
    · split at e4
      · simp only [res_bind_ok] at e4
        obtain ⟨b, hb, -⟩ := e4
        exact ⟨_, b, List.mem_cons_of_mem _ e2, e3, hb⟩
      · cases e4
    · cases e4
  cases unwrapLoop_ok h1 with
  | stop g =>
    have hne : p.protected_.alg ≠ .ecdhEs := by
      rcases tryUnpackAnoncrypt_ok.1 g with ⟨-, -, -, h | ⟨j, p', e1, e2, h⟩⟩ | ⟨_, _, _, _, _, _, h, -⟩
      · rw [ht] at h; cases h
      · cases same e1 e2; exact h
      · cases h
    refine ⟨fun h => absurd h hne, fun ha => ?_⟩
    rcases tryUnpackAuthcrypt_ok.1 h2 with ⟨-, -, -, h | ⟨j, p', e1, e2, h⟩⟩ | ⟨jwe, p', fromKid, doc, vm, fromKey, found, tr', alg, payload,
      ho, g1, g2, -, -, -, -, -, -, -, -, -, rfl, -, g5, -⟩
    · rw [ht] at h; cases h
    · cases same e1 e2; exact absurd ha h
    · cases same g1 g2
      obtain ⟨kid, secret, key, -, e2, e3, e4⟩ := decryptLoop_used g5
      refine ⟨kid, secret, key, ?_⟩
      unfold authDecryptWith at e4
      split at e4
      · rename_i hc
        simp only [res_bind_ok] at e4
        obtain ⟨b, hb, -⟩ := e4
        rw [hc.2.1] at hb
        exact ⟨_, _, b, by simp [e2], e3, hb⟩
      · split at e4
        · cases e4
        · split at e4 <;> cases e4
  | last g _ =>
    obtain ⟨ha, kid, secret, key, ce, x, e1, e2, e3⟩ := anon g
    exact ⟨fun _ => ⟨kid, secret, key, ce, x, by simp [e1], e2, e3⟩, fun h => by rw [ha] at h; cases h⟩
  | again g _ _ _ =>
    obtain ⟨ha, kid, secret, key, ce, x, e1, e2, e3⟩ := anon g
    exact ⟨fun _ => ⟨kid, secret, key, ce, x, by simp [e1], e2, e3⟩, fun h => by rw [ha] at h; cases h⟩

theorem keyFrom_of {doc : DIDDoc} {who : Str} {kids : List Str} {vms : List VerificationMethod} {c : Curve} {l : List (Str × C.Key)}
    {k : ErrorKind} {kid : Str} {q : C.Key} (h1 : agreementKids (didOrUrl who).2 doc = .ok kids) (h2 : methodsOf k doc kids = .ok vms)
    (h3 : keysOf C c (vms.filter (fun vm => decide (vm.keyAlg = some c))) = .ok l) (hm : (kid, q) ∈ l) :
    KeyFrom C doc (meantBy who doc.keyAgreement) kid c q := by
  obtain ⟨rfl, -⟩ := agreementKids_ok.1 h1
  obtain ⟨vm, v1, rfl, v3⟩ := keysOf_mem h3 hm
  obtain ⟨v4, v5⟩ := methods_mem (methodsOf_ok.1 h2) (List.mem_filter.1 v1).1
  obtain ⟨v6, v7⟩ := as_ok v3
  exact ⟨v4, vm, v5, v6, v7⟩

theorem same_read {out t : Str} {j : JWE} (hj : jweFromStr out = .ok j) (h : SameEnvelope out t) : jweFromStr t = .ok j := by
  obtain ⟨j', h1, h2⟩ := h
  have h1 : jweFromStr out = .ok j' := h1
  rw [hj] at h1; cases h1
  exact h2

theorem anoncrypt_shut {to : Str} {msg : Bytes} {alg : AnonCryptAlg} {tr tr' : List Event} {out t : Str} {kids : List Str}
    {opts : UnpackOptions} {x : Message × UnpackMetadata} {md : UnpackMetadata} {n : Nat} (law : C.Lawful pairs) (ex : C.Exclusive pairs)
    (hk : ∀ k ∈ kids, Plain k) (h : Runs (anoncrypt C to msg alg) tr (.ok (out, kids))) (hs : SameEnvelope out t)
    (h' : Runs (unwrapLoop C opts n t md >>= fun x => afterAnon C opts x.1 x.2) tr' (.ok x)) :
    ∃ doc kid, evResolve (didOf to) (some doc) ∈ tr ∧ kid ∈ kids ∧ ReadSecretFor C pairs tr' to doc kid := by
  obtain ⟨doc, _, vms, curve, toKeys, t1, rfl, h1, h2, -, -, h3, rfl, h4⟩ := anoncrypt_ok.1 h
  have hkk := keysOf_fst h3
  rw [← hkk] at hk ⊢
  obtain ⟨p, p1, p2, p3, -, p4⟩ := jwe_shut law ex (by decide) rfl alg.enc_ok.1 alg.enc_ok.2.1 (fun x hx => by cases hx) hk (fun h => by cases h) h4
  obtain ⟨kid, secret, ⟨c, key⟩, ce, x, e1, e2, e3⟩ := (unpack_opened (same_read p1 hs) p2 h').1 p3
  obtain ⟨⟨q, q1, rfl, q3⟩, -⟩ := p4 _ _ _ _ _ _ e3
  exact ⟨doc, kid, by simp [didOrUrl_fst], List.mem_map.2 ⟨_, q1, rfl⟩, secret, _, key, q, e1, e2, keyFrom_of h1 h2 h3 q1, q3⟩

/-- One anonymous layer: it is removed with a secret only, and what comes out is what was put in. -/
theorem layer_shut {to : Str} {msg : Bytes} {alg : AnonCryptAlg} {tr tr' : List Event} {out t : Str} {kids : List Str}
    {opts : UnpackOptions} {o : Option Str} {md md' : UnpackMetadata} (law : C.Lawful pairs) (ex : C.Exclusive pairs)
    (hk : ∀ k ∈ kids, Plain k) (h : Runs (anoncrypt C to msg alg) tr (.ok (out, kids))) (hs : SameEnvelope out t)
    (h' : Runs (tryUnpackAnoncrypt C t opts md) tr' (.ok (o, md'))) :
    o = some msg ∧ (md.Fresh → md'.Fresh) ∧ ∃ doc kid, evResolve (didOf to) (some doc) ∈ tr ∧ ReadSecretFor C pairs tr' to doc kid := by
  obtain ⟨doc, _, vms, curve, toKeys, t1, rfl, h1, h2, -, -, h3, rfl, h4⟩ := anoncrypt_ok.1 h
  have hkk := keysOf_fst h3
  rw [← hkk] at hk
  obtain ⟨p, p1, p2, p3, p5, p4⟩ := jwe_shut law ex (by decide) rfl alg.enc_ok.1 alg.enc_ok.2.1 (fun x hx => by cases hx) hk (fun h => by cases h) h4
  have same : ∀ {j p'}, jweFromStr t = .ok j → j.parse C = .ok p' → p' = p := by
    intro j p' e1 e2
    rw [same_read p1 hs] at e1; cases e1
    rw [p2] at e2; cases e2
    rfl
  rcases tryUnpackAnoncrypt_ok.1 h' with ⟨-, -, -, h | ⟨j, p', e1, e2, h⟩⟩ | ⟨jwe, p', found, tr', alg', payload, ho, g1, g2, ha, -, -, rfl, -, g5, -, rfl⟩
  · rw [same_read p1 hs] at h; cases h
  · cases same e1 e2; exact absurd p3 h
  cases same g1 g2
  obtain ⟨kid, secret, key, -, e2, e3, e4⟩ := decryptLoop_used g5
  unfold anonDecryptWith at e4
  rw [p5, alg.enc_ok.2.2] at e4
  split at e4
  · simp only [res_bind_ok] at e4
    obtain ⟨b, hb, e⟩ := e4
    cases e
    obtain ⟨c, key⟩ := key
    obtain ⟨⟨q, q1, rfl, q3⟩, q4⟩ := p4 _ _ _ _ _ _ hb
    exact ⟨by rw [ho, q4 rfl], fun hf => hf.anon _ _, doc, kid, by simp [didOrUrl_fst], secret, _, key, q, List.mem_cons_of_mem _ e2, e3,
      keyFrom_of h1 h2 h3 q1, q3⟩
  · cases e4

theorem authcrypt_shut {to from_ : Str} {msg : Bytes} {encAuth : AuthCryptAlg} {encAnon : AnonCryptAlg} {ps : Bool} {tr tr' : List Event}
    {out t fromKid : Str} {kids : List Str} {opts : UnpackOptions} {x : Message × UnpackMetadata} {md : UnpackMetadata}
    {n : Nat} (law : C.Lawful pairs) (ex : C.Exclusive pairs) (hk : ∀ k ∈ kids, Plain k) (hf : Plain fromKid)
    (h : Runs (authcrypt C to from_ msg encAuth encAnon ps) tr (.ok (out, fromKid, kids))) (hs : SameEnvelope out t)
    (h' : Runs (unwrapLoop C opts n t md >>= fun x => afterAnon C opts x.1 x.2) tr' (.ok x)) :
    ∃ doc kid, evResolve (didOf to) (some doc) ∈ tr ∧ kid ∈ kids ∧ ReadSecretFor C pairs tr' to doc kid := by
  obtain ⟨doc, _, _, _, _, kids', vms, _, _, curve, toKeys, senderKey, t1, rfl, -, -, -, h1, h2, -, -, -, -, h3, rfl, -, h4⟩ := authcrypt_ok.1 h
  have hkk := keysOf_fst h3
  rw [← hkk] at hk ⊢
  unfold authEncrypt at h4
  rw [runs_bind_ok] at h4
  obtain ⟨inner, u1, u2, rfl, h4, h5⟩ := h4
  have done : ∀ {kid : Str} {secret : Secret} {key : KeyPair C}, evGet kid (some secret) ∈ tr' → secret.asKeyPair C = .ok key →
      (∃ q, (kid, q) ∈ toKeys ∧ key.curve = curve ∧ pairs curve key.key q) →
      ∃ kid, kid ∈ toKeys.map Prod.fst ∧ ReadSecretFor C pairs tr' to doc kid := by
    rintro kid secret ⟨c, key⟩ e1 e2 ⟨q, q1, rfl, q3⟩
    exact ⟨kid, List.mem_map.2 ⟨_, q1, rfl⟩, secret, _, key, q, e1, e2, keyFrom_of h1 h2 h3 q1, q3⟩
  refine ⟨doc, ?_⟩
  suffices hr : ∃ kid, kid ∈ toKeys.map Prod.fst ∧ ReadSecretFor C pairs tr' to doc kid by
    obtain ⟨kid, a, b⟩ := hr
    exact ⟨kid, by simp [didOrUrl_fst], a, b⟩
  split at h5
  · obtain ⟨p, p1, p2, p3, -, p4⟩ := jwe_shut law ex (by decide) rfl encAnon.enc_ok.1 encAnon.enc_ok.2.1 (fun x hx => by cases hx) hk
      (fun h => by cases h) h5
    obtain ⟨kid, secret, key, ce, x, e1, e2, e3⟩ := (unpack_opened (same_read p1 hs) p2 h').1 p3
    exact done e1 e2 (p4 _ _ _ _ _ _ e3).1
  · obtain ⟨rfl, e⟩ := runs_pure.1 h5
    cases e
    obtain ⟨p, p1, p2, p3, -, p4⟩ := jwe_shut law ex (by decide) rfl (by decide) rfl (fun x hx => by cases hx; exact hf) hk
      (fun _ h => by cases h) h4
    obtain ⟨kid, secret, key, ce, snd, x, e1, e2, e3⟩ := (unpack_opened (same_read p1 hs) p2 h').2 p3
    exact done e1 e2 (p4 _ _ _ _ _ _ e3).1

end DIDComm
