import Verif.Spec.HistoryAuth
import Verif.Props.History
import Verif.Proofs.Trip

/-! # Histories of calls with envelopes of a named sender: proofs -/

set_option autoImplicit false

namespace DIDComm

variable {C : Crypto} {pairs : Curve → C.Key → C.Key → Prop} {honest : Curve → C.Key → C.Key → Prop} {α : Type}

/-! ## Opening -/

/-- Two runs of a program with the same questions and answers are one. -/
theorem runs_along {p : Prog α} {t t' s s' : List Event} {r r' : Res α} (h : Runs p t r) (h' : Runs p t' r') (e : t ++ s = t' ++ s') :
    t = t' ∧ r = r' ∧ s = s' := by
  induction h generalizing t' r' with
  | ret r => cases h'; exact ⟨rfl, rfl, e⟩
  | ask q k x tr r h ih =>
    cases h' with
    | ask _ _ x' tr' _ h' =>
      simp only [List.cons_append, List.cons.injEq] at e
      obtain ⟨e1, e2⟩ := e
      cases e1
      obtain ⟨rfl, rfl, rfl⟩ := ih h' e2
      exact ⟨rfl, rfl, rfl⟩

theorem decryptLoop_which {all : Bool} {f : Str → KeyPair C → Res α} {kids : List Str} {x : α} {tr : List Event}
    (h : Runs (decryptLoop C all f kids none) tr (.ok (some x))) :
    ∃ kid secret key, (if all then kids.getLast? else kids.head?) = some kid ∧ evGet kid (some secret) ∈ tr ∧
      secret.asKeyPair C = .ok key ∧ f kid key = .ok x := by
  rcases decryptLoop_ok h with ⟨-, -, h⟩ | ⟨k, rest, y, rfl, hx, h1, h2⟩
  · cases h
  · cases hx
    cases all with
    | false =>
      obtain ⟨secret, key, rfl, a, b⟩ := h1 rfl
      exact ⟨k, secret, key, rfl, by simp, a, b⟩
    | true =>
      obtain ⟨-, last, secret, key, a, b, c, d⟩ := h2 rfl
      exact ⟨last, secret, key, a, b, c, d⟩

/-- The opening of anonymous envelopes is the same. -/
structure SameAnon (C : Crypto) (P : Primitives C.Key) : Prop where
  derives : P.ecdhEs = C.ecdhEs
  unwraps : ∀ c e r alg apu apv receive kw, C.ecdhEs c e r alg apu apv receive = some kw → ∀ ce ek, P.unwrap ce kw ek = C.unwrap ce kw ek
  decrypts : P.aeadDec = C.aeadDec

variable {P : Primitives C.Key}

theorem decrypt_same (h : SameAnon C P) (ce : ContentEnc) (c : Curve) (p : ParsedJWE) (s : Option (Str × C.Key)) (kid : Str) (key : C.Key) :
    p.decrypt (C.replaced P) ce .ecdhEs c s kid key = p.decrypt C ce .ecdhEs c s kid key := by
  unfold ParsedJWE.decrypt deriveKey
  simp only [h.derives, h.decrypts]
  split
  · rfl
  refine congrArg _ (funext fun r => congrArg _ (funext fun ek => congrArg _ (funext fun epk => congrArg _ (funext fun tag => ?_))))
  cases hk : C.ecdhEs c epk key p.protected_.alg.asStr (p.apu.getD []) p.apv true with
  | none => rfl
  | some kw =>
    show (okOr ErrorKind.malformed (P.unwrap ce kw ek) >>= _) = (okOr ErrorKind.malformed (C.unwrap ce kw ek) >>= _)
    rw [h.unwraps _ _ _ _ _ _ _ _ hk]

theorem tryAnon_same (h : SameAnon C P) (msg : Str) (o : UnpackOptions) (md : UnpackMetadata) :
    tryUnpackAnoncrypt (C.replaced P) msg o md = tryUnpackAnoncrypt C msg o md := by
  unfold tryUnpackAnoncrypt
  refine then_congr fun j => ?_
  cases j with
  | none => rfl
  | some j =>
    refine prog_congr rfl fun p => ?_
    have : ∀ (p : ParsedJWE) kid (k : KeyPair C), anonDecryptWith (C.replaced P) p kid (k.conv P) = anonDecryptWith C p kid k := by
      intro p kid k
      unfold anonDecryptWith KeyPair.conv
      simp only [decrypt_same h]
    simp only [decryptLoop_replaced (this _)]
    rfl

theorem unwrapLoop_same (h : SameAnon C P) (o : UnpackOptions) : ∀ (n : Nat) (msg : Str) (md : UnpackMetadata),
    unwrapLoop (C.replaced P) o n msg md = unwrapLoop C o n msg md
  | 0, _, _ => rfl
  | n + 1, msg, md => by
    unfold unwrapLoop
    rw [tryAnon_same h]
    simp only [unwrapLoop_same h o n]
    rfl

theorem notUnwrapping_at {kw cek : Bytes} {ce : ContentEnc} {ek : Bytes} (h : C.unwrap ce kw ek = some cek) :
    (C.notUnwrapping kw cek).unwrap ce kw ek = none := by
  simp [Crypto.notUnwrapping, h]

theorem notUnwrapping_same (hsep : Separates C pairs) {c : Curve} {e s r : C.Key} {alg apu apv tag : Bytes} {receive : Bool} {kw cek : Bytes}
    (h : C.ecdh1pu c e s r alg apu apv tag receive = some kw) : SameAnon C (C.notUnwrapping kw cek) := by
  refine ⟨rfl, fun c' e' r' alg' apu' apv' receive' kw' h' ce ek => ?_, rfl⟩
  have hne := hsep.anonymous _ _ _ _ _ _ _ _ _ _ _ _ _ _ _ _ _ _ h' h
  simp [Crypto.notUnwrapping, hne]

/-- What opening an envelope of a named sender relies on. -/
theorem authDecrypt_unwraps {p : ParsedJWE} {fromKid kid : Str} {s key : KeyPair C} {x : AuthCryptAlg × Bytes}
    (ha : p.protected_.alg = .ecdh1pu) (h : authDecryptWith C p fromKid s kid key = .ok x) :
    ∃ epk apv tag kw cek iv aad ct, s.curve = key.curve ∧
      C.ecdh1pu s.curve epk s.key key.key b!"ECDH-1PU+A256KW" fromKid apv tag true = some kw ∧
      C.aeadDec .a256cbcHs512 cek iv aad (ct ++ tag) = some x.2 ∧
      ∀ y, authDecryptWith (C.replaced (C.notUnwrapping kw cek)) p fromKid (s.conv _) kid (key.conv _) ≠ .ok y := by
  unfold authDecryptWith at h
  split at h
  · rename_i hc
    simp only [res_bind_ok, Except.ok.injEq] at h
    obtain ⟨b, hd, rfl⟩ := h
    unfold ParsedJWE.decrypt at hd
    split at hd
    · cases hd
    rename_i hs
    simp only [Option.map_some, Decidable.not_not] at hs
    simp only [res_bind_ok, okOr_eq_ok] at hd
    obtain ⟨r, h1, ek, h2, epk, h3, tag, h4, kw, h5, cek, h6, ct, h7, iv, h8, h9⟩ := hd
    have h5' := h5
    simp only [deriveKey, okOr_eq_ok, ha, JweAlg.asStr, ← hs, Option.getD, Option.map_some] at h5'
    refine ⟨epk, p.apv, tag, kw, cek, iv, _, ct, hc.2.1, h5', h9, fun y hy => ?_⟩
    unfold authDecryptWith KeyPair.conv at hy
    dsimp only at hy
    rw [if_pos hc] at hy
    simp only [res_bind_ok] at hy
    obtain ⟨b', hd', -⟩ := hy
    unfold ParsedJWE.decrypt at hd'
    split at hd'
    · cases hd'
    simp only [res_bind_ok, okOr_eq_ok] at hd'
    obtain ⟨r', g1, ek', g2, epk', g3, tag', g4, kw', g5, cek', g6, -⟩ := hd'
    rw [h1] at g1; cases g1
    rw [h2] at g2; cases g2
    have g3 : C.fromJwk s.curve p.protected_.epk = some epk' := g3
    rw [h3] at g3; cases g3
    rw [h4] at g4; cases g4
    have g5 : deriveKey C .ecdh1pu s.curve epk (some s.key) key.key p.protected_.alg.asStr (p.apu.getD []) p.apv tag true = .ok kw' := g5
    have h5 : deriveKey C .ecdh1pu s.curve epk (some s.key) key.key p.protected_.alg.asStr (p.apu.getD []) p.apv tag true = .ok kw := h5
    rw [h5] at g5; cases g5
    cases (notUnwrapping_at h6).symm.trans g6
  · split at h
    · cases h
    · split at h <;> cases h

/-- A call of `unpack` that reports a sender relies on a content key wrapped under a key derived for the key that the sender's document has. -/
theorem relied_sender (hsep : Separates C pairs) {E : Env} {tr : List Event} {t : Str} {opts : UnpackOptions} {m : Message}
    {md : UnpackMetadata} {k : Str} (h : Runs (unpack C t opts) tr (.ok (m, md))) (hE : Answers E tr) (hk : md.encryptedFromKid = some k) :
    ∃ doc c spub kid secret rpriv epk apv tag kw cek iv aad ct payload, E.resolve (didOf k) = .ok (some doc) ∧
      KeyFrom C doc doc.keyAgreement k c spub ∧ E.getSecret kid = .ok (some secret) ∧ secret.asKeyPair C = .ok ⟨c, rpriv⟩ ∧
      C.ecdh1pu c epk spub rpriv b!"ECDH-1PU+A256KW" k apv tag true = some kw ∧
      LibStep.Unwrapped C ⟨E, tr, .unpack t opts m md⟩ kw cek ∧ C.aeadDec .a256cbcHs512 cek iv aad (ct ++ tag) = some payload ∧
      ∀ m', m'.WF C.f64 → NotEnvelope m' → Packs m' payload → m' = m := by
  obtain ⟨t1, t2, t3, t4, msg1, md1, auth, md2, signed, md3, rfl, h1, h2, h3, h4⟩ := unpack_ok.1 h
  have e4 : md.encryptedFromKid = md3.encryptedFromKid := by
    rcases tryUnpackPlaintext_ok.1 h4 with ⟨-, rfl, -⟩ | ⟨_, -, -, -, ⟨-, -, rfl⟩ | ⟨_, _, _, -, -, rfl⟩⟩ <;> rfl
  have e3 : md3.encryptedFromKid = md2.encryptedFromKid := by
    rcases tryUnpackSign_ok.1 h3 with ⟨-, rfl, -⟩ | ⟨_, _, _, _, _, _, _, _, -, -, -, -, -, -, -, -, -, -, -, -, -, -, rfl⟩ <;> rfl
  have e1 : md1.encryptedFromKid = none := by
    rcases (unwrapLoop_ok h1).metadata with ⟨-, rfl, -⟩ | ⟨_, _, _, _, _, _, _, _, rfl, -⟩ <;> rfl
  rw [e4, e3] at hk
  have h2c := h2
  rcases tryUnpackAuthcrypt_ok.1 h2c with ⟨-, rfl, -⟩ | ⟨jwe, p, k', doc, vm, fromKey, found, tr', alg, payload, rfl, a1, a2, a3, a4, a5, a6, a7,
    a8, a9, a10, a11, rfl, a12, a13, a14, rfl⟩
  · rw [e1] at hk; cases hk
  cases hk
  obtain ⟨kid, secret, key, w1, w2, w3, w4⟩ := decryptLoop_which a13
  obtain ⟨epk, apv, tag, kw, cek, iv, aad, ct, b1, b2, b3, b4⟩ := authDecrypt_unwraps a3 w4
  obtain ⟨c, skey⟩ := fromKey
  obtain ⟨c', rpriv⟩ := key
  obtain rfl : c = c' := b1
  have hdoc : E.resolve (didOf k) = .ok (some doc) := by
    rw [← didOrUrl_fst]
    exact (hE (evResolve _ (some doc)) (by simp)).symm
  have hsec : E.getSecret kid = .ok (some secret) := (hE (evGet kid (some secret)) (by simp [w2])).symm
  refine ⟨doc, c, skey, kid, secret, rpriv, epk, apv, tag, kw, cek, iv, aad, ct, payload, hdoc, ?_, hsec, w3, b2, ⟨h, fun h' => ?_⟩,
    b3, fun m' hw hn hp => ?_⟩
  · refine ⟨a8, vm, ?_, ?_, a10⟩
    · rw [← find_method]; exact a9
    · exact asKeyPair_keyAlg a10
  · have h' : Runs (unpack (C.replaced (C.notUnwrapping kw cek)) t opts) _ (.ok (m, md)) := h'
    obtain ⟨t1', t2', t3', t4', msg1', md1', auth', md2', signed', md3', ht, g1, g2, g3, g4⟩ := unpack_ok.1 h'
    rw [unwrapLoop_same (notUnwrapping_same hsep b2)] at g1
    simp only [List.append_assoc] at ht
    obtain ⟨rfl, e, ht⟩ := runs_along h1 g1 ht
    cases e
    rcases tryUnpackAuthcrypt_ok.1 g2 with ⟨-, -, -, g | ⟨jwe', p', g, g', ge⟩⟩ | ⟨jwe', p', k', doc', vm', fromKey', found', tr'', alg', payload',
      rfl, c1, c2, c3, c4, c5, c6, c7, c8, c9, c10, c11, rfl, c12, c13, c14, rfl⟩
    · rw [a1] at g; cases g
    · rw [a1] at g; cases g
      have g' : jwe.parse C = .ok p' := g'
      rw [a2] at g'; cases g'
      exact ge a3
    · rw [a1] at c1; cases c1
      have c2 : jwe.parse C = .ok p' := c2
      rw [a2] at c2; cases c2
      rw [a5] at c5; cases c5
      simp only [List.cons_append, List.cons.injEq] at ht
      obtain ⟨d1, d2, ht2⟩ := ht
      cases d1
      cases d2
      rw [a9] at c9; cases c9
      rw [method_replaced, a10] at c10
      cases c10
      obtain ⟨kid', secret', key', v1, v2, v3, v4⟩ := decryptLoop_which c13
      rw [w1] at v1; cases v1
      have hmem : evGet kid (some secret') ∈ tr' ++ (t3 ++ t4) := by rw [ht2]; exact List.mem_append_left _ v2
      have hsec' : E.getSecret kid = .ok (some secret') := by
        refine (hE (evGet kid (some secret')) ?_).symm
        simp only [List.mem_append, List.mem_cons] at hmem ⊢
        rcases hmem with h | h | h
        · exact .inl (.inl (.inr (.inr (.inr h))))
        · exact .inl (.inr h)
        · exact .inr h
      rw [hsec] at hsec'; cases hsec'
      rw [secret_replaced, w3] at v3
      cases v3
      exact b4 _ v4
  · have h4 : fromJson (dMessage C.f64) (signed.getD payload) = .ok m := by
      rcases tryUnpackPlaintext_ok.1 h4 with ⟨g, -⟩ | ⟨m', hm, g, -⟩
      · cases g
      · cases hm; exact g
    have hread : fromJson (dMessage C.f64) m'.toJson.print = .ok m := by
      cases signed with
      | none =>
        rcases hp with rfl | ⟨hdr, kid, sig, rfl⟩
        · exact h4
        · rw [Option.getD, JWS.onWire_eq, jws_not_message] at h4; cases h4
      | some msg3 =>
        obtain ⟨kid, alg, doc, c, key, hs, -⟩ := sign_layer h3
        obtain ⟨prot, sig, pl, b, hdr, st, raw, d0, -, -, -, -, -, d3, -⟩ := hs
        have d0 : fromJson dJws payload = _ := d0
        rcases hp with rfl | ⟨hdr, kid, sig, rfl⟩
        · have := message_not_jws hw hn
          unfold jwsFromStr at this
          rw [d0] at this; cases this
        · rw [JWS.onWire_eq] at d0
          have := jws_payload (B64.plain_encode _) d0
          simp only at this
          subst this
          rw [B64.decode_encode] at d3; cases d3
          exact h4
    rw [message_print m' hw] at hread
    cases hread; rfl

/-! ## Making -/

/-- The making of anonymous envelopes is the same. -/
structure SameAnonMaking (C : Crypto) (P : Primitives C.Key) : Prop where
  prints : P.toJwkPublic = C.toJwkPublic
  key : P.genKey = C.genKey
  cek : P.genCek = C.genCek
  nonce : P.genNonce = C.genNonce
  derives : P.ecdhEs = C.ecdhEs
  wraps : ∀ c e r alg apu apv receive kw, C.ecdhEs c e r alg apu apv receive = some kw → ∀ cek, P.wrap kw cek = C.wrap kw cek
  encrypts : P.aeadEnc = C.aeadEnc

theorem wrapAll_same (h : SameAnonMaking C P) (c : Curve) (e : C.Key) (s : Option C.Key) (alg apu apv tag cek : Bytes) :
    ∀ l : List (Str × C.Key),
    wrapAll (C.replaced P) .ecdhEs c e s alg apu apv tag cek l = wrapAll C .ecdhEs c e s alg apu apv tag cek l
  | [] => rfl
  | (kid, key) :: r => by
    unfold wrapAll
    simp only [deriveKey, wrapAll_same h c e s alg apu apv tag cek r, h.derives]
    cases hk : C.ecdhEs c e key alg apu apv false with
    | none => rfl
    | some kw =>
      show (okOr ErrorKind.invalidState (P.wrap kw cek) >>= _) = (okOr ErrorKind.invalidState (C.wrap kw cek) >>= _)
      rw [h.wraps _ _ _ _ _ _ _ _ hk]

theorem encrypt_same (h : SameAnonMaking C P) (ce : ContentEnc) (c : Curve) (pt : Bytes) (alg : JweAlg) (enc : EncAlg)
    (s : Option (Str × C.Key)) (l : List (Str × C.Key)) :
    jweEncrypt (C.replaced P) ce .ecdhEs c pt alg enc s l = jweEncrypt C ce .ecdhEs c pt alg enc s l := by
  unfold jweEncrypt
  simp only [wrapAll_same h, h.prints, h.key, h.cek, h.nonce, h.encrypts]
  rfl

theorem anoncrypt_alike (h : SameAnonMaking C P) (to : Str) (msg : Bytes) (alg : AnonCryptAlg) :
    anoncrypt (C.replaced P) to msg alg = anoncrypt C to msg alg := by
  unfold anoncrypt
  simp only [keysOf_replaced, encrypt_same h]

theorem wrapLoop_same (h : SameAnonMaking C P) (hu : P.uuid = C.uuid) (headers : Option (List (Str × Value))) (alg : AnonCryptAlg) :
    ∀ (l : List (Str × Str)) (msg : Str), wrapLoop (C.replaced P) headers alg l msg = wrapLoop C headers alg l msg
  | [], _ => rfl
  | (to, next) :: r, msg => by
    unfold wrapLoop
    simp only [buildForward_replaced hu, anoncrypt_alike h, wrapLoop_same h hu headers alg r]

theorem wrap_same (h : SameAnonMaking C P) (hu : P.uuid = C.uuid) (msg : Str) (headers : Option (List (Str × Value))) (to : Str)
    (keys : List Str) (alg : AnonCryptAlg) : wrapInForward (C.replaced P) msg headers to keys alg = wrapInForward C msg headers to keys alg := by
  unfold wrapInForward
  simp only [wrapLoop_same h hu]

theorem wrapIfNeeded_same (h : SameAnonMaking C P) (hu : P.uuid = C.uuid) (msg to : Str) (o : PackEncryptedOptions) :
    wrapInForwardIfNeeded (C.replaced P) msg to o = wrapInForwardIfNeeded C msg to o := by
  unfold wrapInForwardIfNeeded
  simp only [wrap_same h hu]

theorem packInner_same (hv : P.verify = C.verify) (hs : P.sign = C.sign) (m : Message) (signBy : Option Str) :
    packInner (C.replaced P) m signBy = packInner C m signBy := by
  cases signBy with
  | none => simp only [packInner, plaintext_replaced (fun _ => hv)]
  | some s => simp only [packInner, signed_replaced (fun _ => hv) (fun c k t st _ => congrFun (congrFun (congrFun (congrFun hs c) k) t) st)]

theorem notWrapping_same (hsep : Separates C pairs) {c : Curve} {e s r : C.Key} {alg apu apv tag : Bytes} {receive : Bool} {kw cek : Bytes}
    (h : C.ecdh1pu c e s r alg apu apv tag receive = some kw) : SameAnonMaking C (C.notWrapping kw cek) := by
  refine ⟨rfl, rfl, rfl, rfl, rfl, fun c' e' r' alg' apu' apv' receive' kw' h' cek' => ?_, rfl⟩
  have hne := hsep.anonymous _ _ _ _ _ _ _ _ _ _ _ _ _ _ _ _ _ _ h' h
  simp [Crypto.notWrapping, hne]

/-- Wrapping for receivers of a named sender without this key and this content key. -/
theorem wrapAll_other {kw cek : Bytes} {c : Curve} {e s : C.Key} {alg apu apv tag cek' : Bytes} : ∀ (l : List (Str × C.Key)),
    (∀ x ∈ l, cek' = cek → C.ecdh1pu c e s x.2 alg apu apv tag false ≠ some kw) →
    wrapAll (C.replaced (C.notWrapping kw cek)) .ecdh1pu c e (some s) alg apu apv tag cek' l =
      wrapAll C .ecdh1pu c e (some s) alg apu apv tag cek' l
  | [], _ => rfl
  | (kid, key) :: r, h => by
    unfold wrapAll
    simp only [deriveKey, wrapAll_other r fun x hx => h x (by simp [hx])]
    rw [show (C.notWrapping kw cek).ecdh1pu = C.ecdh1pu from rfl]
    cases hk : C.ecdh1pu c e s key alg apu apv tag false with
    | none => rfl
    | some kw' =>
      show (okOr ErrorKind.invalidState ((C.notWrapping kw cek).wrap kw' cek') >>= _) = (okOr ErrorKind.invalidState (C.wrap kw' cek') >>= _)
      have : ¬ (kw' = kw ∧ cek' = cek) := by
        rintro ⟨rfl, e⟩
        exact h (kid, key) (by simp) e hk
      simp [Crypto.notWrapping, this]

theorem inner_packs {m : Message} {signBy : Option Str} {tr : List Event} {inner : Str} {kid : Option Str}
    (h : Runs (packInner C m signBy) tr (.ok (inner, kid))) : Packs m inner := by
  rcases packInner_ok.1 h with ⟨-, -, h⟩ | ⟨s, k, -, -, h⟩
  · exact .inl (draws_plaintext h).2
  · obtain ⟨doc, kids, found, secret, pair, tr', payload, alg, -, rfl, -, -, h0, h1, ha, h2⟩ := packSigned_ok.1 h
    obtain ⟨-, rfl⟩ := draws_plaintext h1
    obtain ⟨st, sig, -, hs, rfl⟩ := jwsSign_ok.1 h2
    refine .inr ⟨⟨signedTyp, alg⟩, k, sig, ?_⟩
    rw [JWS.onWire_eq]
    simp [jwsProtected, JwsHeader.onWire_eq]

/-- A call that has wrapped a content key under a key that a receiver derives for a sender has encrypted, as this sender, a message whose
content has the tag of that key. -/
theorem wrapped_by (hsep : Separates C pairs) {s : LibStep} {c : Curve} {epk spub rpriv : C.Key} {alg k apv tag kw cek : Bytes}
    (hd : C.ecdh1pu c epk spub rpriv alg k apv tag true = some kw) (h : s.Wrapped C kw cek) :
    ∃ m inner iv aad ct secret spriv, s.call.SendsAs m k ∧ Packs m inner ∧ C.aeadEnc .a256cbcHs512 cek iv aad inner = some (ct, tag) ∧
      evGet k (some secret) ∈ s.tr ∧ secret.asKeyPair C = .ok ⟨c, spriv⟩ ∧ pairs c spriv spub := by
  obtain ⟨h, hn⟩ := h
  refine Classical.byContradiction fun hno => hn ?_
  have hm := notWrapping_same hsep (cek := cek) hd
  obtain ⟨E, tr, call⟩ := s
  cases call with
  | packPlaintext m out =>
    show Runs (packPlaintext (C.replaced _) m) _ _
    rw [plaintext_replaced fun _ => rfl]; exact h
  | packSigned m signBy out kid =>
    show Runs (packSigned (C.replaced _) m signBy) _ _
    rw [signed_replaced (fun _ => rfl) (fun _ _ _ _ _ => rfl)]; exact h
  | packPrior f issuerKid jwt kid =>
    show Runs (f.pack (C.replaced _) issuerKid) _ _
    rw [priorPack_replaced (fun _ _ _ _ _ => rfl)]; exact h
  | unpackPrior jwt f kid =>
    show Runs (FromPrior.unpack (C.replaced _) jwt) _ _
    rw [priorUnpack_replaced rfl]; exact h
  | wrapInForward msg headers to keys alg out =>
    show Runs (wrapInForward (C.replaced _) msg headers to keys alg) _ _
    rw [wrap_same hm rfl]; exact h
  | unpack t opts m md =>
    show Runs (unpack (C.replaced _) t opts) _ _
    rw [unpack_replaced ⟨fun _ _ _ _ _ _ => rfl, fun _ _ _ _ _ _ _ _ => rfl, rfl, rfl⟩ rfl]; exact h
  | packEncrypted m to from_ signBy opts out md =>
    obtain ⟨t1, t2, t3, inner, signKid, env, fk, tk, w, rfl, h0, h1, h2, h3, h4⟩ := packEncrypted_ok.1 h
    refine packEncrypted_ok.2 ⟨t1, t2, t3, inner, signKid, env, fk, tk, w, rfl, h0, ?_, ?_, ?_, h4⟩
    · rw [packInner_same rfl rfl]; exact h1
    · rcases packCrypt_ok.1 h2 with ⟨rfl, rfl, g⟩ | ⟨f, k', rfl, rfl, g⟩
      · refine packCrypt_ok.2 (.inl ⟨rfl, rfl, ?_⟩)
        rw [anoncrypt_alike hm]; exact g
      · refine packCrypt_ok.2 (.inr ⟨f, k', rfl, rfl, ?_⟩)
        obtain ⟨toDoc, fromDoc, fromKids, found, fromVms, kids, vms, fromVm, secret, curve, toKeys, senderKey, tr', rfl, a1, a2, a3, a4, a5, a6, a7, a8,
          a9, a10, a11, a12, a13⟩ := authcrypt_ok.1 g
        refine authcrypt_ok.2 ⟨toDoc, fromDoc, fromKids, found, fromVms, kids, vms, fromVm, secret, curve, toKeys, senderKey, tr', rfl, a1, a2, a3, a4,
          a5, a6, a7, a8, a9, by rw [keysOf_replaced]; exact a10, a11, by rw [secretAs_replaced]; exact a12, ?_⟩
        unfold authEncrypt at a13 ⊢
        rw [runs_bind_ok] at a13 ⊢
        obtain ⟨auth, u1, u2, rfl, b1, b2⟩ := a13
        refine ⟨auth, u1, u2, rfl, ?_, ?_⟩
        · obtain ⟨r1, r2, r3, cek', epk', epkJwk, ct, tag', rs, rfl, c1, c2, c3, c4, c5, c6⟩ := jweEncrypt_ok.1 b1
          refine jweEncrypt_ok.2 ⟨r1, r2, r3, cek', epk', epkJwk, ct, tag', rs, rfl, c1, c2, c3, c4, ?_, c6⟩
          refine Eq.trans (wrapAll_other _ fun x hx he hk => hno ?_) c5
          subst he
          obtain ⟨rfl, e1, -, rfl, rfl⟩ := hsep.sender _ _ _ _ _ _ _ _ _ _ _ _ _ _ _ _ _ hk hd
          refine ⟨m, inner, _, _, ct, secret, senderKey, ⟨rfl, by simp, ?_⟩, inner_packs h1, c4, ?_, ?_, e1⟩
          · rcases h4 with ⟨-, -, rfl⟩ | ⟨_, -, rfl⟩ <;> rfl
          · simp
          · exact secret_as_ok a12
        · split at b2
          · rename_i hb
            rw [if_pos hb, encrypt_same hm]; exact b2
          · rename_i hb
            rw [if_neg hb]; exact b2
    · rw [wrapIfNeeded_same hm rfl]; exact h3

end DIDComm
