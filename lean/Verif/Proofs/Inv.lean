import Verif.Model.Unpack
import Verif.Proofs.Gives

/-! # What a successful run tells -/

set_option autoImplicit false

namespace DIDComm

variable {C : Crypto}

theorem jweEncrypt_ok {ce : ContentEnc} {kdf : Kdf} {curve : Curve} {pt : Bytes} {alg : JweAlg} {enc : EncAlg}
    {sender : Option (Str × C.Key)} {rcps : List (Str × C.Key)} {tr : List Event} {out : Str} :
    Runs (jweEncrypt C ce kdf curve pt alg enc sender rcps) tr (.ok out) ↔
      ∃ r1 r2 r3 cek epk epkJwk ct tag rs,
        tr = [evRandom r1, evRandom r2, evRandom r3] ∧
        C.genCek ce r1 = some cek ∧ C.genKey curve r2 = some epk ∧ C.toJwkPublic curve epk = some epkJwk ∧
        C.aeadEnc ce cek (C.genNonce ce r3)
          (jweProtected C alg enc (sender.map Prod.fst) (rcps.map Prod.fst) epkJwk) pt = some (ct, tag) ∧
        wrapAll C kdf curve epk (sender.map Prod.snd) alg.asStr ((sender.map Prod.fst).getD [])
          (apvOf C (rcps.map Prod.fst)) tag cek rcps = .ok rs ∧
        out = (JWE.toJson ⟨jweProtected C alg enc (sender.map Prod.fst) (rcps.map Prod.fst) epkJwk, rs,
          B64.encode (C.genNonce ce r3), B64.encode ct, B64.encode tag⟩).print := by
  unfold jweEncrypt
  simp only [runs_ok]
  constructor
  · rintro ⟨r1, _, rfl, cek, h1, r2, _, rfl, epk, h2, j, h3, r3, _, rfl, ct, tag, h4, rs, h5, rfl, h6⟩
    exact ⟨r1, r2, r3, cek, epk, j, ct, tag, rs, rfl, h1, h2, h3, h4, h5, h6.symm⟩
  · rintro ⟨r1, r2, r3, cek, epk, j, ct, tag, rs, rfl, h1, h2, h3, h4, h5, rfl⟩
    exact ⟨r1, _, rfl, cek, h1, r2, _, rfl, epk, h2, j, h3, r3, _, rfl, ct, tag, h4, rs, h5, rfl, rfl⟩

theorem packPlaintext_ok {m : Message} {tr : List Event} {out : Str} :
    Runs (packPlaintext C m) tr (.ok out) ↔
      ∃ fp, Runs (unpackFromPrior C m.fromPrior) tr (.ok fp) ∧ m.validatePackPlaintext fp = .ok () ∧
        out = m.toJson.print := by
  unfold packPlaintext
  simp only [runs_ok]
  constructor
  · rintro ⟨fp, t1, t2, rfl, h1, u, h2, rfl, h3⟩
    exact ⟨fp, by simpa using h1, h2, h3.symm⟩
  · rintro ⟨fp, h1, h2, rfl⟩
    exact ⟨fp, tr, [], by simp, h1, (), h2, rfl, rfl⟩

theorem jwsSign_ok {payload : Bytes} {kid : Str} {curve : Curve} {key : C.Key} {alg : JwsAlg} {out : Str} :
    jwsSign C payload kid curve key alg = .ok out ↔
      ∃ st sig, alg.sigType = .ok st ∧
        C.sign curve key (dotJoin (jwsProtected alg) (B64.encode payload)) st = some sig ∧
        out = (JWS.toJson ⟨[⟨kid, jwsProtected alg, B64.encode sig⟩], B64.encode payload⟩).print := by
  unfold jwsSign
  simp only [res_bind_ok, okOr_eq_ok, Except.ok.injEq]
  constructor
  · rintro ⟨st, h1, sig, h2, h3⟩; exact ⟨st, sig, h1, h2, h3.symm⟩
  · rintro ⟨st, sig, h1, h2, h3⟩; exact ⟨st, h1, sig, h2, h3.symm⟩

theorem jwsSignCompact_ok {payload : Bytes} {kid : Str} {curve : Curve} {key : C.Key} {typ : Str} {alg : JwsAlg}
    {out : Str} :
    jwsSignCompact C payload kid curve key typ alg = .ok out ↔
      ∃ st sig, alg.sigType = .ok st ∧
        C.sign curve key (dotJoin (B64.encode (CompactHeader.toJson ⟨typ, alg, kid⟩).print) (B64.encode payload)) st
          = some sig ∧
        out = dotJoin (dotJoin (B64.encode (CompactHeader.toJson ⟨typ, alg, kid⟩).print) (B64.encode payload))
          (B64.encode sig) := by
  unfold jwsSignCompact
  simp only [res_bind_ok, okOr_eq_ok, Except.ok.injEq]
  constructor
  · rintro ⟨st, h1, sig, h2, h3⟩; exact ⟨st, sig, h1, h2, h3.symm⟩
  · rintro ⟨st, sig, h1, h2, h3⟩; exact ⟨st, h1, sig, h2, h3.symm⟩

theorem packSigned_ok {m : Message} {signBy : Str} {tr : List Event} {out kid : Str} :
    Runs (packSigned C m signBy) tr (.ok (out, kid)) ↔
      ∃ doc kids found secret pair tr' payload alg,
        isDid signBy = true ∧
        tr = evResolve (didOrUrl signBy).1 (some doc) :: evFind kids found :: evGet kid (some secret) :: tr' ∧
        signKids signBy doc = .ok kids ∧ found.head? = some kid ∧ secret.asKeyPair C = .ok pair ∧
        Runs (packPlaintext C m) tr' (.ok payload) ∧ signAlgFor pair.curve = .ok alg ∧
        jwsSign C payload kid pair.curve pair.key alg = .ok out := by
  unfold packSigned
  split
  · rename_i h
    constructor
    · intro h'; exact absurd h' not_ok_fail
    · rintro ⟨_, _, _, _, _, _, _, _, h', _⟩; simp [h] at h'
  · rename_i h
    simp only [runs_ok]
    constructor
    · rintro ⟨_, _, rfl, doc, rfl, kids, h1, found, _, rfl, kid', h2, _, _, rfl, secret, rfl, pair, h3, payload,
        t1, _, rfl, h4, alg, h5, msg, h6, rfl, rfl, rfl⟩
      exact ⟨doc, kids, found, secret, pair, t1, payload, alg, by simpa using h, by simp, h1, h2, h3, h4, h5, h6⟩
    · rintro ⟨doc, kids, found, secret, pair, t1, payload, alg, h', rfl, h1, h2, h3, h4, h5, h6⟩
      exact ⟨_, _, rfl, doc, rfl, kids, h1, found, _, rfl, kid, h2, _, _, rfl, secret, rfl, pair, h3, payload,
        t1, [], by simp, h4, alg, h5, out, h6, rfl, rfl, rfl⟩

theorem anoncrypt_ok {to : Str} {msg : Bytes} {alg : AnonCryptAlg} {tr : List Event} {out : Str} {toKids : List Str} :
    Runs (anoncrypt C to msg alg) tr (.ok (out, toKids)) ↔
      ∃ doc kids vms curve toKeys tr',
        tr = evResolve (didOrUrl to).1 (some doc) :: tr' ∧
        agreementKids (didOrUrl to).2 doc = .ok kids ∧ methodsOf .unsupported doc kids = .ok vms ∧
        vms.findSome? VerificationMethod.keyAlg = some curve ∧ (curve = .x25519 ∨ curve = .p256) ∧
        keysOf C curve (vms.filter (fun vm => decide (vm.keyAlg = some curve))) = .ok toKeys ∧
        toKids = (vms.filter (fun vm => decide (vm.keyAlg = some curve))).map VerificationMethod.id ∧
        Runs (jweEncrypt C alg.ce .ecdhEs curve msg .ecdhEs alg.enc none toKeys) tr' (.ok out) := by
  unfold anoncrypt
  simp only [runs_ok]
  constructor
  · rintro ⟨_, _, rfl, doc, rfl, kids, h1, vms, h2, curve, h3, h⟩
    split at h
    · rename_i hc
      simp only [runs_ok] at h
      obtain ⟨toKeys, h4, out', t1, t2, rfl, h5, rfl, rfl, rfl⟩ := h
      exact ⟨doc, kids, vms, curve, toKeys, t1, by simp, h1, h2, h3, hc, h4, rfl, h5⟩
    · exact absurd h not_ok_fail
  · rintro ⟨doc, kids, vms, curve, toKeys, t1, rfl, h1, h2, h3, hc, h4, rfl, h5⟩
    refine ⟨_, _, rfl, doc, rfl, kids, h1, vms, h2, curve, h3, ?_⟩
    rw [if_pos hc]
    simp only [runs_ok]
    exact ⟨toKeys, h4, out, t1, [], by simp, h5, rfl, rfl, trivial⟩

/-- The encryption steps of `authcrypt`. -/
def authEncrypt (C : Crypto) (curve : Curve) (msg : Bytes) (fromKid : Str) (senderKey : C.Key)
    (toKeys : List (Str × C.Key)) (encAnon : AnonCryptAlg) (protectSender : Bool) : Prog Str := do
  let out ← jweEncrypt C .a256cbcHs512 .ecdh1pu curve msg .ecdh1pu .a256cbcHs512 (some (fromKid, senderKey)) toKeys
  if protectSender then jweEncrypt C encAnon.ce .ecdhEs curve out .ecdhEs encAnon.enc none toKeys
  else pure out

theorem authcrypt_ok {to from_ : Str} {msg : Bytes} {encAuth : AuthCryptAlg} {encAnon : AnonCryptAlg} {ps : Bool}
    {tr : List Event} {out fromKid : Str} {toKids : List Str} :
    Runs (authcrypt C to from_ msg encAuth encAnon ps) tr (.ok (out, fromKid, toKids)) ↔
      ∃ toDoc fromDoc fromKids found fromVms kids vms fromVm secret curve toKeys senderKey tr',
        tr = evResolve (didOrUrl to).1 (some toDoc) :: evResolve (didOrUrl from_).1 (some fromDoc) ::
          evFind fromKids found :: evGet fromKid (some secret) :: tr' ∧
        agreementKids (didOrUrl from_).2 fromDoc = .ok fromKids ∧ found ≠ [] ∧
        methodsOf .malformed fromDoc found = .ok fromVms ∧
        agreementKids (didOrUrl to).2 toDoc = .ok kids ∧ methodsOf .malformed toDoc kids = .ok vms ∧
        chooseSender fromVms vms = .ok fromVm ∧ fromKid = fromVm.id ∧ fromVm.keyAlg = some curve ∧
        (curve = .x25519 ∨ curve = .p256) ∧
        keysOf C curve (vms.filter (fun vm => decide (vm.keyAlg = some curve))) = .ok toKeys ∧
        toKids = (vms.filter (fun vm => decide (vm.keyAlg = some curve))).map VerificationMethod.id ∧
        secret.as C curve = .ok senderKey ∧
        Runs (authEncrypt C curve msg fromKid senderKey toKeys encAnon ps) tr' (.ok out) := by
  unfold authcrypt
  simp only [runs_ok]
  constructor
  · rintro ⟨_, _, rfl, toDoc, rfl, _, _, rfl, fromDoc, rfl, fromKids, h1, found, t, rfl, h⟩
    split at h
    · exact absurd h not_ok_fail
    · rename_i hf
      simp only [runs_ok] at h
      obtain ⟨fromVms, h2, kids, h3, vms, h4, fromVm, h5, _, t, rfl, secret, rfl, h⟩ := h
      split at h
      · rename_i curve hk
        split at h
        · rename_i hc
          simp only [runs_ok] at h
          obtain ⟨toKeys, h6, sk, h7, out1, t1, t2, rfl, h8, h⟩ := h
          rw [hk] at h6
          refine ⟨toDoc, fromDoc, fromKids, found, fromVms, kids, vms, fromVm, secret, curve, toKeys, sk, t1 ++ t2, ?_⟩
          split at h
          · rename_i hp
            simp only [runs_ok] at h
            obtain ⟨out2, t3, t4, rfl, h9, rfl, rfl, rfl, rfl⟩ := h
            refine ⟨rfl, h1, by simpa using hf, h2, h3, h4, h5, rfl, hk, hc, h6, by rw [hk], h7, ?_⟩
            unfold authEncrypt
            rw [runs_bind_ok]
            exact ⟨out1, t1, t3, by simp, h8, by rw [if_pos hp]; exact h9⟩
          · rename_i hp
            simp only [runs_ok] at h
            obtain ⟨rfl, rfl, rfl, rfl⟩ := h
            refine ⟨rfl, h1, by simpa using hf, h2, h3, h4, h5, rfl, hk, hc, h6, by rw [hk], h7, ?_⟩
            unfold authEncrypt
            rw [runs_bind_ok]
            exact ⟨out1, t1, [], by simp, h8, by rw [if_neg hp]; exact runs_pure.2 ⟨rfl, rfl⟩⟩
        · exact absurd h not_ok_fail
      · exact absurd h not_ok_fail
  · rintro ⟨toDoc, fromDoc, fromKids, found, fromVms, kids, vms, fromVm, secret, curve, toKeys, sk, t, rfl, h1, hf,
      h2, h3, h4, h5, rfl, hk, hc, h6, rfl, h7, h8⟩
    refine ⟨_, _, rfl, toDoc, rfl, _, _, rfl, fromDoc, rfl, fromKids, h1, found, _, rfl, ?_⟩
    rw [if_neg (by simpa using hf)]
    simp only [runs_ok]
    refine ⟨fromVms, h2, kids, h3, vms, h4, fromVm, h5, _, _, rfl, secret, rfl, ?_⟩
    unfold authEncrypt at h8
    rw [hk]
    simp only [if_pos hc]
    simp only [runs_lift_bind_ok]
    refine ⟨toKeys, h6, sk, h7, ?_⟩
    rw [runs_bind_ok] at h8 ⊢
    obtain ⟨out1, t1, t2, rfl, h8, h9⟩ := h8
    refine ⟨out1, t1, t2, rfl, h8, ?_⟩
    split at h9
    · rename_i hp
      rw [if_pos hp]
      simp only [runs_ok]
      exact ⟨out, t2, [], by simp, h9, by simp⟩
    · rename_i hp
      rw [if_neg hp]
      obtain ⟨rfl, h⟩ := runs_pure.1 h9
      cases h
      exact ok_lift.2 ⟨rfl, rfl⟩

theorem packEncrypted_ok {m : Message} {to : Str} {from_ signBy : Option Str} {opts : PackEncryptedOptions}
    {tr : List Event} {out : Str} {md : PackEncryptedMetadata} :
    Runs (packEncrypted C m to from_ signBy opts) tr (.ok (out, md)) ↔
      ∃ t1 t2 t3 inner signKid env fk tk w,
        tr = t1 ++ t2 ++ t3 ∧ m.validatePackEncrypted to from_ signBy = .ok () ∧
        Runs (packInner C m signBy) t1 (.ok (inner, signKid)) ∧
        Runs (packCrypt C to from_ inner opts) t2 (.ok (env, fk, tk)) ∧
        Runs (wrapInForwardIfNeeded C env to opts) t3 (.ok w) ∧
        ((w = none ∧ out = env ∧ md = ⟨none, fk, signKid, tk⟩) ∨
          ∃ svc, w = some (out, svc) ∧ md = ⟨some svc, fk, signKid, tk⟩) := by
  unfold packEncrypted
  simp only [runs_ok]
  constructor
  · rintro ⟨_, h1, inner, sk, t1, _, rfl, h2, env, fk, tk, t2, _, rfl, h3, w, t3, t4, rfl, h4, h5⟩
    refine ⟨t1, t2, t3, inner, sk, env, fk, tk, w, ?_, h1, h2, h3, h4, ?_⟩
    · rcases w with _ | ⟨fwd, svc⟩ <;> simp [(runs_pure.1 h5).1]
    · rcases w with _ | ⟨fwd, svc⟩ <;> cases (runs_pure.1 h5).2 <;> simp
  · rintro ⟨t1, t2, t3, inner, sk, env, fk, tk, w, rfl, h1, h2, h3, h4, h5⟩
    refine ⟨(), h1, inner, sk, t1, t2 ++ t3, by simp, h2, env, fk, tk, t2, t3, rfl, h3, w, t3, [], by simp, h4, ?_⟩
    rcases h5 with ⟨rfl, rfl, rfl⟩ | ⟨svc, rfl, rfl⟩ <;> exact runs_pure.2 ⟨rfl, rfl⟩

theorem packInner_ok {m : Message} {signBy : Option Str} {tr : List Event} {out : Str} {kid : Option Str} :
    Runs (packInner C m signBy) tr (.ok (out, kid)) ↔
      (signBy = none ∧ kid = none ∧ Runs (packPlaintext C m) tr (.ok out)) ∨
      (∃ s k, signBy = some s ∧ kid = some k ∧ Runs (packSigned C m s) tr (.ok (out, k))) := by
  cases signBy with
  | none =>
    unfold packInner
    simp only [runs_ok]
    constructor
    · rintro ⟨_, t1, _, rfl, h, rfl, h'⟩; exact .inl ⟨trivial, by simp [h'], by simpa [h'] using h⟩
    · rintro (⟨_, rfl, h⟩ | ⟨_, _, h, _⟩)
      · exact ⟨out, tr, [], by simp, h, rfl, by simp⟩
      · cases h
  | some s =>
    unfold packInner
    simp only [runs_ok]
    constructor
    · rintro ⟨_, k, t1, _, rfl, h, rfl, h'⟩; exact .inr ⟨s, k, rfl, by simp [h'], by simpa [h'] using h⟩
    · rintro (⟨h, _⟩ | ⟨_, k, h, rfl, h'⟩)
      · cases h
      · cases h; exact ⟨out, k, tr, [], by simp, h', rfl, by simp⟩

theorem packCrypt_ok {to : Str} {from_ : Option Str} {msg : Str} {opts : PackEncryptedOptions}
    {tr : List Event} {out : Str} {fk : Option Str} {tk : List Str} :
    Runs (packCrypt C to from_ msg opts) tr (.ok (out, fk, tk)) ↔
      (from_ = none ∧ fk = none ∧ Runs (anoncrypt C to msg opts.encAlgAnon) tr (.ok (out, tk))) ∨
      (∃ f k, from_ = some f ∧ fk = some k ∧
        Runs (authcrypt C to f msg opts.encAlgAuth opts.encAlgAnon opts.protectSender) tr (.ok (out, k, tk))) := by
  cases from_ with
  | none =>
    unfold packCrypt
    simp only [runs_ok]
    constructor
    · rintro ⟨_, _, t1, _, rfl, h, rfl, h'⟩; exact .inl ⟨trivial, by simp [h'], by simpa [h'] using h⟩
    · rintro (⟨_, rfl, h⟩ | ⟨_, _, h, _⟩)
      · exact ⟨out, tk, tr, [], by simp, h, rfl, by simp⟩
      · cases h
  | some s =>
    unfold packCrypt
    simp only [runs_ok]
    constructor
    · rintro ⟨_, k, _, t1, _, rfl, h, rfl, h'⟩; exact .inr ⟨s, k, rfl, by simp [h'], by simpa [h'] using h⟩
    · rintro (⟨h, _⟩ | ⟨_, k, h, rfl, h'⟩)
      · cases h
      · cases h; exact ⟨out, k, tk, tr, [], by simp, h', rfl, by simp⟩

theorem FromPrior.pack_ok {f : FromPrior} {issuerKid : Option Str} {tr : List Event} {jwt kid : Str} :
    Runs (f.pack C issuerKid) tr (.ok (jwt, kid)) ↔
      ∃ doc kids found secret pair alg,
        f.validatePack issuerKid = .ok () ∧
        tr = [evResolve f.iss (some doc), evFind kids found, evGet kid (some secret)] ∧
        f.authKids issuerKid doc = .ok kids ∧ found.head? = some kid ∧ secret.asKeyPair C = .ok pair ∧
        signAlgFor pair.curve = .ok alg ∧
        jwsSignCompact C f.toJson.print kid pair.curve pair.key jwtTyp alg = .ok jwt := by
  unfold FromPrior.pack
  simp only [runs_ok]
  constructor
  · rintro ⟨_, h0, _, _, rfl, doc, rfl, kids, h1, found, _, rfl, kid', h2, _, _, rfl, secret, rfl, pair, h3,
      alg, h4, jwt', h5, rfl, rfl, rfl⟩
    exact ⟨doc, kids, found, secret, pair, alg, h0, rfl, h1, h2, h3, h4, h5⟩
  · rintro ⟨doc, kids, found, secret, pair, alg, h0, rfl, h1, h2, h3, h4, h5⟩
    exact ⟨_, h0, _, _, rfl, doc, rfl, kids, h1, found, _, rfl, kid, h2, _, _, rfl, secret, rfl, pair, h3,
      alg, h4, jwt, h5, rfl, rfl, rfl⟩

theorem FromPrior.unpack_ok {jwt : Str} {tr : List Event} {fp : FromPrior} {kid : Str} :
    Runs (FromPrior.unpack C jwt) tr (.ok (fp, kid)) ↔
      ∃ p doc vm curve key payload,
        parseCompact jwt = .ok p ∧ p.parsedHeader.typ = b!"JWT" ∧ (didOrUrl kid).2.isSome ∧
        p.parsedHeader.kid = kid ∧ tr = [evResolve (didOrUrl kid).1 (some doc)] ∧
        kid ∈ doc.authentication ∧ doc.verificationMethod.find? (fun vm => vm.id == kid) = some vm ∧
        curveFor p.parsedHeader.alg = .ok curve ∧ vm.as C curve = .ok key ∧ p.verify C curve key = .ok true ∧
        B64.decode p.payload = some payload ∧ validUtf8 payload = true ∧ fromJson dFromPrior payload = .ok fp := by
  unfold FromPrior.unpack
  simp only [runs_ok]
  constructor
  · rintro ⟨p, h1, h⟩
    split at h
    · exact absurd h not_ok_fail
    rename_i ht
    split at h
    · exact absurd h not_ok_fail
    rename_i hk
    simp only [runs_ok] at h
    obtain ⟨_, t, rfl, doc, rfl, kid', h2, vm, h3, curve, h4, key, h5, valid, h6, h⟩ := h
    split at h
    · exact absurd h not_ok_fail
    rename_i hv
    simp only [runs_ok] at h
    obtain ⟨payload, h7, h⟩ := h
    split at h
    · exact absurd h not_ok_fail
    rename_i hu
    simp only [runs_ok] at h
    obtain ⟨fp', h8, rfl, rfl, rfl⟩ := h
    have hkid : kid' = p.parsedHeader.kid := by simpa using List.find?_some h2
    subst hkid
    refine ⟨p, doc, vm, curve, key, payload, h1, by simpa using ht, ?_, rfl, rfl, List.mem_of_find?_eq_some h2, h3,
      h4, h5, by simpa [hv] using h6, h7, by simpa using hu, h8⟩
    cases hh : (didOrUrl p.parsedHeader.kid).2 <;> simp_all
  · rintro ⟨p, doc, vm, curve, key, payload, h1, ht, hk, rfl, rfl, h2, h3, h4, h5, h6, h7, hu, h8⟩
    refine ⟨p, h1, ?_⟩
    rw [if_neg (by simpa using ht), if_neg (by cases hh : (didOrUrl p.parsedHeader.kid).2 <;> simp_all)]
    simp only [runs_ok]
    have hf : doc.authentication.find? (fun k => k == p.parsedHeader.kid) = some p.parsedHeader.kid := by
      cases hf : doc.authentication.find? (fun k => k == p.parsedHeader.kid) with
      | none => exact absurd (List.find?_eq_none.1 hf _ h2) (by simp)
      | some k => have := List.find?_some hf; simp at this; rw [this]
    refine ⟨_, _, rfl, doc, rfl, _, hf, vm, h3, curve, h4, key, h5, true, h6, ?_⟩
    rw [if_neg (by simp)]
    simp only [runs_ok]
    refine ⟨payload, h7, ?_⟩
    rw [if_neg (by simp [hu])]
    simp only [runs_ok]
    exact ⟨fp, h8, trivial, by simp⟩

end DIDComm
