import Verif.Proofs.Inv

/-! # What a successful unpacking step tells -/

set_option autoImplicit false

namespace DIDComm

variable {C : Crypto}

theorem recognise_ok_some {α : Type} {x : Res α} {a : α} : recognise x = .ok (some a) ↔ x = .ok a := by
  unfold recognise; split <;> simp

theorem recognise_ok_none {α : Type} {x : Res α} : recognise x = .ok none ↔ x = .error (.kind .malformed) := by
  unfold recognise; split <;> simp_all

theorem find?_eq_self {l : List Str} {k x : Str} : l.find? (fun a => a == k) = some x ↔ x = k ∧ k ∈ l := by
  constructor
  · intro h
    have h1 := List.find?_some h
    have h2 := List.mem_of_find?_eq_some h
    simp at h1; subst h1; exact ⟨rfl, h2⟩
  · rintro ⟨rfl, h⟩
    cases hf : l.find? (fun a => a == x) with
    | none => exact absurd (List.find?_eq_none.1 hf _ h) (by simp)
    | some k => have := List.find?_some hf; simp at this; rw [this]

/-- The metadata after an anoncrypt layer. -/
def UnpackMetadata.anon (md : UnpackMetadata) (kids : List Str) (alg : AnonCryptAlg) : UnpackMetadata :=
  { md with encryptedToKids := some kids, encrypted := true, anonymousSender := true, encAlgAnon := some alg }

/-- The metadata after an authcrypt layer. -/
def UnpackMetadata.auth (md : UnpackMetadata) (kids : List Str) (fromKid : Str) (alg : AuthCryptAlg) :
    UnpackMetadata :=
  { md with
    encryptedToKids := some (md.encryptedToKids.getD kids)
    authenticated := true
    encrypted := true
    encryptedFromKid := some fromKid
    encAlgAuth := some alg }

/-- The metadata after a signature layer. -/
def UnpackMetadata.sign (md : UnpackMetadata) (kid : Str) (alg : Option SignAlg) (msg : Str) : UnpackMetadata :=
  { md with
    signAlg := alg
    authenticated := true
    nonRepudiation := true
    signFrom := some kid
    signedMessage := some msg }

theorem verifyDidcomm_eq {p q : ParsedJWE} (h : p.verifyDidcomm C = .ok q) : q = p := by
  simp only [ParsedJWE.verifyDidcomm] at h
  repeat' split at h
  all_goals first | cases h; rfl | exact absurd h (by simp [fail])

theorem tryUnpackAnoncrypt_ok {msg : Str} {opts : UnpackOptions} {md md' : UnpackMetadata} {tr : List Event}
    {o : Option Str} :
    Runs (tryUnpackAnoncrypt C msg opts md) tr (.ok (o, md')) ↔
      (o = none ∧ md' = md ∧ tr = [] ∧ (jweFromStr msg = .error (.kind .malformed) ∨
        ∃ jwe p, jweFromStr msg = .ok jwe ∧ jwe.parse C = .ok p ∧ p.protected_.alg ≠ .ecdhEs)) ∨
      (∃ jwe p found tr' alg payload, o = some payload ∧ jweFromStr msg = .ok jwe ∧ jwe.parse C = .ok p ∧
        p.protected_.alg = .ecdhEs ∧ p.verifyDidcomm C = .ok p ∧
        checkRecipients (p.jwe.recipients.map JweRecipient.kid) = .ok () ∧
        tr = evFind (p.jwe.recipients.map JweRecipient.kid) found :: tr' ∧ found ≠ [] ∧
        Runs (decryptLoop C opts.expectDecryptByAllKeys (anonDecryptWith C p) found none) tr'
          (.ok (some (alg, payload))) ∧ validUtf8 payload = true ∧
        md' = md.anon (p.jwe.recipients.map JweRecipient.kid) alg) := by
  unfold tryUnpackAnoncrypt
  simp only [runs_lift_bind_ok]
  constructor
  · rintro ⟨j, h1, h⟩
    cases j with
    | none =>
      obtain ⟨rfl, h⟩ := runs_pure.1 h
      cases h
      exact .inl ⟨rfl, rfl, rfl, .inl (recognise_ok_none.1 h1)⟩
    | some jwe =>
      rw [recognise_ok_some] at h1
      simp only [runs_lift_bind_ok] at h
      obtain ⟨p, h2, h⟩ := h
      split at h
      · rename_i ha
        obtain ⟨rfl, h⟩ := runs_pure.1 h
        cases h
        exact .inl ⟨rfl, rfl, rfl, .inr ⟨jwe, p, h1, h2, ha⟩⟩
      · rename_i ha
        simp only [runs_ok] at h
        obtain ⟨q, h3, _, h4, found, t, rfl, h⟩ := h
        cases verifyDidcomm_eq h3
        split at h
        · exact absurd h not_ok_fail
        rename_i hf
        simp only [runs_ok] at h
        obtain ⟨r, t1, t2, rfl, h5, alg, payload, rfl, h⟩ := h
        split at h
        · exact absurd h not_ok_fail
        rename_i hu
        obtain ⟨rfl, h⟩ := runs_pure.1 h
        cases h
        exact .inr ⟨jwe, p, found, t1, alg, payload, rfl, h1, h2, by simpa using ha, h3, h4, by simp,
          by simpa using hf, h5, by simpa using hu, rfl⟩
  · rintro (⟨rfl, rfl, rfl, h | ⟨jwe, p, h1, h2, ha⟩⟩ | ⟨jwe, p, found, t, alg, payload, rfl, h1, h2, ha, h3, h4, rfl, hf, h5, hu, rfl⟩)
    · exact ⟨none, recognise_ok_none.2 h, runs_pure.2 ⟨rfl, rfl⟩⟩
    · refine ⟨some jwe, recognise_ok_some.2 h1, ?_⟩
      simp only [runs_lift_bind_ok]
      refine ⟨p, h2, ?_⟩
      rw [if_pos ha]
      exact runs_pure.2 ⟨rfl, rfl⟩
    · refine ⟨some jwe, recognise_ok_some.2 h1, ?_⟩
      simp only [runs_lift_bind_ok]
      refine ⟨p, h2, ?_⟩
      rw [if_neg (by simpa using ha)]
      simp only [runs_ok]
      refine ⟨p, h3, _, h4, found, _, rfl, ?_⟩
      rw [if_neg (by simpa using hf)]
      simp only [runs_ok]
      refine ⟨_, t, [], by simp, h5, alg, payload, rfl, ?_⟩
      rw [if_neg (by simp [hu])]
      exact runs_pure.2 ⟨rfl, rfl⟩

theorem ok_resolve_withKind_bind {β : Type} {k : ErrorKind} {d : Str} {f : Option DIDDoc → Prog β} {tr : List Event} {b : β} :
    Runs ((resolve d).withKind k >>= f) tr (.ok b) ↔
      ∃ x tr', tr = evResolve d x :: tr' ∧ Runs (f x) tr' (.ok b) := by
  rw [runs_bind_ok]
  constructor
  · rintro ⟨a, t1, t2, rfl, h, h2⟩
    obtain ⟨r, h, h'⟩ := runs_withKind.1 h
    rw [eq_comm, withKind_eq_ok] at h'
    subst h'
    rcases runs_resolve.1 h with ⟨x, rfl, hx⟩ | ⟨k, rfl, hx⟩
    · exact ⟨x, t2, rfl, Except.ok.inj hx ▸ h2⟩
    · cases hx
  · rintro ⟨x, t, rfl, h⟩
    exact ⟨x, [_], t, rfl, runs_withKind.2 ⟨.ok x, runs_resolve.2 (.inl ⟨x, rfl, rfl⟩), rfl⟩, h⟩

attribute [runs_ok] ok_resolve_withKind_bind

theorem tryUnpackAuthcrypt_ok {msg : Str} {opts : UnpackOptions} {md md' : UnpackMetadata} {tr : List Event}
    {o : Option Str} :
    Runs (tryUnpackAuthcrypt C msg opts md) tr (.ok (o, md')) ↔
      (o = none ∧ md' = md ∧ tr = [] ∧ (jweFromStr msg = .error (.kind .malformed) ∨
        ∃ jwe p, jweFromStr msg = .ok jwe ∧ jwe.parse C = .ok p ∧ p.protected_.alg ≠ .ecdh1pu)) ∨
      (∃ jwe p fromKid doc vm fromKey found tr' alg payload,
        o = some payload ∧ jweFromStr msg = .ok jwe ∧ jwe.parse C = .ok p ∧
        p.protected_.alg = .ecdh1pu ∧ p.verifyDidcomm C = .ok p ∧
        p.apu = some fromKid ∧ validUtf8 fromKid = true ∧ (didOrUrl fromKid).2.isSome ∧
        fromKid ∈ doc.keyAgreement ∧
        doc.verificationMethod.find? (fun vm => vm.id == fromKid) = some vm ∧ vm.asKeyPair C = .ok fromKey ∧
        checkRecipients (p.jwe.recipients.map JweRecipient.kid) = .ok () ∧
        tr = evResolve (didOrUrl fromKid).1 (some doc) ::
          evFind (p.jwe.recipients.map JweRecipient.kid) found :: tr' ∧ found ≠ [] ∧
        Runs (decryptLoop C opts.expectDecryptByAllKeys (authDecryptWith C p fromKid fromKey) found none) tr'
          (.ok (some (alg, payload))) ∧ validUtf8 payload = true ∧
        md' = md.auth (p.jwe.recipients.map JweRecipient.kid) fromKid alg) := by
  unfold tryUnpackAuthcrypt
  simp only [runs_lift_bind_ok]
  constructor
  · rintro ⟨j, h1, h⟩
    cases j with
    | none =>
      obtain ⟨rfl, h⟩ := runs_pure.1 h
      cases h
      exact .inl ⟨rfl, rfl, rfl, .inl (recognise_ok_none.1 h1)⟩
    | some jwe =>
      rw [recognise_ok_some] at h1
      simp only [runs_lift_bind_ok] at h
      obtain ⟨p, h2, h⟩ := h
      split at h
      · rename_i ha
        obtain ⟨rfl, h⟩ := runs_pure.1 h
        cases h
        exact .inl ⟨rfl, rfl, rfl, .inr ⟨jwe, p, h1, h2, ha⟩⟩
      · rename_i ha
        simp only [runs_ok] at h
        obtain ⟨q, h3, fromKid, hapu, h⟩ := h
        cases verifyDidcomm_eq h3
        split at h
        · exact absurd h not_ok_fail
        rename_i hu1
        split at h
        · exact absurd h not_ok_fail
        rename_i hfr
        simp only [runs_ok, find?_eq_self] at h
        obtain ⟨_, t, rfl, doc, rfl, k, ⟨rfl, hka⟩, vm, hvm, fromKey, hfk, _, h4, found, t, rfl, h⟩ := h
        split at h
        · exact absurd h not_ok_fail
        rename_i hf
        simp only [runs_ok] at h
        obtain ⟨r, t1, t2, rfl, h5, alg, payload, rfl, h⟩ := h
        split at h
        · exact absurd h not_ok_fail
        rename_i hu
        obtain ⟨rfl, h⟩ := runs_pure.1 h
        cases h
        refine .inr ⟨jwe, p, k, doc, vm, fromKey, found, t1, alg, payload, rfl, h1, h2, by simpa using ha, h3, hapu,
          by simpa using hu1, ?_, hka, hvm, hfk, h4, by simp, by simpa using hf, h5, by simpa using hu, ?_⟩
        · cases hh : (didOrUrl k).2 <;> simp_all
        · unfold UnpackMetadata.auth; cases md.encryptedToKids <;> rfl
  · rintro (⟨rfl, rfl, rfl, h | ⟨jwe, p, h1, h2, ha⟩⟩ | ⟨jwe, p, k, doc, vm, fromKey, found, t, alg, payload, rfl, h1, h2, ha, h3, hapu, hu1, hfr, hka, hvm, hfk, h4, rfl, hf, h5, hu, rfl⟩)
    · exact ⟨none, recognise_ok_none.2 h, runs_pure.2 ⟨rfl, rfl⟩⟩
    · refine ⟨some jwe, recognise_ok_some.2 h1, ?_⟩
      simp only [runs_lift_bind_ok]
      refine ⟨p, h2, ?_⟩
      rw [if_pos ha]
      exact runs_pure.2 ⟨rfl, rfl⟩
    · refine ⟨some jwe, recognise_ok_some.2 h1, ?_⟩
      simp only [runs_lift_bind_ok]
      refine ⟨p, h2, ?_⟩
      rw [if_neg (by simpa using ha)]
      simp only [runs_ok]
      refine ⟨p, h3, k, hapu, ?_⟩
      rw [if_neg (by simp [hu1]), if_neg (by cases hh : (didOrUrl k).2 <;> simp_all)]
      simp only [runs_ok, find?_eq_self]
      refine ⟨_, _, rfl, doc, rfl, k, ⟨rfl, hka⟩, vm, hvm, fromKey, hfk, (), h4, found, _, rfl, ?_⟩
      rw [if_neg (by simpa using hf)]
      simp only [runs_ok]
      refine ⟨_, t, [], by simp, h5, alg, payload, rfl, ?_⟩
      rw [if_neg (by simp [hu])]
      refine runs_pure.2 ⟨rfl, ?_⟩
      unfold UnpackMetadata.auth; cases md.encryptedToKids <;> rfl

theorem tryUnpackSign_ok {msg : Str} {md md' : UnpackMetadata} {tr : List Event} {o : Option Str} :
    Runs (tryUnpackSign C msg md) tr (.ok (o, md')) ↔
      (o = none ∧ md' = md ∧ tr = [] ∧ jwsFromStr msg = .error (.kind .malformed)) ∨
      (∃ (p : ParsedJWS) (sig : JwsSig) (hdr : JwsHeader) (doc : DIDDoc) (vm : VerificationMethod) (curve : Curve)
          (key : C.Key) (payload : Bytes),
        o = some payload ∧ jwsFromStr msg = .ok p.jws ∧ p.jws.parse = .ok p ∧
        p.protected_ = [hdr] ∧ p.jws.signatures.head? = some sig ∧ (didOrUrl sig.kid).2.isSome ∧
        tr = [evResolve (didOrUrl sig.kid).1 (some doc)] ∧
        sig.kid ∈ doc.authentication ∧ doc.verificationMethod.find? (fun vm => vm.id == sig.kid) = some vm ∧
        curveFor hdr.alg = .ok curve ∧ vm.as C curve = .ok key ∧ p.verify C sig.kid curve key = .ok true ∧
        B64.decode p.jws.payload = some payload ∧ validUtf8 payload = true ∧
        md' = md.sign sig.kid (signAlgOf hdr.alg) msg) := by
  have parse_jws : ∀ {j : JWS} {p : ParsedJWS}, j.parse = .ok p → p.jws = j := by
    intro j p h
    simp only [JWS.parse, res_bind_ok] at h
    obtain ⟨a, _, h⟩ := h
    cases h; rfl
  unfold tryUnpackSign
  simp only [runs_lift_bind_ok]
  constructor
  · rintro ⟨j, h1, h⟩
    cases j with
    | none =>
      obtain ⟨rfl, h⟩ := runs_pure.1 h
      cases h
      exact .inl ⟨rfl, rfl, rfl, recognise_ok_none.1 h1⟩
    | some jws =>
      rw [recognise_ok_some] at h1
      simp only [runs_lift_bind_ok] at h
      obtain ⟨p, h2, h⟩ := h
      cases parse_jws h2
      split at h
      · exact absurd h not_ok_fail
      rename_i hl
      simp only [runs_ok] at h
      obtain ⟨hdr, hh, sig, hs, h⟩ := h
      split at h
      · exact absurd h not_ok_fail
      rename_i hk
      simp only [runs_ok, find?_eq_self] at h
      obtain ⟨_, t, rfl, doc, rfl, kid, ⟨rfl, h3⟩, vm, h4, curve, h5, key, h6, valid, h7, h⟩ := h
      split at h
      · exact absurd h not_ok_fail
      rename_i hv
      simp only [runs_ok] at h
      obtain ⟨payload, h8, h⟩ := h
      split at h
      · exact absurd h not_ok_fail
      rename_i hu
      obtain ⟨rfl, h⟩ := runs_pure.1 h
      cases h
      refine .inr ⟨p, sig, hdr, doc, vm, curve, key, payload, rfl, h1, h2, ?_, hs, ?_, rfl, h3, h4, h5, h6,
        by simpa [hv] using h7, h8, by simpa using hu, rfl⟩
      · have hl : p.protected_.length = 1 := by simpa using hl
        match hp : p.protected_, hl with
        | [a], _ => simpa [hp] using hh
      · cases hh : (didOrUrl sig.kid).2 <;> simp_all
  · rintro (⟨rfl, rfl, rfl, h⟩ | ⟨p, sig, hdr, doc, vm, curve, key, payload, rfl, h1, h2, hp, hs, hk, rfl, h3, h4, h5, h6, h7, h8, hu, rfl⟩)
    · exact ⟨none, recognise_ok_none.2 h, runs_pure.2 ⟨rfl, rfl⟩⟩
    · refine ⟨some p.jws, recognise_ok_some.2 h1, ?_⟩
      simp only [runs_lift_bind_ok]
      refine ⟨p, h2, ?_⟩
      rw [if_neg (by simp [hp])]
      simp only [runs_ok]
      refine ⟨hdr, by simp [hp], sig, hs, ?_⟩
      rw [if_neg (by cases hh : (didOrUrl sig.kid).2 <;> simp_all)]
      simp only [runs_ok, find?_eq_self]
      refine ⟨_, _, rfl, doc, rfl, sig.kid, ⟨rfl, h3⟩, vm, h4, curve, h5, key, h6, true, h7, ?_⟩
      rw [if_neg (by simp)]
      simp only [runs_ok]
      refine ⟨payload, h8, ?_⟩
      rw [if_neg (by simp [hu])]
      exact runs_pure.2 ⟨rfl, rfl⟩

theorem tryUnpackPlaintext_ok {msg : Str} {md md' : UnpackMetadata} {tr : List Event} {o : Option Message} :
    Runs (tryUnpackPlaintext C msg md) tr (.ok (o, md')) ↔
      (o = none ∧ md' = md ∧ tr = [] ∧ messageFromStr C msg = .error (.kind .malformed)) ∨
      (∃ m, o = some m ∧ messageFromStr C msg = .ok m ∧ m.typ = plaintextTyp ∧
        ((m.fromPrior = none ∧ tr = [] ∧ md' = md) ∨
         (∃ jwt fp kid, m.fromPrior = some jwt ∧ Runs (FromPrior.unpack C jwt) tr (.ok (fp, kid)) ∧
          md' = { md with fromPrior := some fp, fromPriorIssuerKid := some kid }))) := by
  have hval : ∀ {m m' : Message}, m.validate = .ok m' ↔ m' = m ∧ m.typ = plaintextTyp := by
    intro m m'
    unfold Message.validate fail
    split <;> simp_all [eq_comm]
  unfold tryUnpackPlaintext
  simp only [runs_lift_bind_ok]
  constructor
  · rintro ⟨j, h1, h⟩
    cases j with
    | none =>
      obtain ⟨rfl, h⟩ := runs_pure.1 h
      cases h
      exact .inl ⟨rfl, rfl, rfl, recognise_ok_none.1 h1⟩
    | some m =>
      rw [recognise_ok_some] at h1
      simp only [runs_lift_bind_ok, hval] at h
      obtain ⟨m', ⟨rfl, ht⟩, h⟩ := h
      right
      cases hfp : m'.fromPrior with
      | none =>
        rw [hfp] at h
        obtain ⟨rfl, h⟩ := runs_pure.1 h
        cases h
        exact ⟨m', rfl, h1, ht, .inl ⟨hfp, rfl, rfl⟩⟩
      | some jwt =>
        rw [hfp] at h
        simp only [runs_bind_ok, Prod.exists] at h
        obtain ⟨fp, kid, t1, t2, rfl, h2, h⟩ := h
        obtain ⟨rfl, h⟩ := runs_pure.1 h
        cases h
        exact ⟨m', rfl, h1, ht, .inr ⟨jwt, fp, kid, hfp, by simpa using h2, rfl⟩⟩
  · rintro (⟨rfl, rfl, rfl, h⟩ | ⟨m, rfl, h1, ht, h⟩)
    · exact ⟨none, recognise_ok_none.2 h, runs_pure.2 ⟨rfl, rfl⟩⟩
    · refine ⟨some m, recognise_ok_some.2 h1, ?_⟩
      simp only [runs_lift_bind_ok, hval]
      refine ⟨m, ⟨rfl, ht⟩, ?_⟩
      rcases h with ⟨hf, rfl, rfl⟩ | ⟨jwt, fp, kid, hf, h2, rfl⟩
      · rw [hf]; exact runs_pure.2 ⟨rfl, rfl⟩
      · rw [hf]
        simp only [runs_bind_ok, Prod.exists]
        exact ⟨fp, kid, tr, [], by simp, h2, runs_pure.2 ⟨rfl, rfl⟩⟩

theorem tryUnwrapForwarded_ok {msg : Str} {tr : List Event} {o : Option Str} :
    Runs (tryUnwrapForwarded C msg) tr (.ok o) ↔
      (o = none ∧ tr = [] ∧ messageFromStr C msg = .error (.kind .malformed)) ∨
      (∃ m, o = none ∧ tr = [] ∧ messageFromStr C msg = .ok m ∧ tryParseForward m = none) ∨
      (∃ m f has, messageFromStr C msg = .ok m ∧ tryParseForward m = some f ∧
        Runs (hasKeyAgreementSecret f.next) tr (.ok has) ∧ o = if has then some f.forwardedMsg.print else none) := by
  unfold tryUnwrapForwarded
  simp only [runs_lift_bind_ok]
  constructor
  · rintro ⟨j, h1, h⟩
    cases j with
    | none =>
      obtain ⟨rfl, h⟩ := runs_pure.1 h
      cases h
      exact .inl ⟨rfl, rfl, recognise_ok_none.1 h1⟩
    | some m =>
      rw [recognise_ok_some] at h1
      cases hf : tryParseForward m with
      | none =>
        simp only [hf] at h
        obtain ⟨rfl, h⟩ := runs_pure.1 h
        cases h
        exact .inr (.inl ⟨m, rfl, rfl, h1, hf⟩)
      | some f =>
        simp only [hf, runs_bind_ok] at h
        obtain ⟨has, t1, t2, rfl, h2, h⟩ := h
        refine .inr (.inr ⟨m, f, has, h1, hf, ?_, ?_⟩) <;> cases has <;> obtain ⟨rfl, h⟩ := runs_pure.1 h <;>
          first | simpa using h2 | simpa using h
  · rintro (⟨rfl, rfl, h⟩ | ⟨m, rfl, rfl, h1, h2⟩ | ⟨m, f, has, h1, hf, h2, rfl⟩)
    · exact ⟨none, recognise_ok_none.2 h, runs_pure.2 ⟨rfl, rfl⟩⟩
    · refine ⟨some m, recognise_ok_some.2 h1, ?_⟩
      simp only [h2]
      exact runs_pure.2 ⟨rfl, rfl⟩
    · refine ⟨some m, recognise_ok_some.2 h1, ?_⟩
      simp only [hf, runs_bind_ok]
      refine ⟨has, tr, [], by simp, h2, ?_⟩
      cases has <;> exact runs_pure.2 ⟨rfl, rfl⟩

theorem unpack_ok {msg : Str} {opts : UnpackOptions} {tr : List Event} {m : Message} {md : UnpackMetadata} :
    Runs (unpack C msg opts) tr (.ok (m, md)) ↔
      ∃ t1 t2 t3 t4 msg1 md1 auth md2 signed md3,
        tr = t1 ++ t2 ++ t3 ++ t4 ∧
        Runs (unwrapLoop C opts (msg.length + 1) msg {}) t1 (.ok (msg1, md1)) ∧
        Runs (tryUnpackAuthcrypt C msg1 opts md1) t2 (.ok (auth, md2)) ∧
        Runs (tryUnpackSign C (auth.getD msg1) md2) t3 (.ok (signed, md3)) ∧
        Runs (tryUnpackPlaintext C (signed.getD (auth.getD msg1)) md3) t4 (.ok (some m, md)) := by
  unfold unpack
  simp only [runs_ok]
  constructor
  · rintro ⟨msg1, md1, t1, _, rfl, h1, auth, md2, t2, _, rfl, h2, signed, md3, t3, _, rfl, h3, m', md', t4, _, rfl,
      h4, _, rfl, rfl, rfl, rfl⟩
    exact ⟨t1, t2, t3, t4, msg1, md1, auth, md2, signed, md3, by simp, h1, h2, h3, h4⟩
  · rintro ⟨t1, t2, t3, t4, msg1, md1, auth, md2, signed, md3, rfl, h1, h2, h3, h4⟩
    exact ⟨msg1, md1, t1, t2 ++ t3 ++ t4, by simp, h1, auth, md2, t2, t3 ++ t4, by simp, h2, signed, md3, t3, t4, rfl,
      h3, some m, md, t4, [], by simp, h4, m, rfl, rfl, by simp⟩

end DIDComm
