import Verif.Proofs.Utf8Spec
import Verif.Spec.Evidence
import Verif.Proofs.InvUnpack
import Verif.Proofs.Select
import Verif.Proofs.StrOrder
import Verif.Props.Routing

/-! # Evidence behind each layer -/

set_option autoImplicit false

namespace DIDComm

variable {C : Crypto}

theorem sha_joinedKids (kids : List Str) : C.sha256 (joinedKids kids) = apvOf C kids := by
  rw [joinedKids_eq]; rfl

theorem Within.trans {a b c : Str} (h1 : Within C a b) (h2 : Within C b c) : Within C a c := by
  induction h1 with
  | here => exact h2
  | anon h hu _ ih => exact .anon h hu (ih h2)
  | auth h hu _ ih => exact .auth h hu (ih h2)
  | signed h _ ih => exact .signed h (ih h2)
  | forward hm hf _ ih => exact .forward hm hf (ih h2)

theorem asKeyPair_keyAlg {vm : VerificationMethod} {k : KeyPair C} (h : vm.asKeyPair C = .ok k) :
    vm.keyAlg = some k.curve := by
  unfold VerificationMethod.asKeyPair pairFromJwk at h
  unfold VerificationMethod.keyAlg keyAlg
  split at h
  · split at h
    · rename_i c hc
      simp only [res_bind_ok, Except.ok.injEq] at h
      obtain ⟨_, _, rfl⟩ := h
      simpa using hc
    · cases h
  all_goals first
    | (simp only [res_bind_ok, Except.ok.injEq] at h
       obtain ⟨_, _, _, _, rfl⟩ := h
       simp_all)
    | cases h

theorem as_ok {vm : VerificationMethod} {c : Curve} {key : C.Key} (h : vm.as C c = .ok key) :
    vm.keyAlg = some c ∧ vm.asKeyPair C = .ok ⟨c, key⟩ := by
  unfold VerificationMethod.as asCurve at h
  split at h
  · cases h
  · rename_i ha
    simp only [res_bind_ok] at h
    obtain ⟨p, hp, h⟩ := h
    split at h
    · rename_i hc
      cases h
      obtain ⟨c', key⟩ := p
      simp only at hc; subst hc
      exact ⟨by simpa using ha, hp⟩
    · cases h

theorem jwe_parse_ok {j : JWE} {p : ParsedJWE} {t : Str} (ht : jweFromStr t = .ok j) (h : j.parse C = .ok p) :
    p.jwe = j ∧ ReadsJwe C t j p.protected_ p.apu p.apv := by
  simp only [JWE.parse, res_bind_ok, okOr_eq_ok] at h
  obtain ⟨b, h1, hdr, h2, apv, h3, h⟩ := h
  cases ha : hdr.apu with
  | none =>
    rw [ha] at h; cases h
    exact ⟨rfl, ht, ⟨b, h1, h2⟩, .inl ⟨ha, rfl⟩, h3⟩
  | some a =>
    rw [ha] at h
    cases hd : B64.decode a with
    | none => simp [hd, okOr, Except.map, bind, Except.bind] at h
    | some x =>
      simp [hd, okOr, Except.map, bind, Except.bind] at h; subst h
      exact ⟨rfl, ht, ⟨b, h1, h2⟩, .inr ⟨a, x, ha, hd, rfl⟩, h3⟩

theorem verifyDidcomm_ok {p q : ParsedJWE} (h : p.verifyDidcomm C = .ok q) :
    p.apv = apvOf C (p.jwe.recipients.map JweRecipient.kid) ∧
    ((p.apu = none ∧ p.protected_.skid = none) ∨
     (∃ a, p.apu = some a ∧ validUtf8 a = true ∧ (p.protected_.skid = none ∨ p.protected_.skid = some a))) := by
  simp only [ParsedJWE.verifyDidcomm, fail] at h
  split at h
  · cases h
  rename_i hapv
  refine ⟨by simpa using hapv, ?_⟩
  cases ha : p.apu with
  | none =>
    rw [ha] at h
    cases hs : p.protected_.skid with
    | none => exact .inl ⟨rfl, rfl⟩
    | some s => rw [hs] at h; cases h
  | some a =>
    rw [ha] at h
    simp only at h
    split at h
    · cases h
    rename_i hu
    cases hs : p.protected_.skid with
    | none => exact .inr ⟨a, rfl, by simpa using hu, .inl rfl⟩
    | some s =>
      rw [hs] at h
      simp only at h
      split at h
      · cases h
      · rename_i he; exact .inr ⟨a, rfl, by simpa using hu, .inr (by simp at he; rw [he])⟩

theorem decrypt_ok {ce : ContentEnc} {kdf : Kdf} {curve : Curve} {p : ParsedJWE} {sender : Option (Str × C.Key)}
    {kid : Str} {key : C.Key} {payload : Bytes} (h : p.decrypt C ce kdf curve sender kid key = .ok payload) :
    sender.map Prod.fst = p.apu ∧ ∃ epk tag kw, C.fromJwk curve p.protected_.epk = some epk ∧
      deriveKey C kdf curve epk (sender.map Prod.snd) key p.protected_.alg.asStr (p.apu.getD []) p.apv tag true = .ok kw ∧
      OpensWith C p.jwe ce kid kw tag payload := by
  unfold ParsedJWE.decrypt at h
  split at h
  · cases h
  rename_i hs
  simp only [res_bind_ok, okOr_eq_ok] at h
  obtain ⟨r, h1, ek, h2, epk, h3, tag, h4, kw, h5, cek, h6, ct, h7, iv, h8, h9⟩ := h
  exact ⟨by simpa using hs, epk, tag, kw, h3, h5, r, ek, cek, ct, iv, List.mem_of_find?_eq_some h1,
    by simpa using List.find?_some h1, h2, h4, h7, h8, h6, h9⟩

/-- The successful loop: the keys tried, in order. -/
theorem decryptLoop_ok {α : Type} {all : Bool} {f : Str → KeyPair C → Res α} {kids : List Str} {acc r : Option α}
    {tr : List Event} (h : Runs (decryptLoop C all f kids acc) tr (.ok r)) :
    (kids = [] ∧ tr = [] ∧ r = acc) ∨
    (∃ k rest x, kids = k :: rest ∧ r = some x ∧
      (all = false → ∃ secret key, tr = [evGet k (some secret)] ∧ secret.asKeyPair C = .ok key ∧ f k key = .ok x) ∧
      (all = true → (∃ secrets : List Secret, kids.length = secrets.length ∧
          tr = (kids.zip secrets).map (fun p => evGet p.1 (some p.2)) ∧
          ∀ p ∈ kids.zip secrets, ∃ key y, p.2.asKeyPair C = .ok key ∧ f p.1 key = .ok y) ∧
        ∃ last secret key, kids.getLast? = some last ∧ evGet last (some secret) ∈ tr ∧
          secret.asKeyPair C = .ok key ∧ f last key = .ok x)) := by
  induction kids generalizing acc tr with
  | nil =>
    obtain ⟨rfl, h⟩ := runs_pure.1 h
    cases h
    exact .inl ⟨rfl, rfl, rfl⟩
  | cons k rest ih =>
    right
    simp only [decryptLoop, runs_ok] at h
    obtain ⟨_, t, rfl, secret, rfl, key, h1, x, h2, h⟩ := h
    cases all with
    | false =>
      obtain ⟨rfl, h⟩ := runs_pure.1 h
      cases h
      exact ⟨k, rest, x, rfl, rfl, fun _ => ⟨secret, key, rfl, h1, h2⟩, fun h => by cases h⟩
    | true =>
      rcases ih h with ⟨rfl, rfl, rfl⟩ | ⟨k2, rest2, x2, rfl, rfl, -, h4⟩
      · refine ⟨k, [], x, rfl, rfl, fun h => (by cases h), fun _ => ⟨⟨[secret], rfl, rfl, ?_⟩, k, secret, key, rfl,
          by simp, h1, h2⟩⟩
        intro p hp
        simp only [List.zip_cons_cons, List.zip_nil_left, List.mem_singleton] at hp
        subst hp
        exact ⟨key, x, h1, h2⟩
      · obtain ⟨⟨ss, hl, rfl, hs⟩, last, secret', key', e1, e2, e3, e4⟩ := h4 rfl
        refine ⟨k, k2 :: rest2, x2, rfl, rfl, fun h => (by cases h), fun _ => ⟨⟨secret :: ss, by simpa using hl, rfl, ?_⟩,
          last, secret', key', by simpa using e1, List.mem_cons_of_mem _ e2, e3, e4⟩⟩
        intro p hp
        rw [List.zip_cons_cons] at hp
        rcases List.mem_cons.1 hp with rfl | hp
        · exact ⟨key, x, h1, h2⟩
        · exact hs p hp

/-- From the loop: the key that gave the result. -/
theorem decryptLoop_used {α : Type} {all : Bool} {f : Str → KeyPair C → Res α} {kids : List Str} {x : α}
    {tr : List Event} (h : Runs (decryptLoop C all f kids none) tr (.ok (some x))) :
    ∃ kid secret key, kid ∈ kids ∧ evGet kid (some secret) ∈ tr ∧ secret.asKeyPair C = .ok key ∧ f kid key = .ok x := by
  rcases decryptLoop_ok h with ⟨-, -, h⟩ | ⟨k, rest, y, rfl, hx, h1, h2⟩
  · cases h
  · cases hx
    cases all with
    | false =>
      obtain ⟨secret, key, rfl, a, b⟩ := h1 rfl
      exact ⟨k, secret, key, by simp, by simp, a, b⟩
    | true =>
      obtain ⟨-, last, secret, key, a, b, c, d⟩ := h2 rfl
      exact ⟨last, secret, key, List.mem_of_mem_getLast? a, b, c, d⟩

theorem anonDecryptWith_ok {p : ParsedJWE} {t : Str} {j : JWE} {kid : Str} {key : KeyPair C} {alg : AnonCryptAlg}
    {payload : Bytes} (ht : jweFromStr t = .ok j) (hp : j.parse C = .ok p) (ha : p.protected_.alg = .ecdhEs)
    (hv : p.verifyDidcomm C = .ok p) (h : anonDecryptWith C p kid key = .ok (alg, payload)) :
    AnonOpens C t (p.jwe.recipients.map JweRecipient.kid) alg key.curve kid key.key payload := by
  obtain ⟨rfl, hr⟩ := jwe_parse_ok ht hp
  obtain ⟨v1, v2⟩ := verifyDidcomm_ok hv
  unfold anonDecryptWith at h
  split at h
  · cases he : anonEnc p.protected_.enc with
    | none => rw [he] at h; cases h
    | some x =>
      obtain ⟨ce, a⟩ := x
      rw [he] at h
      simp only [res_bind_ok, Except.ok.injEq, Prod.mk.injEq] at h
      obtain ⟨b, hd, rfl, rfl⟩ := h
      obtain ⟨hs, epk, tag, kw, h1, h2, h3⟩ := decrypt_ok hd
      simp only [Option.map_none] at hs
      have hsk : p.protected_.skid = none := by
        rcases v2 with ⟨-, h⟩ | ⟨x, h, -⟩
        · exact h
        · rw [h] at hs; cases hs
      rw [← hs] at hr h2
      simp only [deriveKey, okOr_eq_ok, ha, JweAlg.asStr, Option.getD] at h2
      refine ⟨p.jwe, p.protected_, p.apv, ce, epk, kw, tag, hr, ha, hsk, ?_, rfl, v1.trans (sha_joinedKids _).symm, h1, h2, h3⟩
      unfold anonEnc at he
      split at he <;> cases he <;> rename_i hx <;> rw [hx] <;> constructor
  · cases h

theorem authDecryptWith_ok {p : ParsedJWE} {t : Str} {j : JWE} {fromKid kid : Str} {fromKey key : KeyPair C}
    {alg : AuthCryptAlg} {payload : Bytes} (ht : jweFromStr t = .ok j) (hp : j.parse C = .ok p)
    (ha : p.protected_.alg = .ecdh1pu) (hv : p.verifyDidcomm C = .ok p)
    (h : authDecryptWith C p fromKid fromKey kid key = .ok (alg, payload)) :
    fromKey.curve = key.curve ∧
    AuthOpens C t (p.jwe.recipients.map JweRecipient.kid) fromKid key.curve fromKey.key kid key.key payload := by
  obtain ⟨rfl, hr⟩ := jwe_parse_ok ht hp
  obtain ⟨v1, v2⟩ := verifyDidcomm_ok hv
  unfold authDecryptWith at h
  split at h
  · rename_i hc
    simp only [res_bind_ok, Except.ok.injEq, Prod.mk.injEq] at h
    obtain ⟨b, hd, -, rfl⟩ := h
    obtain ⟨hs, epk, tag, kw, h1, h2, h3⟩ := decrypt_ok hd
    simp only [Option.map_some] at hs
    have hsk : p.protected_.skid = none ∨ p.protected_.skid = some fromKid := by
      rcases v2 with ⟨h, -⟩ | ⟨x, h, -, h'⟩
      · rw [h] at hs; cases hs
      · rw [h] at hs; cases hs; exact h'
    rw [← hs] at hr h2
    simp only [deriveKey, okOr_eq_ok, ha, JweAlg.asStr, Option.getD, Option.map_some] at h2
    rw [hc.2.1] at h1 h2
    exact ⟨hc.2.1, p.jwe, p.protected_, p.apv, epk, kw, tag, hr, ha, hsk, hc.2.2, rfl, v1.trans (sha_joinedKids _).symm, h1, h2, h3⟩
  · split at h
    · cases h
    · split at h <;> cases h

/-! ## Layers of a successful unpacking -/

/-- Evidence of the anoncrypt layer. -/
theorem anon_layer {msg : Str} {opts : UnpackOptions} {md md' : UnpackMetadata} {tr : List Event} {payload : Str}
    (h : Runs (tryUnpackAnoncrypt C msg opts md) tr (.ok (some payload, md'))) :
    ∃ kids alg kid secret key, AnonOpens C msg kids alg key.curve kid key.key payload ∧
      checkRecipients kids = .ok () ∧ evGet kid (some secret) ∈ tr ∧ secret.asKeyPair C = .ok key ∧
      validUtf8 payload = true ∧ md' = md.anon kids alg := by
  rcases tryUnpackAnoncrypt_ok.1 h with ⟨h, -⟩ | ⟨jwe, p, found, tr', alg, payload, ho, h1, h2, ha, h3, h4, rfl, hf, h5, hu, rfl⟩
  · cases h
  · cases ho
    obtain ⟨kid, secret, key, -, e2, e3, e4⟩ := decryptLoop_used h5
    exact ⟨_, alg, kid, secret, key, anonDecryptWith_ok h1 h2 ha h3 e4, h4, List.mem_cons_of_mem _ e2, e3, hu, rfl⟩

/-- Evidence of the authcrypt layer. -/
theorem auth_layer {msg : Str} {opts : UnpackOptions} {md md' : UnpackMetadata} {tr : List Event} {payload : Str}
    (h : Runs (tryUnpackAuthcrypt C msg opts md) tr (.ok (some payload, md'))) :
    ∃ kids fromKid doc c skey kid secret rkey, AuthOpens C msg kids fromKid c skey kid rkey payload ∧
      HasFragment fromKid ∧ evResolve (didOf fromKid) (some doc) ∈ tr ∧
      KeyFrom C doc doc.keyAgreement fromKid c skey ∧
      checkRecipients kids = .ok () ∧ evGet kid (some secret) ∈ tr ∧ secret.asKeyPair C = .ok ⟨c, rkey⟩ ∧
      validUtf8 payload = true ∧ md' = md.auth kids fromKid .a256cbcHs512Ecdh1puA256kw := by
  rcases tryUnpackAuthcrypt_ok.1 h with ⟨h, -⟩ | ⟨jwe, p, fromKid, doc, vm, fromKey, found, tr', alg, payload, ho, h1, h2, ha, h3,
    hapu, hu1, hfr, hka, hvm, hfk, h4, rfl, hf, h5, hu, rfl⟩
  · cases h
  · cases ho
    obtain ⟨kid, secret, key, -, e2, e3, e4⟩ := decryptLoop_used h5
    obtain ⟨hc, ho⟩ := authDecryptWith_ok h1 h2 ha h3 e4
    obtain ⟨c, key⟩ := key
    obtain ⟨c', fkey⟩ := fromKey
    simp only at hc ho; subst hc
    rw [find_method] at hvm
    cases alg
    exact ⟨_, fromKid, doc, c', fkey, kid, secret, key, ho, (didOrUrl_isSome _).1 hfr, by simp [didOrUrl_fst],
      ⟨hka, vm, hvm, asKeyPair_keyAlg hfk, hfk⟩, h4,
      List.mem_cons_of_mem _ (List.mem_cons_of_mem _ e2), e3, hu, rfl⟩

theorem parseJwsHeaders_one {l : List JwsSig} {hdr : JwsHeader} (h : parseJwsHeaders l = .ok [hdr]) :
    ∃ s b, l = [s] ∧ B64.decode s.protected_ = some b ∧ fromJson dJwsHeader b = .ok hdr := by
  cases l with
  | nil => cases h
  | cons s r =>
    simp only [parseJwsHeaders, res_bind_ok, okOr_eq_ok, Except.ok.injEq, List.cons.injEq] at h
    obtain ⟨b, h1, hd, h2, l, h3, rfl, rfl⟩ := h
    cases r with
    | nil => exact ⟨s, b, rfl, h1, h2⟩
    | cons s2 r =>
      simp only [parseJwsHeaders, res_bind_ok, okOr_eq_ok, Except.ok.injEq] at h3
      obtain ⟨_, _, _, _, _, _, h3⟩ := h3
      cases h3

theorem scheme_of {alg : JwsAlg} {c : Curve} {st : SigType} (h1 : curveFor alg = .ok c) (h2 : alg.sigType = .ok st) :
    ∃ sa, signAlgOf alg = some sa ∧ Scheme alg c st sa := by
  cases alg <;> cases h1 <;> cases h2 <;> exact ⟨_, rfl, by constructor⟩

/-- Evidence of the signature layer. -/
theorem sign_layer {msg : Str} {md md' : UnpackMetadata} {tr : List Event} {payload : Str}
    (h : Runs (tryUnpackSign C msg md) tr (.ok (some payload, md'))) :
    ∃ kid alg doc c key, SignedBy C msg kid alg c key payload ∧ HasFragment kid ∧
      tr = [evResolve (didOf kid) (some doc)] ∧ KeyFrom C doc doc.authentication kid c key ∧
      validUtf8 payload = true ∧ md' = md.sign kid (some alg) msg := by
  rcases tryUnpackSign_ok.1 h with ⟨h, -⟩ | ⟨p, sig, hdr, doc, vm, curve, key, payload, ho, h1, h2, hp, hs, hk, rfl, h3, h4, h5, h6, h7, h8, hu, rfl⟩
  · cases h
  · cases ho
    simp only [JWS.parse, res_bind_ok] at h2
    obtain ⟨hs', h2, hpe⟩ := h2
    have : hs' = [hdr] := by rw [← hp]; exact congrArg ParsedJWS.protected_ (Except.ok.inj hpe)
    subst this
    obtain ⟨s, b, hl, hb, hd⟩ := parseJwsHeaders_one h2
    rw [hl] at hs
    cases hs
    obtain ⟨jws, prots⟩ := p
    obtain ⟨sigs, pl⟩ := jws
    simp only at hl hp; subst hl; subst hp
    simp only [ParsedJWS.verify, findSig, if_true, okOr, bind, Except.bind, List.getElem?_cons_zero] at h7
    cases hst : hdr.alg.sigType with
    | error e => rw [hst] at h7; cases h7
    | ok st =>
      rw [hst] at h7
      simp only at h7
      cases hraw : B64.decode sig.signature with
      | none => rw [hraw] at h7; cases h7
      | some raw =>
        rw [hraw] at h7
        simp only at h7
        obtain ⟨sa, hsa, hsch⟩ := scheme_of h5 hst
        obtain ⟨ha, hb'⟩ := as_ok h6
        rw [find_method] at h4
        refine ⟨sig.kid, sa, doc, curve, key, ⟨sig.protected_, sig.signature, pl, b, hdr, st, raw, h1, hb, hd, hsch, hraw, ?_, h8, (validUtf8_iff _).1 hu⟩,
          (didOrUrl_isSome _).1 hk, by rw [didOrUrl_fst], ⟨h3, vm, h4, ha, hb'⟩, hu, by rw [hsa]⟩
        simp only [dotJoin] at h7
        cases hv : C.verify curve key (sig.protected_ ++ 0x2E :: pl) raw st with
        | none => rw [hv] at h7; cases h7
        | some v =>
          rw [hv] at h7; cases h7
          rw [← hv]; simp

/-- The successive texts of the unwrapping loop. -/
inductive Unwrapped (C : Crypto) (opts : UnpackOptions) :
    Str → UnpackMetadata → List Event → Str → UnpackMetadata → Prop
  | stop {msg : Str} {md : UnpackMetadata} (h : Runs (tryUnpackAnoncrypt C msg opts md) [] (.ok (none, md))) :
      Unwrapped C opts msg md [] msg md
  | last {msg : Str} {md md' : UnpackMetadata} {t t2 : List Event} {payload : Str}
      (h : Runs (tryUnpackAnoncrypt C msg opts md) t (.ok (some payload, md')))
      (h2 : (opts.unwrapReWrappingForward = false ∧ t2 = []) ∨
        (opts.unwrapReWrappingForward = true ∧ Runs (tryUnwrapForwarded C payload) t2 (.ok none))) :
      Unwrapped C opts msg md (t ++ t2) payload md'
  | again {msg : Str} {md md' md'' : UnpackMetadata} {t t2 t3 : List Event} {payload inner out : Str}
      (h : Runs (tryUnpackAnoncrypt C msg opts md) t (.ok (some payload, md')))
      (ho : opts.unwrapReWrappingForward = true)
      (h2 : Runs (tryUnwrapForwarded C payload) t2 (.ok (some inner)))
      (h3 : Unwrapped C opts inner { md' with reWrappedInForward := true } t3 out md'') :
      Unwrapped C opts msg md (t ++ t2 ++ t3) out md''

theorem unwrapLoop_ok {opts : UnpackOptions} {n : Nat} {msg out : Str} {md md' : UnpackMetadata} {tr : List Event}
    (h : Runs (unwrapLoop C opts n msg md) tr (.ok (out, md'))) : Unwrapped C opts msg md tr out md' := by
  induction n generalizing msg md tr with
  | zero => cases (runs_ret.1 h).2
  | succ n ih =>
    simp only [unwrapLoop, runs_bind_ok, Prod.exists] at h
    obtain ⟨anon, md1, t1, t2, rfl, h1, h⟩ := h
    cases anon with
    | none =>
      obtain ⟨rfl, h⟩ := runs_pure.1 h
      cases h
      rcases tryUnpackAnoncrypt_ok.1 h1 with ⟨-, rfl, rfl, -⟩ | ⟨_, _, _, _, _, _, h, -⟩
      · exact .stop h1
      · cases h
    | some payload =>
      simp only at h
      split at h
      · rename_i ho
        rw [runs_bind_ok] at h
        obtain ⟨fwd, t3, t4, rfl, h2, h⟩ := h
        cases fwd with
        | none =>
          obtain ⟨rfl, h⟩ := runs_pure.1 h
          cases h
          simpa using Unwrapped.last h1 (.inr ⟨ho, h2⟩)
        | some inner => simpa using Unwrapped.again h1 ho h2 (ih h)
      · rename_i ho
        obtain ⟨rfl, h⟩ := runs_pure.1 h
        cases h
        exact .last h1 (.inl ⟨by simpa using ho, rfl⟩)

theorem forwarded_layer {msg : Str} {tr : List Event} {inner : Str}
    (h : Runs (tryUnwrapForwarded C msg) tr (.ok (some inner))) :
    ∃ m next v, fromJson (dMessage C.f64) msg = .ok m ∧ IsForward m next v ∧ inner = v.print ∧
      Runs (hasKeyAgreementSecret next) tr (.ok true) := by
  rcases tryUnwrapForwarded_ok.1 h with ⟨h, -⟩ | ⟨m, h, -⟩ | ⟨m, f, has, h1, hf, h2, ho⟩
  · cases h
  · cases h
  · cases has with
    | false => cases ho
    | true =>
      cases ho
      exact ⟨m, f.next, f.forwardedMsg, h1, (C41_only m f.next f.forwardedMsg).1 hf, rfl, h2⟩

theorem Unwrapped.within {opts : UnpackOptions} {msg out : Str} {md md' : UnpackMetadata} {tr : List Event}
    (h : Unwrapped C opts msg md tr out md') : Within C msg out := by
  induction h with
  | stop _ => exact .here _
  | last h _ =>
    obtain ⟨kids, alg, kid, secret, key, h, -, -, -, hu, -⟩ := anon_layer h
    exact .anon h ((validUtf8_iff _).1 hu) (.here _)
  | again h _ h2 _ ih =>
    obtain ⟨kids, alg, kid, secret, key, h, -, -, -, hu, -⟩ := anon_layer h
    obtain ⟨m, next, v, e1, e2, rfl, -⟩ := forwarded_layer h2
    exact .anon h ((validUtf8_iff _).1 hu) (.forward e1 e2 ih)

/-- What the unwrapping loop does to the metadata, with the evidence of the last anoncrypt layer. -/
theorem Unwrapped.metadata {opts : UnpackOptions} {msg out : Str} {md md' : UnpackMetadata} {tr : List Event}
    (h : Unwrapped C opts msg md tr out md') :
    (out = msg ∧ md' = md ∧ tr = []) ∨
    ∃ kids alg w t kid secret key payload,
      md' = { md.anon kids alg with reWrappedInForward := md.reWrappedInForward || w } ∧
      (w = true → opts.unwrapReWrappingForward = true) ∧ checkRecipients kids = .ok () ∧
      Within C msg t ∧ AnonOpens C t kids alg key.curve kid key.key payload ∧ Within C payload out ∧
      evGet kid (some secret) ∈ tr ∧ secret.asKeyPair C = .ok key := by
  induction h with
  | stop _ => exact .inl ⟨rfl, rfl, rfl⟩
  | last h _ =>
    obtain ⟨kids, alg, kid, secret, key, h1, h2, h3, h4, h5, rfl⟩ := anon_layer h
    exact .inr ⟨kids, alg, false, _, kid, secret, key, _, by simp [UnpackMetadata.anon], by simp, h2, .here _, h1, .here _,
      by simp [h3], h4⟩
  | again h ho h2 h3 ih =>
    obtain ⟨kids, alg, kid, secret, key, e1, e2, e3, e4, e5, rfl⟩ := anon_layer h
    obtain ⟨m, next, v, f1, f2, rfl, -⟩ := forwarded_layer h2
    rcases ih with ⟨rfl, rfl, rfl⟩ | ⟨kids', alg', w, t, kid', secret', key', payload', rfl, g1, g2, g3, g4, g5, g6, g7⟩
    · exact .inr ⟨kids, alg, true, _, kid, secret, key, _, by simp [UnpackMetadata.anon], fun _ => ho, e2, .here _, e1,
        .forward f1 f2 (.here _), by simp [e3], e4⟩
    · exact .inr ⟨kids', alg', true, t, kid', secret', key', payload', by simp [UnpackMetadata.anon], fun _ => ho, g2,
        .anon e1 ((validUtf8_iff _).1 e5) (.forward f1 f2 g3), g4, g5, by simp [g6], g7⟩

/-! ## from_prior -/

theorem joinWith_splitOn (c : UInt8) (s : Str) : joinWith c (splitOn c s) = s := by
  induction s with
  | nil => rfl
  | cons b r ih =>
    simp only [splitOn]
    split
    · rename_i h; subst h
      cases hs : splitOn b r with
      | nil => exact absurd hs (splitOn_ne_nil _ _)
      | cons p ps => rw [hs] at ih; simp [joinWith, ih]
    · cases hs : splitOn c r with
      | nil => exact absurd hs (splitOn_ne_nil _ _)
      | cons p ps =>
        rw [hs] at ih
        cases ps with
        | nil => simpa [joinWith] using ih
        | cons q qs => simp only [joinWith, List.cons_append] at ih ⊢; rw [ih]

theorem fromPrior_layer {jwt : Str} {tr : List Event} {fp : FromPrior} {kid : Str}
    (h : Runs (FromPrior.unpack C jwt) tr (.ok (fp, kid))) :
    ∃ doc c key, JwtBy C jwt kid c key fp ∧ HasFragment kid ∧ tr = [evResolve (didOf kid) (some doc)] ∧
      KeyFrom C doc doc.authentication kid c key := by
  obtain ⟨p, doc, vm, curve, key, payload, h1, h2, h3, h4, rfl, h6, h7, h8, h9, h10, h11, h12, h13⟩ :=
    FromPrior.unpack_ok.1 h
  obtain ⟨hd, ph, pl, sig⟩ := p
  simp only at h2 h4 h8 h10 h11
  unfold parseCompact at h1
  split at h1
  · rename_i a b c hs
    simp only [res_bind_ok, okOr_eq_ok, withKind_eq_ok, Except.ok.injEq, ParsedCompactJWS.mk.injEq] at h1
    obtain ⟨bb, g1, hdr, g2, rfl, rfl, rfl, rfl⟩ := h1
    have hj := joinWith_splitOn 0x2E jwt
    rw [hs] at hj
    simp only [ParsedCompactJWS.verify, res_bind_ok, okOr_eq_ok] at h10
    obtain ⟨st, e1, raw, e2, e3⟩ := h10
    obtain ⟨sa, -, hsch⟩ := scheme_of h8 e1
    obtain ⟨ha, hb⟩ := as_ok h9
    rw [find_method] at h7
    refine ⟨doc, curve, key, ⟨a, b, c, bb, hdr, st, sa, raw, payload, ?_, g1, g2, h2, h4, hsch, e2, ?_, h11, (validUtf8_iff _).1 h12, h13⟩,
      (didOrUrl_isSome _).1 h3, by rw [didOrUrl_fst], h6, vm, h7, ha, hb⟩
    · simp only [joinWith] at hj; simp [← hj]
    · simpa [dotJoin] using e3
  · cases h1

/-! ## The whole -/

/-- The four stages of a successful unpacking with their evidence. -/
theorem unpack_parts {msg : Str} {opts : UnpackOptions} {tr : List Event} {m : Message} {md : UnpackMetadata}
    (h : Runs (unpack C msg opts) tr (.ok (m, md))) :
    ∃ t1 t2 t3 t4 msg1 md1 msg2 md2 msg3 md3, tr = t1 ++ t2 ++ t3 ++ t4 ∧
      Unwrapped C opts msg {} t1 msg1 md1 ∧
      ((msg2 = msg1 ∧ md2 = md1 ∧ t2 = []) ∨
        ∃ kids fromKid doc c skey kid secret rkey, (AuthOpens C msg1 kids fromKid c skey kid rkey msg2 ∧ IsUtf8 msg2) ∧
          HasFragment fromKid ∧ evResolve (didOf fromKid) (some doc) ∈ t2 ∧
          KeyFrom C doc doc.keyAgreement fromKid c skey ∧ checkRecipients kids = .ok () ∧
          evGet kid (some secret) ∈ t2 ∧ secret.asKeyPair C = .ok ⟨c, rkey⟩ ∧
          md2 = md1.auth kids fromKid .a256cbcHs512Ecdh1puA256kw) ∧
      ((msg3 = msg2 ∧ md3 = md2 ∧ t3 = []) ∨
        ∃ kid alg doc c key, SignedBy C msg2 kid alg c key msg3 ∧ HasFragment kid ∧
          t3 = [evResolve (didOf kid) (some doc)] ∧ KeyFrom C doc doc.authentication kid c key ∧
          md3 = md2.sign kid (some alg) msg2) ∧
      fromJson (dMessage C.f64) msg3 = .ok m ∧ m.typ = b!"application/didcomm-plain+json" ∧
      ((m.fromPrior = none ∧ t4 = [] ∧ md = md3) ∨
        ∃ jwt fp kid doc c key, m.fromPrior = some jwt ∧ JwtBy C jwt kid c key fp ∧ HasFragment kid ∧
          t4 = [evResolve (didOf kid) (some doc)] ∧ KeyFrom C doc doc.authentication kid c key ∧
          md = { md3 with fromPrior := some fp, fromPriorIssuerKid := some kid }) := by
  obtain ⟨t1, t2, t3, t4, msg1, md1, auth, md2, signed, md3, rfl, h1, h2, h3, h4⟩ := unpack_ok.1 h
  refine ⟨t1, t2, t3, t4, msg1, md1, auth.getD msg1, md2, signed.getD (auth.getD msg1), md3, rfl, unwrapLoop_ok h1, ?_, ?_, ?_⟩
  · cases auth with
    | none =>
      rcases tryUnpackAuthcrypt_ok.1 h2 with ⟨-, rfl, rfl, -⟩ | ⟨_, _, _, _, _, _, _, _, _, _, h, -⟩
      · exact .inl ⟨rfl, rfl, rfl⟩
      · cases h
    | some p =>
      obtain ⟨kids, fromKid, doc, c, skey, kid, secret, rkey, e1, e2, e3, e4, e5, e6, e7, e8, e9⟩ := auth_layer h2
      exact .inr ⟨kids, fromKid, doc, c, skey, kid, secret, rkey, ⟨e1, (validUtf8_iff _).1 e8⟩, e2, e3, e4, e5, e6, e7, e9⟩
  · cases signed with
    | none =>
      rcases tryUnpackSign_ok.1 h3 with ⟨-, rfl, rfl, -⟩ | ⟨_, _, _, _, _, _, _, _, h, -⟩
      · exact .inl ⟨rfl, rfl, rfl⟩
      · cases h
    | some p =>
      obtain ⟨kid, alg, doc, c, key, e1, e2, e3, e4, e5, e6⟩ := sign_layer h3
      exact .inr ⟨kid, alg, doc, c, key, e1, e2, e3, e4, e6⟩
  · rcases tryUnpackPlaintext_ok.1 h4 with ⟨h, -⟩ | ⟨m', hm, e1, e2, e3⟩
    · cases h
    · cases hm
      refine ⟨e1, e2, ?_⟩
      rcases e3 with ⟨a, b, c⟩ | ⟨jwt, fp, kid, a, b, c⟩
      · exact .inl ⟨a, b, c⟩
      · obtain ⟨doc, c', key, g1, g2, g3, g4⟩ := fromPrior_layer b
        exact .inr ⟨jwt, fp, kid, doc, c', key, a, g1, g2, g3, g4, c⟩

end DIDComm
