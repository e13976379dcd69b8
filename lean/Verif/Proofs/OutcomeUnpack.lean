import Verif.Spec.OutcomeUnpack
import Verif.Proofs.OutcomeUnique
import Verif.Props.Evidence
import Verif.Props.Termination
import Verif.Proofs.Trace

/-! # How the outcomes of unpacking are proved -/

set_option autoImplicit false

namespace DIDComm

variable {C : Crypto} {E : Env} {α β : Type}

/-! ## Recognising -/

theorem fromJson_errors {d : Nat → Tree → Option α} [Early d] {s : Str} {e : Err} (h : fromJson d s = .error e) :
    e = .kind .malformed ∨ e = .kind .invalidState := by
  have := parseJson_fuel s
  unfold fromJson at h
  split at h
  · cases h; split
    · exact .inl rfl
    · exact .inr rfl
  · cases h; exact .inl rfl
  · contradiction
  · exact .inl (okOr_eq_error.1 h).2

theorem recognised (d : Nat → Tree → Option α) [Early d] (t : Str) : Recognised d t (recognise (fromJson d t)) := by
  rcases h : fromJson d t with e | a
  · rcases fromJson_errors h with rfl | rfl
    · exact .other h
    · exact .cutOff h
  · exact .one h

theorem headerText (d : Nat → Tree → Option α) [Early d] (t : Str) :
    HeaderText d t (okOr .malformed (B64.decode t) >>= fun b => fromJson d b) := by
  rcases h : B64.decode t with _ | b
  · exact .notBase64 h
  · exact .json h rfl

set_option linter.unusedSimpArgs false in
theorem jweHeaderRead (j : JWE) : JweHeaderRead C j ((j.parse C).map fun p => (p.protected_, p.apu, p.apv)) := by
  unfold JWE.parse
  rcases h1 : B64.decode j.protected_ with _ | b
  · simp only [bind, Except.bind, Except.map, okOr, h1]; exact .unreadable (.notBase64 h1)
  rcases h2 : fromJson (dJweHeader C.f64) b with e | hdr
  · simp only [bind, Except.bind, Except.map, okOr, h1, h2]; exact .unreadable (.json h1 h2)
  have ht : HeaderText (dJweHeader C.f64) j.protected_ (.ok hdr) := .json h1 h2
  rcases hv : B64.decode hdr.apv with _ | apv
  · simp only [bind, Except.bind, Except.map, okOr, h1, h2, hv]; exact .badParty ht (.inl hv)
  rcases ha : hdr.apu with _ | a
  · simp only [bind, Except.bind, Except.map, okOr, h1, h2, hv, ha]; exact .anonymous ht hv ha
  rcases hd : B64.decode a with _ | x
  · simp only [bind, Except.bind, Except.map, okOr, h1, h2, hv, ha, hd]; exact .badParty ht (.inr ⟨a, ha, hd⟩)
  · simp only [bind, Except.bind, Except.map, okOr, h1, h2, hv, ha, hd]; exact .named ht hv ha hd

theorem parse_jwe {j : JWE} {p : ParsedJWE} (h : j.parse C = .ok p) : p.jwe = j := by
  unfold JWE.parse at h
  simp only [res_bind_ok] at h
  obtain ⟨_, _, _, _, _, _, h⟩ := h
  split at h
  all_goals
    obtain ⟨_, _, h⟩ := res_bind_ok.1 h
    cases h; rfl

theorem verifyDidcomm_iff {p : ParsedJWE} : p.verifyDidcomm C = .ok p ↔ HeaderFits C p.jwe p.protected_ p.apu p.apv := by
  constructor
  · intro h
    obtain ⟨h1, h2⟩ := verifyDidcomm_ok h
    refine ⟨h1.trans (sha_joinedKids _).symm, h2.imp id ?_⟩
    rintro ⟨a, ha, hu, hs⟩
    exact ⟨a, ha, (validUtf8_iff _).1 hu, hs⟩
  · rintro ⟨h1, h2⟩
    unfold ParsedJWE.verifyDidcomm
    rw [if_neg (by rw [sha_joinedKids] at h1; simpa [kidsOf] using h1)]
    rcases h2 with ⟨h2, h3⟩ | ⟨a, h2, hu, h3⟩
    · rw [h2, h3]
    · have := (validUtf8_iff _).2 hu
      rcases h3 with h3 | h3 <;> simp [h2, h3, this]

theorem verifyDidcomm_error {p : ParsedJWE} {e : Err} (h : p.verifyDidcomm C = .error e) : e = .kind .malformed := by
  simp only [ParsedJWE.verifyDidcomm, fail] at h
  repeat' split at h
  all_goals first | (cases h; rfl) | cases h

theorem checkRecipients_error {kids : List Str} {e : Err} (h : checkRecipients kids = .error e) :
    e = .kind .malformed ∧ ¬ OneDid kids := by
  refine ⟨?_, fun ho => ?_⟩
  · unfold checkRecipients at h
    repeat' split at h
    all_goals first | (cases h; rfl) | cases h
  · rw [checkRecipients_ok.2 ho] at h; cases h

/-! ## Decrypting -/

set_option linter.unusedSimpArgs false in
theorem decrypts (p : ParsedJWE) (ce : ContentEnc) (kdf : Kdf) (c : Curve) (sender : Option (Str × C.Key)) (kid : Str) (key : C.Key)
    (agree : C.Key → Bytes → Option Bytes) (hs : sender.map Prod.fst = p.apu)
    (ha : ∀ epk tag, deriveKey C kdf c epk (sender.map Prod.snd) key p.protected_.alg.asStr (p.apu.getD []) p.apv tag true =
      okOr .invalidState (agree epk tag)) :
    Decrypts C p.jwe p.protected_ ce c kid agree (p.decrypt C ce kdf c sender kid key) := by
  unfold ParsedJWE.decrypt
  rw [if_neg (by simpa using hs)]
  simp only [ha]
  rcases h : p.jwe.recipients.find? (fun r => r.kid == kid) with _ | r
  · simp only [okOr, bind, Except.bind, h]; exact .notForKid h
  rcases h1 : B64.decode r.encryptedKey with _ | ek
  · simp only [okOr, bind, Except.bind, h, h1]; exact .unreadable h (.inl h1)
  rcases h2 : C.fromJwk c p.protected_.epk with _ | epk
  · simp only [okOr, bind, Except.bind, h, h1, h2]; exact .unreadable h (.inr (.inl h2))
  rcases h3 : B64.decode p.jwe.tag with _ | tag
  · simp only [okOr, bind, Except.bind, h, h1, h2, h3]; exact .unreadable h (.inr (.inr h3))
  rcases h4 : agree epk tag with _ | kw
  · simp only [okOr, bind, Except.bind, h, h1, h2, h3, h4]; exact .noAgreement h h1 h2 h3 h4
  rcases h5 : C.unwrap ce kw ek with _ | cek
  · simp only [okOr, bind, Except.bind, h, h1, h2, h3, h4, h5]
    exact .notOpened h h1 h2 h3 h4 fun _ _ _ _ hc => by rw [h5] at hc; cases hc
  rcases h6 : B64.decode p.jwe.ciphertext with _ | ct
  · simp only [okOr, bind, Except.bind, h, h1, h2, h3, h4, h5, h6]
    exact .notOpened h h1 h2 h3 h4 fun _ _ _ _ _ hc => by rw [h6] at hc; cases hc
  rcases h7 : B64.decode p.jwe.iv with _ | iv
  · simp only [okOr, bind, Except.bind, h, h1, h2, h3, h4, h5, h6, h7]
    exact .notOpened h h1 h2 h3 h4 fun _ _ _ _ _ _ hc => by rw [h7] at hc; cases hc
  rcases h8 : C.aeadDec ce cek iv p.jwe.protected_ (ct ++ tag) with _ | payload
  · simp only [okOr, bind, Except.bind, h, h1, h2, h3, h4, h5, h6, h7, h8]
    refine .notOpened h h1 h2 h3 h4 fun _ _ _ _ a b c d => ?_
    rw [h5] at a; rw [h6] at b; rw [h7] at c; cases a; cases b; cases c
    rw [h8] at d; cases d
  · simp only [okOr, bind, Except.bind, h, h1, h2, h3, h4, h5, h6, h7, h8]
    exact .opened h h1 h2 h3 h4 h5 h6 h7 h8

theorem anonEnc_some {a : EncAlg} {ce : ContentEnc} {alg : AnonCryptAlg} (h : anonEnc a = some (ce, alg)) : EncNames a ce alg := by
  cases a <;> simp [anonEnc] at h <;> obtain ⟨rfl, rfl⟩ := h <;> constructor

theorem anonEnc_none {a : EncAlg} (h : anonEnc a = none) : ∀ ce alg, ¬ EncNames a ce alg := by
  intro ce alg hn; cases hn <;> simp [anonEnc] at h

theorem triedAnon (p : ParsedJWE) (ha : p.protected_.alg = .ecdhEs) (kid : Str) (k : KeyPair C) :
    TriedAnon C p.jwe p.protected_ p.apu p.apv kid k (anonDecryptWith C p kid k) := by
  unfold anonDecryptWith
  split
  · rename_i hc
    have hc : CanAgree k.curve := hc
    split
    · rename_i ce alg he
      have he := anonEnc_some he
      rcases hp : p.apu with _ | a
      · have := decrypts p ce .ecdhEs k.curve none kid k.key
          (fun epk _ => C.ecdhEs k.curve epk k.key b!"ECDH-ES+A256KW" [] p.apv true) (by rw [hp]; rfl)
          (fun epk tag => by rw [hp, ha]; rfl)
        rcases hd : p.decrypt C ce .ecdhEs k.curve none kid k.key with e | b
        · rw [hd] at this; exact .failed hc he rfl this
        · rw [hd] at this; exact .opened hc he rfl this
      · have : p.decrypt C ce .ecdhEs k.curve none kid k.key = .error (.kind .invalidState) := by
          unfold ParsedJWE.decrypt
          rw [if_pos (by rw [hp]; simp)]
        rw [this]
        exact .sender hc he (by simp)
    · rename_i he
      exact .otherCipher hc (anonEnc_none he)
  · rename_i hc
    exact .otherType hc

theorem triedAuth (p : ParsedJWE) (ha : p.protected_.alg = .ecdh1pu) (fromKid : Str) (hp : p.apu = some fromKid) (s : KeyPair C)
    (kid : Str) (k : KeyPair C) :
    TriedAuth C p.jwe p.protected_ p.apv fromKid s kid k (authDecryptWith C p fromKid s kid k) := by
  unfold authDecryptWith
  split
  · rename_i h
    obtain ⟨h1, h2, h3⟩ := h
    have := decrypts p .a256cbcHs512 .ecdh1pu s.curve (some (fromKid, s.key)) kid k.key
      (fun epk tag => C.ecdh1pu s.curve epk s.key k.key b!"ECDH-1PU+A256KW" fromKid p.apv tag true) (by rw [hp]; rfl)
      (fun epk tag => by rw [hp, ha]; rfl)
    rcases hd : p.decrypt C .a256cbcHs512 .ecdh1pu s.curve (some (fromKid, s.key)) kid k.key with e | b
    · rw [hd] at this; exact .failed h1 h2 h3 this
    · rw [hd] at this; exact .opened h1 h2 h3 this
  · rename_i h
    by_cases h1 : CanAgree s.curve ∧ CanAgree k.curve
    · by_cases h2 : s.curve = k.curve
      · have he : p.protected_.enc ≠ .a256cbcHs512 := fun he => h ⟨h1.1, h2, he⟩
        have : (if s.curve = .x25519 ∧ k.curve = .p256 then fail .malformed
            else if s.curve = .p256 ∧ k.curve = .x25519 then fail .malformed else fail .unsupported : Res (AuthCryptAlg × Bytes)) =
            .error (.kind .unsupported) := by
          rw [if_neg (by rw [h2]; rintro ⟨a, b⟩; rw [a] at b; cases b), if_neg (by rw [h2]; rintro ⟨a, b⟩; rw [a] at b; cases b)]
        rw [this]
        exact .otherCipher h1.1 h2 he
      · have : (if s.curve = .x25519 ∧ k.curve = .p256 then fail .malformed
            else if s.curve = .p256 ∧ k.curve = .x25519 then fail .malformed else fail .unsupported : Res (AuthCryptAlg × Bytes)) =
            .error (.kind .malformed) := by
          rcases h1 with ⟨a | a, b | b⟩ <;> rw [a, b] at h2 <;> rw [a, b] <;> first | exact absurd rfl h2 | rfl
        rw [this]
        exact .twoTypes h1 h2
    · have : (if s.curve = .x25519 ∧ k.curve = .p256 then fail .malformed
          else if s.curve = .p256 ∧ k.curve = .x25519 then fail .malformed else fail .unsupported : Res (AuthCryptAlg × Bytes)) =
          .error (.kind .unsupported) := by
        rw [if_neg (fun ⟨a, b⟩ => h1 ⟨.inl a, .inr b⟩), if_neg (fun ⟨a, b⟩ => h1 ⟨.inr a, .inl b⟩)]
      rw [this]
      exact .otherType h1

theorem triedKeys (all : Bool) (tried : Str → KeyPair C → Res α → Prop) (f : Str → KeyPair C → Res α) (ht : ∀ kid p, tried kid p (f kid p)) :
    ∀ (l : List Str), l ≠ [] → ∀ acc, Yields E (decryptLoop C all f l acc) (fun r => ∃ r', TriedKeys C E all tried l r' ∧ r = r'.map some) := by
  intro l
  induction l with
  | nil => intro h; exact absurd rfl h
  | cons kid rest ih =>
    intro _ acc
    rw [decryptLoop]
    refine Yields.getBind (fun k h => ⟨_, .noSecret (.failed h), rfl⟩) ?_
    rintro (_ | s) hg
    · exact Yields.liftBind (fun e h => by cases h; exact ⟨_, .noSecret (.gone hg), rfl⟩) (fun a h => by cases h)
    refine Yields.liftBind (fun e h => by cases h) (fun a h => ?_)
    cases h
    refine Yields.liftBind (fun e h => ⟨_, .noSecret (.read hg h), rfl⟩) (fun p hp => ?_)
    have hs : OurSecret C E kid (.ok p) := .read hg hp
    have htr := ht kid p
    refine Yields.liftBind (fun e h => ⟨_, .failed hs (by rw [h] at htr; exact htr), rfl⟩) (fun x hx => ?_)
    rw [hx] at htr
    cases all with
    | false => exact Yields.pure ⟨_, .last hs htr (.inl rfl), rfl⟩
    | true =>
      rw [if_pos rfl]
      cases rest with
      | nil => exact Yields.pure ⟨_, .last hs htr (.inr rfl), rfl⟩
      | cons k2 rest =>
        refine (ih (by simp) (some x)).mono ?_
        rintro r ⟨r', h, rfl⟩
        exact ⟨r', .more hs htr rfl (by simp) h, rfl⟩

/-- The part of the two decryption layers they have in common. -/
theorem openedFor (all : Bool) (tried : Str → KeyPair C → Res (α × Bytes) → Prop) (f : Str → KeyPair C → Res (α × Bytes))
    (ht : ∀ kid p, tried kid p (f kid p)) (kids : List Str) (g : α → Str → Prog β) (P : Res β → Prop)
    (he : ∀ e, OpenedFor C E all tried kids (.error e) → P (.error e))
    (ho : ∀ a u, OpenedFor C E all tried kids (.ok (a, u)) → Yields E (g a u) P) :
    Yields E (Prog.lift (checkRecipients kids) >>= fun _ => findSecrets kids >>= fun found =>
      if found.isEmpty then Prog.fail .secretNotFound else
      decryptLoop C all f found none >>= fun r => Prog.lift (okOr .invalidState r) >>= fun x =>
      if validUtf8 x.2 = false then Prog.fail .malformed else g x.1 x.2) P := by
  refine Yields.liftBind (fun e h => ?_) (fun _ h => ?_)
  · obtain ⟨rfl, h'⟩ := checkRecipients_error h; exact he _ (.manyDids h')
  have hk : OneDid kids := checkRecipients_ok.1 h
  refine Yields.findBind (fun k h => he _ (.searchFailed hk h)) (fun found hf => ?_)
  split
  · rename_i hn
    have : found = [] := List.isEmpty_iff.1 hn
    subst this
    exact Yields.fail (he _ (.notOurs hk hf))
  rename_i hn
  refine Yields.bind (triedKeys all tried f ht found (fun h => hn (List.isEmpty_iff.2 h)) none) ?_ ?_
  · rintro e ⟨r', h, h'⟩
    cases r' with
    | ok _ => cases h'
    | error e' => cases h'; exact he _ (.failed hk hf h)
  · rintro a ⟨r', h, h'⟩
    cases r' with
    | error _ => cases h'
    | ok x =>
      cases h'
      refine Yields.liftBind (fun e h => by cases h) (fun y hy => ?_)
      cases hy
      obtain ⟨a, b⟩ := x
      split
      · rename_i hu
        refine Yields.fail (he _ (.notText hk hf h fun hu' => ?_))
        rw [(validUtf8_iff _).2 hu'] at hu; cases hu
      · rename_i hu
        exact ho _ _ (.opened hk hf h ((validUtf8_iff _).1 (by simpa using hu)))

theorem anonLayer (t : Str) (opts : UnpackOptions) (md : UnpackMetadata) :
    Yields E (tryUnpackAnoncrypt C t opts md) (fun r => ∃ r', AnonLayer C E opts.expectDecryptByAllKeys t r' ∧
      r = r'.map fun o => o.elim (none, md) fun x => (some x.2.2, md.seeAnon x.1 x.2.1)) := by
  unfold tryUnpackAnoncrypt
  have hrec := recognised dJwe t
  change Recognised dJwe t (recognise (jweFromStr t)) at hrec
  refine Yields.liftBind (fun e h => ?_) (fun o h => ?_)
  · rw [h] at hrec; exact ⟨_, .cutOff hrec, rfl⟩
  rw [h] at hrec
  cases o with
  | none => exact Yields.pure ⟨_, .notJwe hrec, rfl⟩
  | some j =>
    have hh := jweHeaderRead (C := C) j
    refine Yields.liftBind (fun e h => ?_) (fun p hp => ?_)
    · rw [h] at hh; exact ⟨_, .badHeader hrec hh, rfl⟩
    rw [hp] at hh
    have hj := parse_jwe hp
    subst hj
    split
    · rename_i ha
      exact Yields.pure ⟨_, .otherAlg hrec hh ha, rfl⟩
    rename_i ha
    have ha : p.protected_.alg = .ecdhEs := Classical.byContradiction ha
    refine Yields.liftBind (fun e h => ?_) (fun q hq => ?_)
    · cases verifyDidcomm_error h
      refine ⟨_, .misfit hrec hh ha fun hb => ?_, rfl⟩
      rw [verifyDidcomm_iff.2 hb] at h; cases h
    have hqp := verifyDidcomm_eq hq
    subst hqp
    have hb := verifyDidcomm_iff.1 hq
    dsimp only
    refine openedFor opts.expectDecryptByAllKeys (TriedAnon C q.jwe q.protected_ q.apu q.apv) (anonDecryptWith C q)
      (triedAnon q ha) (kidsOf q.jwe) (fun alg u => pure (some u, md.seeAnon (kidsOf q.jwe) alg)) _ ?_ ?_
    · intro e h; exact ⟨_, .failed hrec hh ha hb h, rfl⟩
    · intro alg u h; exact Yields.pure ⟨_, .opened hrec hh ha hb h, rfl⟩

/-- Asking for the sender's document: every failure of the resolver is an invalid state. -/
theorem senderBind {d : Str} {f : DIDDoc → Prog β} {P : Res β → Prop}
    (hf : ∀ k, E.resolve d = .error k → P (.error (.kind .invalidState)))
    (hu : E.resolve d = .ok none → P (.error (.kind .didNotResolved)))
    (ho : ∀ doc, E.resolve d = .ok (some doc) → Yields E (f doc) P) :
    Yields E ((resolve d).withKind .invalidState >>= fun doc => Prog.lift (okOr .didNotResolved doc) >>= f) P := by
  refine Yields.bind (Q := fun r => (∃ x, E.resolve d = .ok x ∧ r = .ok x) ∨
    ∃ k, E.resolve d = .error k ∧ r = .error (.kind .invalidState)) ?_ ?_ ?_
  · intro tr r hr ha
    obtain ⟨r', hr', rfl⟩ := runs_withKind.1 hr
    rcases Yields.resolve' _ _ hr' ha with ⟨x, h, rfl⟩ | ⟨k, h, rfl⟩
    · exact .inl ⟨x, h, rfl⟩
    · exact .inr ⟨k, h, rfl⟩
  · rintro e (⟨x, _, h⟩ | ⟨k, h, h'⟩)
    · cases h
    · cases h'; exact hf _ h
  · rintro a (⟨x, h, h'⟩ | ⟨k, _, h'⟩)
    · cases h'
      cases a with
      | none => exact Yields.liftBind (fun e h' => by cases h'; exact hu h) (fun _ h' => by cases h')
      | some doc => exact Yields.liftBind (fun e h' => by cases h') (fun _ h' => by cases h'; exact ho _ h)
    · cases h'

theorem authLayer (t : Str) (opts : UnpackOptions) (md : UnpackMetadata) :
    Yields E (tryUnpackAuthcrypt C t opts md) (fun r => ∃ r', AuthLayer C E opts.expectDecryptByAllKeys t r' ∧
      r = r'.map fun o => o.elim (none, md) fun x => (some x.2.2.2, md.seeAuth x.1 x.2.1 x.2.2.1)) := by
  unfold tryUnpackAuthcrypt
  have hrec := recognised dJwe t
  change Recognised dJwe t (recognise (jweFromStr t)) at hrec
  refine Yields.liftBind (fun e h => ?_) (fun o h => ?_)
  · rw [h] at hrec; exact ⟨_, .cutOff hrec, rfl⟩
  rw [h] at hrec
  cases o with
  | none => exact Yields.pure ⟨_, .notJwe hrec, rfl⟩
  | some j =>
    have hh := jweHeaderRead (C := C) j
    refine Yields.liftBind (fun e h => ?_) (fun p hp => ?_)
    · rw [h] at hh; exact ⟨_, .badHeader hrec hh, rfl⟩
    rw [hp] at hh
    have hj := parse_jwe hp
    subst hj
    split
    · rename_i ha
      exact Yields.pure ⟨_, .otherAlg hrec hh ha, rfl⟩
    rename_i ha
    have ha : p.protected_.alg = .ecdh1pu := Classical.byContradiction ha
    refine Yields.liftBind (fun e h => ?_) (fun q hq => ?_)
    · cases verifyDidcomm_error h
      refine ⟨_, .misfit hrec hh ha fun hb => ?_, rfl⟩
      rw [verifyDidcomm_iff.2 hb] at h; cases h
    have hqp := verifyDidcomm_eq hq
    subst hqp
    have hb := verifyDidcomm_iff.1 hq
    have no : ∀ e, AuthOpened C E opts.expectDecryptByAllKeys q.jwe q.protected_ q.apv q.apu (.error e) →
        ∃ r', AuthLayer C E opts.expectDecryptByAllKeys t r' ∧ (.error e : Res (Option Str × UnpackMetadata)) =
          r'.map fun o => o.elim (none, md) fun x => (some x.2.2.2, md.seeAuth x.1 x.2.1 x.2.2.1) :=
      fun e h => ⟨_, .failed hrec hh ha hb h, rfl⟩
    refine Yields.liftBind (fun e h => ?_) (fun fromKid h => ?_)
    · obtain ⟨h', rfl⟩ := okOr_eq_error.1 h
      exact no _ (by rw [h']; exact .noSender)
    have hf := okOr_eq_ok.1 h
    have hu : validUtf8 fromKid = true := by
      rcases hb.2 with ⟨h', _⟩ | ⟨a, h', hu, _⟩
      · rw [hf] at h'; cases h'
      · rw [hf] at h'; cases h'; exact (validUtf8_iff _).2 hu
    rw [if_neg (by rw [hu]; simp)]
    split
    · rename_i hn
      exact Yields.fail (no _ (by rw [hf]; exact .senderNotKey ((didOrUrl_isNone _).1 hn)))
    rename_i hn
    have hn : HasFragment fromKid := Classical.byContradiction fun h => hn ((didOrUrl_isNone _).2 h)
    have nok : ∀ e, SendersKey C E fromKid (.error e) → ∃ r', AuthLayer C E opts.expectDecryptByAllKeys t r' ∧
        (.error e : Res (Option Str × UnpackMetadata)) =
          r'.map fun o => o.elim (none, md) fun x => (some x.2.2.2, md.seeAuth x.1 x.2.1 x.2.2.1) :=
      fun e h => no e (by rw [hf]; exact .noKey hn h)
    rw [didOrUrl_fst]
    refine senderBind (fun k h => nok _ (.failed h)) (fun h => nok _ (.unknown h)) (fun doc hd => ?_)
    refine Yields.liftBind (fun e h => ?_) (fun kid h => ?_)
    · obtain ⟨h', rfl⟩ := okOr_eq_error.1 h
      exact nok _ (.notListed hd (find_kid_none h'))
    obtain ⟨rfl, hl⟩ := find_kid (okOr_eq_ok.1 h)
    rw [find_method]
    refine Yields.liftBind (fun e h => ?_) (fun vm h => ?_)
    · obtain ⟨h', rfl⟩ := okOr_eq_error.1 h
      exact nok _ (.noMethod hd hl h')
    have hm := okOr_eq_ok.1 h
    refine Yields.liftBind (fun e h => nok _ (.read hd hl hm h)) (fun s hs => ?_)
    have hk : SendersKey C E kid (.ok s) := .read hd hl hm hs
    dsimp only
    have hmd : ∀ l, (match md.encryptedToKids with | none => some l | some l' => some l') = some (md.encryptedToKids.getD l) := by
      intro l; cases md.encryptedToKids <;> rfl
    refine openedFor opts.expectDecryptByAllKeys (TriedAuth C q.jwe q.protected_ q.apv kid s) (authDecryptWith C q kid s)
      (triedAuth q ha kid hf s) (kidsOf q.jwe) (fun alg u => pure (some u,
        { md with
          encrypted := true, authenticated := true
          encryptedToKids := (match md.encryptedToKids with | none => some (kidsOf q.jwe) | some l' => some l')
          encryptedFromKid := some kid, encAlgAuth := some alg })) _ ?_ ?_
    · intro e h; exact no _ (by rw [hf]; exact .failed hn hk h)
    · intro alg u h
      rw [hmd]
      exact Yields.pure ⟨_, .opened hrec hh ha hb (by rw [hf]; exact .opened hn hk h), rfl⟩

/-! ## Signatures -/

theorem signatureHeaders : ∀ l : List JwsSig, SignatureHeaders l (parseJwsHeaders l)
  | [] => .nil
  | s :: rest => by
    have ih := signatureHeaders rest
    have ht := headerText dJwsHeader s.protected_
    rw [parseJwsHeaders]
    rcases h1 : B64.decode s.protected_ with _ | b
    · exact .bad (.notBase64 h1)
    rcases h2 : fromJson dJwsHeader b with e | hdr
    · simp only [bind, Except.bind, okOr, h2]; exact .bad (.json h1 h2)
    rcases h3 : parseJwsHeaders rest with e | l
    · rw [h3] at ih
      simp only [bind, Except.bind, okOr, h2]; exact .later (.json h1 h2) ih
    · rw [h3] at ih
      simp only [bind, Except.bind, okOr, h2]; exact .cons (.json h1 h2) ih

theorem SignatureHeaders.length {l : List JwsSig} {hs : List JwsHeader} (h : SignatureHeaders l (.ok hs)) : hs.length = l.length := by
  induction l generalizing hs with
  | nil => cases h; rfl
  | cons s rest ih =>
    cases h with
    | cons _ hr => simp [ih hr]

theorem signLayer (t : Str) (md : UnpackMetadata) :
    Yields E (tryUnpackSign C t md) (fun r => ∃ r', SignLayer C E t r' ∧
      r = r'.map fun o => o.elim (none, md) fun x => (some x.2.2, md.seeSign x.1 x.2.1 t)) := by
  unfold tryUnpackSign
  have hrec := recognised dJws t
  change Recognised dJws t (recognise (jwsFromStr t)) at hrec
  refine Yields.liftBind (fun e h => ?_) (fun o h => ?_)
  · rw [h] at hrec; exact ⟨_, .cutOff hrec, rfl⟩
  rw [h] at hrec
  cases o with
  | none => exact Yields.pure ⟨_, .notJws hrec, rfl⟩
  | some j =>
    have hh := signatureHeaders j.signatures
    refine Yields.liftBind (fun e h => ?_) (fun p hp => ?_)
    · unfold JWS.parse at h
      rcases hs : parseJwsHeaders j.signatures with e' | l
      · rw [hs] at h hh; cases h; exact ⟨_, .badHeader hrec hh, rfl⟩
      · rw [hs] at h; cases h
    unfold JWS.parse at hp
    obtain ⟨l, hl, hp⟩ := res_bind_ok.1 hp
    cases hp
    rw [hl] at hh
    have hlen := hh.length
    split
    · rename_i hn
      exact Yields.fail ⟨_, .notOne hrec hh (by rw [← hlen]; exact hn), rfl⟩
    rename_i hn
    have hone : l.length = 1 := Classical.byContradiction hn
    obtain ⟨sigs, pl⟩ := j
    rw [hone] at hlen
    obtain ⟨hdr, rfl⟩ := List.length_eq_one_iff.1 hone
    obtain ⟨s, rfl⟩ := List.length_eq_one_iff.1 hlen.symm
    rw [lift_ok_bind (show okOr .invalidState [hdr].head? = .ok hdr from rfl),
      lift_ok_bind (show okOr .invalidState [s].head? = .ok s from rfl)]
    dsimp only
    have no : ∀ e, SignatureChecked C E s hdr pl (.error e) →
        ∃ r', SignLayer C E t r' ∧ (.error e : Res (Option Str × UnpackMetadata)) =
          r'.map fun o => o.elim (none, md) fun x => (some x.2.2, md.seeSign x.1 x.2.1 t) :=
      fun e h => ⟨_, .failed hrec hh h, rfl⟩
    split
    · rename_i hk
      exact Yields.fail (no _ (.notKey ((didOrUrl_isNone _).1 hk)))
    rename_i hk
    have hk : HasFragment s.kid := Classical.byContradiction fun h => hk ((didOrUrl_isNone _).2 h)
    rw [didOrUrl_fst]
    refine Yields.docBind (fun e h => no _ (.noDocument hk h)) (fun doc hd => ?_)
    refine Yields.liftBind (fun e h => ?_) (fun kid h => ?_)
    · obtain ⟨h', rfl⟩ := okOr_eq_error.1 h
      exact no _ (.noKey hk hd (.notListed (find_kid_none h')))
    obtain ⟨rfl, hl⟩ := find_kid (okOr_eq_ok.1 h)
    rw [find_method]
    refine Yields.liftBind (fun e h => ?_) (fun vm h => ?_)
    · obtain ⟨h', rfl⟩ := okOr_eq_error.1 h
      exact no _ (.noKey hk hd (.noMethod hl h'))
    have hm := okOr_eq_ok.1 h
    refine Yields.liftBind (fun e h => ?_) (fun curve h3 => ?_)
    · obtain ⟨rfl, h'⟩ := no_scheme h
      exact no _ (.noKey hk hd (.unknownAlg hl hm h'))
    refine Yields.liftBind (fun e h =>
      no _ (.noKey hk hd (signersKey_error (p := ⟨[], hdr.alg, s.kid⟩) hl hm h3 h))) (fun key h4 => ?_)
    obtain ⟨st, _, _, hst⟩ := scheme_of_curve h3
    obtain ⟨sa, hsa, hs⟩ := scheme_of h3 hst
    have hkey : SignersKey C doc s.kid hdr.alg (.ok (curve, st, key)) := .key hl hm hs (as_iff.1 h4)
    have dj : dotJoin s.protected_ pl = s.protected_ ++ b!"." ++ pl := by simp [dotJoin]
    have hve : ParsedJWS.verify C ⟨⟨[s], pl⟩, [hdr]⟩ s.kid curve key =
        (okOr .malformed (B64.decode s.signature) >>= fun raw =>
          okOr .malformed (C.verify curve key (s.protected_ ++ b!"." ++ pl) raw st)) := by
      unfold ParsedJWS.verify
      simp only [findSig, if_true, okOr, bind, Except.bind, List.getElem?_cons_zero, hst, dj]
    rw [hve]
    refine Yields.liftBind (fun e h => ?_) (fun valid hv => ?_)
    · have he : e = .kind .malformed := by
        rcases res_bind_error.1 h with h | ⟨_, _, h⟩
        · exact (okOr_eq_error.1 h).2
        · exact (okOr_eq_error.1 h).2
      subst he
      refine no _ (.notVerified hk hd hkey fun raw hr hv => ?_)
      rw [hr] at h
      simp only [okOr, bind, Except.bind, hv] at h
      cases h
    obtain ⟨raw, hr, hv⟩ := res_bind_ok.1 hv
    have hr := okOr_eq_ok.1 hr
    have hv := okOr_eq_ok.1 hv
    split
    · rename_i hb; subst hb
      refine Yields.fail (no _ (.notVerified hk hd hkey fun raw' hr' hv' => ?_))
      rw [hr] at hr'; cases hr'; rw [hv] at hv'; cases hv'
    rename_i hb
    have hb : valid = true := by simpa using hb
    subst hb
    refine Yields.liftBind (fun e h => ?_) (fun payload h => ?_)
    · obtain ⟨h', rfl⟩ := okOr_eq_error.1 h
      exact no _ (.notText hk hd hkey hr hv fun _ h2 => by rw [h'] at h2; cases h2)
    have hpl := okOr_eq_ok.1 h
    split
    · rename_i hu
      refine Yields.fail (no _ (.notText hk hd hkey hr hv fun _ h' hu' => ?_))
      rw [hpl] at h'; cases h'
      rw [(validUtf8_iff _).2 hu'] at hu; cases hu
    rename_i hu
    have hu : IsUtf8 payload := (validUtf8_iff _).1 (by simpa using hu)
    rw [hsa]
    exact Yields.pure ⟨_, .signed hrec hh (.verified hk hd hkey hs hr hv hpl hu), rfl⟩

/-! ## The message -/

theorem plainLayer (t : Str) (md : UnpackMetadata) :
    Yields E (tryUnpackPlaintext C t md >>= fun x => Prog.lift (okOr .malformed x.1) >>= fun m => pure (m, x.2))
      (fun r => ∃ r', PlainLayer C E t r' ∧ r = r'.map fun x => (x.1, md.seePrior x.2)) := by
  unfold tryUnpackPlaintext
  have hrec := recognised (dMessage C.f64) t
  change Recognised (dMessage C.f64) t (recognise (messageFromStr C t)) at hrec
  refine Yields.bind (Q := fun r => (∃ e, r = .error e ∧ PlainLayer C E t (.error e)) ∨
    (r = .ok (none, md) ∧ PlainLayer C E t (.error (.kind .malformed))) ∨
    ∃ m p, r = .ok (some m, md.seePrior p) ∧ PlainLayer C E t (.ok (m, p))) ?_ ?_ ?_
  · refine Yields.liftBind (fun e h => ?_) (fun o h => ?_)
    · rw [h] at hrec; exact .inl ⟨_, rfl, .cutOff hrec⟩
    rw [h] at hrec
    cases o with
    | none => exact Yields.pure (.inr (.inl ⟨rfl, .notMessage hrec⟩))
    | some m =>
      refine Yields.liftBind (fun e h => ?_) (fun m' h => ?_)
      · unfold Message.validate at h
        split at h
        · rename_i ht; cases h; exact .inl ⟨_, rfl, .otherTyp hrec ht⟩
        · cases h
      have ht : m.typ = b!"application/didcomm-plain+json" ∧ m' = m := by
        unfold Message.validate at h
        split at h
        · cases h
        · rename_i ht; cases h; exact ⟨Classical.byContradiction ht, rfl⟩
      obtain ⟨ht, rfl⟩ := ht
      split
      · rename_i hp
        exact Yields.pure (.inr (.inr ⟨_, none, rfl, .plain hrec ht hp⟩))
      · rename_i jwt hp
        refine Yields.bind (priorRead jwt) (fun e h => .inl ⟨_, rfl, .badPrior hrec ht hp h⟩) ?_
        rintro ⟨fp, kid⟩ h
        exact Yields.pure (.inr (.inr ⟨_, some (fp, kid), rfl, .prior hrec ht hp h⟩))
  · rintro e (⟨e', h, hp⟩ | ⟨h, _⟩ | ⟨m, p, h, _⟩)
    · cases h; exact ⟨_, hp, rfl⟩
    · cases h
    · cases h
  · rintro a (⟨e', h, hp⟩ | ⟨h, hp⟩ | ⟨m, p, h, hp⟩)
    · cases h
    · cases h
      exact Yields.liftBind (fun e h => by cases h; exact ⟨_, hp, rfl⟩) (fun a h => by cases h)
    · cases h
      refine Yields.liftBind (fun e h => by cases h) (fun a h => ?_)
      cases h
      exact Yields.pure ⟨_, hp, rfl⟩

theorem ours (next : Str) : Yields E (hasKeyAgreementSecret next) (Ours E next) := by
  unfold hasKeyAgreementSecret
  have h1 := didOrUrl_fst next
  have h2 := didOrUrl_snd next
  generalize didOrUrl next = x at h1 h2
  obtain ⟨did, kid⟩ := x
  by_cases hf : HasFragment next
  · rw [if_pos hf] at h2
    cases h2
    refine Yields.bind (Q := fun r => r = .ok [next]) (Yields.pure rfl) (fun e h => by cases h) (fun a h => ?_)
    cases h
    exact Yields.findBind (fun k h => .keyFailed hf h) (fun found h => Yields.pure (.key hf h))
  · rw [if_neg hf] at h2
    cases h2
    rw [didOf_self hf] at h1
    cases h1
    refine Yields.bind (Q := fun r => (∃ e, r = .error e ∧ Document E did (.error e)) ∨
      ∃ doc, r = .ok doc.keyAgreement ∧ Document E did (.ok doc)) ?_ ?_ ?_
    · exact Yields.docBind (fun e h => .inl ⟨e, rfl, h⟩) (fun doc h => Yields.pure (.inr ⟨doc, rfl, h⟩))
    · rintro e (⟨e', h, hd⟩ | ⟨doc, h, _⟩)
      · cases h; exact .noDocument hf hd
      · cases h
    · rintro e (⟨e', h, hd⟩ | ⟨doc, h, hd⟩)
      · cases h
      · cases h
        exact Yields.findBind (fun k h => .didFailed hf hd h) (fun found h => Yields.pure (.did hf hd h))

theorem forwardInside (t : Str) : Yields E (tryUnwrapForwarded C t) (ForwardInside C E t) := by
  unfold tryUnwrapForwarded
  have hrec := recognised (dMessage C.f64) t
  change Recognised (dMessage C.f64) t (recognise (messageFromStr C t)) at hrec
  refine Yields.liftBind (fun e h => ?_) (fun o h => ?_)
  · rw [h] at hrec; exact .cutOff hrec
  rw [h] at hrec
  cases o with
  | none => exact Yields.pure (.notMessage hrec)
  | some m =>
    dsimp only
    cases hf : tryParseForward m with
    | none =>
      refine Yields.pure (.notForward hrec fun next v h => ?_)
      rw [(C41_only m next v).2 h] at hf; cases hf
    | some f =>
      obtain ⟨next, v⟩ := f
      have hf : IsForward m next v := (C41_only m next v).1 hf
      refine Yields.bind (ours next) (fun e h => .failed hrec hf h) (fun b h => ?_)
      cases b with
      | true => exact Yields.pure (.ours hrec hf h)
      | false => exact Yields.pure (.others hrec hf h)

/-! ## Unpacking -/

theorem unwraps (opts : UnpackOptions) : ∀ (n : Nat) (t : Str) (md : UnpackMetadata),
    Yields E (unwrapLoop C opts n t md) (fun r => r = .error .fuel ∨ Unwraps C E opts t md r) := by
  intro n
  induction n with
  | zero => intro t md; exact Yields.ret (.inl rfl)
  | succ n ih =>
    intro t md
    rw [unwrapLoop]
    refine Yields.bind (anonLayer t opts md) ?_ ?_
    · rintro e ⟨r', h, h'⟩
      cases r' with
      | ok o => cases h'
      | error e' => cases h'; exact .inr (.failed h)
    · rintro a ⟨r', h, h'⟩
      cases r' with
      | error e' => cases h'
      | ok o =>
        cases o with
        | none => cases h'; exact Yields.pure (.inr (.none h))
        | some x =>
          obtain ⟨kids, alg, u⟩ := x
          cases h'
          dsimp only [Option.elim]
          split
          · rename_i ho
            refine Yields.bind (forwardInside u) (fun e hf => .inr (.forwardFailed h ho hf)) (fun w hf => ?_)
            cases w with
            | none => exact Yields.pure (.inr (.last h ho hf))
            | some w => exact (ih w _).mono fun r hr => hr.imp id (.again h ho hf)
          · rename_i ho
            exact Yields.pure (.inr (.notAsked h (by simpa using ho)))

theorem unpacked (t : Str) (opts : UnpackOptions) :
    Yields E (unpack C t opts) (fun r => r = .error .fuel ∨ Unpacked C E opts t r) := by
  unfold unpack
  refine Yields.bind (unwraps opts _ t {}) (fun e h => h.imp (fun h => by cases h; rfl) .unwrapFailed) ?_
  rintro ⟨u, md⟩ (h | hu)
  · cases h
  refine Yields.bind (authLayer u opts md) ?_ ?_
  · rintro e ⟨r', h, h'⟩
    cases r' with
    | ok o => cases h'
    | error e' => cases h'; exact .inr (.authFailed hu h)
  rintro x ⟨r', ha, h'⟩
  cases r' with
  | error e' => cases h'
  | ok a =>
    have hx : x.1.getD u = (pastAuth u md a).1 ∧ x.2 = (pastAuth u md a).2 := by
      cases h'; cases a with
      | none => exact ⟨rfl, rfl⟩
      | some y => exact ⟨rfl, rfl⟩
    obtain ⟨au, amd⟩ := x
    dsimp only at hx ⊢
    rw [hx.1, hx.2]
    refine Yields.bind (signLayer _ _) ?_ ?_
    · rintro e ⟨r', h, h'⟩
      cases r' with
      | ok o => cases h'
      | error e' => cases h'; exact .inr (.signFailed hu ha h)
    rintro x ⟨r', hs, h'⟩
    cases r' with
    | error e' => cases h'
    | ok s =>
      have hx : x.1.getD (pastAuth u md a).1 = (pastSign (pastAuth u md a).1 (pastAuth u md a).2 s).1 ∧
          x.2 = (pastSign (pastAuth u md a).1 (pastAuth u md a).2 s).2 := by
        cases h'; cases s with
        | none => exact ⟨rfl, rfl⟩
        | some y => exact ⟨rfl, rfl⟩
      obtain ⟨su, smd⟩ := x
      dsimp only at hx ⊢
      rw [hx.1, hx.2]
      refine (plainLayer _ _).mono ?_
      rintro r ⟨r', hp, rfl⟩
      cases r' with
      | error e => exact .inr (.plainFailed hu ha hs hp)
      | ok y => exact .inr (.unpacked hu ha hs hp)

end DIDComm
