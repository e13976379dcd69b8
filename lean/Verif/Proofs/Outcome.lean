import Verif.Spec.Outcome
import Verif.Props.Prior
import Verif.Proofs.Reparse
import Verif.Proofs.ParseTotal

/-! # How the outcomes of packing are proved -/

set_option autoImplicit false

namespace DIDComm

variable {C : Crypto} {E : Env} {α β : Type}

namespace Yields

theorem lift {x : Res α} {P : Res α → Prop} (h : P x) : Yields E (Prog.lift x) P := by
  intro tr r hr _; obtain ⟨_, rfl⟩ := runs_lift.1 hr; exact h

theorem pure {x : α} {P : Res α → Prop} (h : P (.ok x)) : Yields E (Pure.pure x : Prog α) P := by
  intro tr r hr _; obtain ⟨_, rfl⟩ := runs_pure.1 hr; exact h

theorem ret {x : Res α} {P : Res α → Prop} (h : P x) : Yields E (.ret x) P := by
  intro tr r hr _; obtain ⟨_, rfl⟩ := runs_ret.1 hr; exact h

theorem fail {k : ErrorKind} {P : Res α → Prop} (h : P (.error (.kind k))) : Yields E (Prog.fail k : Prog α) P := by
  intro tr r hr _; obtain ⟨_, rfl⟩ := runs_fail.1 hr; exact h

theorem mono {p : Prog α} {P Q : Res α → Prop} (h : Yields E p P) (hi : ∀ r, P r → Q r) : Yields E p Q :=
  fun tr r hr ha => hi r (h tr r hr ha)

theorem bind {p : Prog α} {f : α → Prog β} {Q : Res α → Prop} {P : Res β → Prop} (hp : Yields E p Q)
    (he : ∀ e, Q (.error e) → P (.error e)) (ho : ∀ a, Q (.ok a) → Yields E (f a) P) : Yields E (p >>= f) P := by
  intro tr r hr ha
  rcases runs_bind.1 hr with ⟨e, h, rfl⟩ | ⟨a, t1, t2, rfl, h1, h2⟩
  · exact he e (hp _ _ h ha)
  · obtain ⟨ha1, ha2⟩ := answers_append.1 ha
    exact ho a (hp _ _ h1 ha1) _ _ h2 ha2

theorem liftBind {x : Res α} {f : α → Prog β} {P : Res β → Prop} (he : ∀ e, x = .error e → P (.error e))
    (ho : ∀ a, x = .ok a → Yields E (f a) P) : Yields E (Prog.lift x >>= f) P :=
  bind (Q := fun r => x = r) (lift rfl) he ho

theorem resolve' {d : Str} : Yields E (resolve d) (fun r => (∃ x, E.resolve d = .ok x ∧ r = .ok x) ∨
    ∃ k, E.resolve d = .error k ∧ r = .error (.kind k)) := by
  intro tr r hr ha
  rcases runs_resolve.1 hr with ⟨x, rfl, rfl⟩ | ⟨k, rfl, rfl⟩
  · exact .inl ⟨x, ((answers_cons.1 ha).1).symm, rfl⟩
  · exact .inr ⟨k, ((answers_cons.1 ha).1).symm, rfl⟩

theorem find' {d : List Str} : Yields E (findSecrets d) (fun r => (∃ x, E.findSecrets d = .ok x ∧ r = .ok x) ∨
    ∃ k, E.findSecrets d = .error k ∧ r = .error (.kind k)) := by
  intro tr r hr ha
  rcases runs_findSecrets.1 hr with ⟨x, rfl, rfl⟩ | ⟨k, rfl, rfl⟩
  · exact .inl ⟨x, ((answers_cons.1 ha).1).symm, rfl⟩
  · exact .inr ⟨k, ((answers_cons.1 ha).1).symm, rfl⟩

theorem get' {d : Str} : Yields E (getSecret d) (fun r => (∃ x, E.getSecret d = .ok x ∧ r = .ok x) ∨
    ∃ k, E.getSecret d = .error k ∧ r = .error (.kind k)) := by
  intro tr r hr ha
  rcases runs_getSecret.1 hr with ⟨x, rfl, rfl⟩ | ⟨k, rfl, rfl⟩
  · exact .inl ⟨x, ((answers_cons.1 ha).1).symm, rfl⟩
  · exact .inr ⟨k, ((answers_cons.1 ha).1).symm, rfl⟩

theorem findBind {d : List Str} {f : List Str → Prog β} {P : Res β → Prop}
    (he : ∀ k, E.findSecrets d = .error k → P (.error (.kind k))) (ho : ∀ l, E.findSecrets d = .ok l → Yields E (f l) P) :
    Yields E (findSecrets d >>= f) P := by
  refine bind find' ?_ ?_
  · rintro e (⟨x, _, h⟩ | ⟨k, h, h'⟩)
    · cases h
    · cases h'; exact he k h
  · rintro a (⟨x, h, h'⟩ | ⟨k, _, h'⟩)
    · cases h'; exact ho _ h
    · cases h'

theorem getBind {d : Str} {f : Option Secret → Prog β} {P : Res β → Prop}
    (he : ∀ k, E.getSecret d = .error k → P (.error (.kind k))) (ho : ∀ l, E.getSecret d = .ok l → Yields E (f l) P) :
    Yields E (getSecret d >>= f) P := by
  refine bind get' ?_ ?_
  · rintro e (⟨x, _, h⟩ | ⟨k, h, h'⟩)
    · cases h
    · cases h'; exact he k h
  · rintro a (⟨x, h, h'⟩ | ⟨k, _, h'⟩)
    · cases h'; exact ho _ h
    · cases h'

theorem docBind {d : Str} {f : DIDDoc → Prog β} {P : Res β → Prop}
    (he : ∀ e, Document E d (.error e) → P (.error e)) (ho : ∀ doc, Document E d (.ok doc) → Yields E (f doc) P) :
    Yields E (resolve d >>= fun doc => Prog.lift (okOr .didNotResolved doc) >>= f) P := by
  refine bind resolve' ?_ ?_
  · rintro e (⟨x, _, h⟩ | ⟨k, h, h'⟩)
    · cases h
    · cases h'; exact he _ (.failed h)
  · rintro a (⟨x, h, h'⟩ | ⟨k, _, h'⟩)
    · cases h'
      cases a with
      | none => exact liftBind (fun e h' => by cases h'; exact he _ (.unknown h)) (fun _ h' => by cases h')
      | some doc => exact liftBind (fun e h' => by cases h') (fun _ h' => by cases h'; exact ho _ (.found h))
    · cases h'

theorem randomBind {f : Nat → Prog β} {P : Res β → Prop} (h : ∀ n, Yields E (f n) P) : Yields E (random >>= f) P := by
  refine bind (Q := fun r => ∃ n, r = .ok n) ?_ ?_ ?_
  · intro tr r hr _
    obtain ⟨n, _, rfl⟩ := runs_random.1 hr
    exact ⟨n, rfl⟩
  · rintro e ⟨n, h⟩; cases h
  · rintro a ⟨n, h'⟩; exact h a

theorem ownKey {kids : List Str} {f : Str → KeyPair C → Prog β} {P : Res β → Prop}
    (he : ∀ e, OwnKey C E kids (.error e) → P (.error e)) (ho : ∀ kid p, OwnKey C E kids (.ok (kid, p)) → Yields E (f kid p) P) :
    Yields E (findSecrets kids >>= fun found => Prog.lift (okOr .secretNotFound found.head?) >>= fun kid =>
      getSecret kid >>= fun secret => Prog.lift (okOr .secretNotFound secret) >>= fun secret =>
      Prog.lift (secret.asKeyPair C) >>= fun pair => f kid pair) P := by
  refine findBind (fun k h => he _ (.findFailed h)) ?_
  rintro (_ | ⟨kid, rest⟩) hf
  · exact liftBind (fun e h => by cases h; exact he _ (.nothing hf)) (fun a h => by cases h)
  · refine liftBind (fun e h => by cases h) (fun a h => ?_)
    cases h
    refine getBind (fun k h => he _ (.getFailed hf h)) ?_
    rintro (_ | s) hg
    · exact liftBind (fun e h => by cases h; exact he _ (.gone hf hg)) (fun a h => by cases h)
    · refine liftBind (fun e h => by cases h) (fun a h => ?_)
      cases h
      exact liftBind (fun e h => he _ (.unreadable hf hg h)) (fun p h => ho _ _ (.key hf hg h))

end Yields

/-! ## Compact JWS -/

theorem splitOn_no {c : UInt8} {s : Str} : ∀ p ∈ splitOn c s, c ∉ p := by
  induction s with
  | nil => intro p hp; simp [splitOn] at hp; subst hp; simp
  | cons b r ih =>
    intro p hp
    simp only [splitOn] at hp
    split at hp
    · rcases List.mem_cons.1 hp with rfl | hp
      · simp
      · exact ih p hp
    · rename_i hb
      split at hp
      · rename_i q qs heq
        rcases List.mem_cons.1 hp with rfl | hp
        · have := ih q (by rw [heq]; simp)
          simp only [List.mem_cons, not_or]
          exact ⟨fun h => hb h.symm, this⟩
        · exact ih p (by rw [heq]; simp [hp])
      · simp at hp; subst hp
        simp only [List.mem_cons, not_or, List.not_mem_nil, not_false_eq_true, and_true]
        exact fun h => hb h.symm

theorem splitOn_three {s h pl sig : Str} : splitOn 0x2E s = [h, pl, sig] ↔
    s = h ++ b!"." ++ pl ++ b!"." ++ sig ∧ 0x2E ∉ h ∧ 0x2E ∉ pl ∧ 0x2E ∉ sig := by
  constructor
  · intro hs
    have hj := joinWith_splitOn 0x2E s
    have hn := splitOn_no (c := 0x2E) (s := s)
    rw [hs] at hj hn
    refine ⟨?_, hn h (by simp), hn pl (by simp), hn sig (by simp)⟩
    rw [← hj]; simp [joinWith]
  · rintro ⟨rfl, h1, h2, h3⟩
    have n : ∀ {t : Str}, 0x2E ∉ t → ∀ x ∈ t, x ≠ 0x2E := fun ht x hx he => ht (he ▸ hx)
    have e : h ++ b!"." ++ pl ++ b!"." ++ sig = h ++ 0x2E :: (pl ++ 0x2E :: sig) := by simp
    rw [e, splitOn_sym _ (n h1), splitOn_sym _ (n h2), splitOn_last (n h3)]

theorem withKind_error {x : Res α} {k : ErrorKind} {e : Err} (hx : ∀ e, x = .error e → ∃ k, e = .kind k)
    (h : withKind k x = .error e) : e = .kind k := by
  rcases x with (_ | _ | _) | _
  · simp [withKind] at h; exact h.symm
  · obtain ⟨_, h⟩ := hx _ rfl; cases h
  · obtain ⟨_, h⟩ := hx _ rfl; cases h
  · simp [withKind] at h

theorem fromJson_kind {d : Nat → Tree → Option α} {_ : Early d} {s : Str} : ∀ e, fromJson d s = .error e → ∃ k, e = .kind k := by
  intro e h
  rcases fromJson_tame d s with ⟨a, h'⟩ | ⟨k, h'⟩
  · rw [h] at h'; cases h'
  · rw [h] at h'; cases h'; exact ⟨k, rfl⟩

/-- The parts of a compact JWS: without the checks of `typ` and `kid`. -/
def CompactForm (jwt : Str) (p : ParsedCompactJWS) : Prop :=
  jwt = p.header ++ b!"." ++ p.payload ++ b!"." ++ p.signature ∧ (0x2E ∉ p.header ∧ 0x2E ∉ p.payload ∧ 0x2E ∉ p.signature) ∧
  ∃ b, B64.decode p.header = some b ∧ fromJson dCompactHeader b = .ok p.parsedHeader

theorem parseCompact_ok {jwt : Str} {p : ParsedCompactJWS} : parseCompact jwt = .ok p ↔ CompactForm jwt p := by
  unfold parseCompact CompactForm
  constructor
  · intro h
    split at h
    · rename_i hd pl sig hs
      obtain ⟨b, h1, h⟩ := res_bind_ok.1 h
      obtain ⟨hh, h2, h⟩ := res_bind_ok.1 h
      cases h
      obtain ⟨e1, e2⟩ := splitOn_three.1 hs
      exact ⟨e1, e2, b, okOr_eq_ok.1 h1, withKind_eq_ok.1 h2⟩
    · cases h
  · rintro ⟨h1, h2, b, h3, h4⟩
    rw [splitOn_three.2 ⟨h1, h2⟩]
    refine res_bind_ok.2 ⟨b, okOr_eq_ok.2 h3, res_bind_ok.2 ⟨_, withKind_eq_ok.2 h4, rfl⟩⟩

theorem parseCompact_error {jwt : Str} {e : Err} (h : parseCompact jwt = .error e) : e = .kind .malformed := by
  unfold parseCompact at h
  split at h
  · rcases res_bind_error.1 h with h | ⟨b, h1, h⟩
    · exact (okOr_eq_error.1 h).2
    · rcases res_bind_error.1 h with h | ⟨hh, h2, h⟩
      · exact withKind_error fromJson_kind h
      · cases h
  · cases h; rfl

/-! ## Keys -/

theorem as_iff {vm : VerificationMethod} {c : Curve} {k : C.Key} : vm.as C c = .ok k ↔ vm.asKeyPair C = .ok ⟨c, k⟩ :=
  ⟨fun h => (as_ok h).2, as_of_pair⟩

theorem as_error {vm : VerificationMethod} {c : Curve} {e : Err} (h : vm.as C c = .error e) :
    (vm.keyAlg ≠ some c ∧ e = .kind .invalidState) ∨ (vm.keyAlg = some c ∧ vm.asKeyPair C = .error e) := by
  unfold VerificationMethod.as asCurve at h
  split at h
  · rename_i hn; cases h; exact .inl ⟨hn, rfl⟩
  · rename_i hn
    have hn : vm.keyAlg = some c := Classical.byContradiction hn
    rcases res_bind_error.1 h with h | ⟨p, hp, h⟩
    · exact .inr ⟨hn, h⟩
    · have := asKeyPair_keyAlg hp
      rw [hn] at this
      rw [if_pos (by simpa using this.symm)] at h
      cases h

theorem secret_keyAlg {s : Secret} {k : KeyPair C} (h : s.asKeyPair C = .ok k) : s.keyAlg = some k.curve := by
  unfold Secret.asKeyPair x25519Secret ed25519Secret pairFromJwk at h
  unfold Secret.keyAlg keyAlg
  split at h
  · split at h
    · rename_i c hc
      simp only [res_bind_ok, Except.ok.injEq] at h
      obtain ⟨_, _, rfl⟩ := h
      simpa using hc
    · cases h
  all_goals first
    | (simp only [res_bind_ok, Except.ok.injEq] at h
       obtain ⟨_, _, _, _, _, _, rfl⟩ := h
       simp_all)
    | (obtain ⟨_, _, h⟩ := res_bind_ok.1 h
       split at h
       · cases h
       · simp only [res_bind_ok, Except.ok.injEq] at h
         obtain ⟨_, _, rfl⟩ := h
         simp_all)
    | cases h

theorem secretAs_error {s : Secret} {c : Curve} {e : Err} (h : s.as C c = .error e) :
    (s.keyAlg ≠ some c ∧ e = .kind .invalidState) ∨ (s.keyAlg = some c ∧ s.asKeyPair C = .error e) := by
  unfold Secret.as asCurve at h
  split at h
  · rename_i hn; cases h; exact .inl ⟨hn, rfl⟩
  · rename_i hn
    have hn : s.keyAlg = some c := Classical.byContradiction hn
    rcases res_bind_error.1 h with h | ⟨p, hp, h⟩
    · exact .inr ⟨hn, h⟩
    · have := secret_keyAlg hp
      rw [hn] at this
      rw [if_pos (by simpa using this.symm)] at h
      cases h

theorem scheme_of_curve {a : JwsAlg} {c : Curve} (h : curveFor a = .ok c) : ∃ st sa, Scheme a c st sa ∧ a.sigType = .ok st := by
  cases a <;> simp [curveFor, fail] at h <;> subst h
  · exact ⟨_, _, .edDSA, rfl⟩
  · exact ⟨_, _, .es256, rfl⟩
  · exact ⟨_, _, .es256k, rfl⟩

theorem no_scheme {a : JwsAlg} {e : Err} (h : curveFor a = .error e) : e = .kind .unsupported ∧ ∀ c st sa, ¬ Scheme a c st sa := by
  cases a <;> simp [curveFor, fail] at h
  exact ⟨h.symm, fun c st sa hs => by cases hs⟩

theorem find_kid {l : List Str} {kid k : Str} (h : l.find? (fun a => a == kid) = some k) : k = kid ∧ kid ∈ l := by
  have h1 := List.find?_some h
  have h2 := List.mem_of_find?_eq_some h
  simp at h1; subst h1; exact ⟨rfl, h2⟩

theorem find_kid_none {l : List Str} {kid : Str} (h : l.find? (fun a => a == kid) = none) : kid ∉ l := by
  intro hm; exact absurd (List.find?_eq_none.1 h _ hm) (by simp)

/-! ## Reading and issuing `from_prior` -/

theorem signersKey_error {p : CompactHeader} {doc : DIDDoc} {vm : VerificationMethod} {curve : Curve} {e : Err}
    (h1 : p.kid ∈ doc.authentication) (h2 : methodOf doc p.kid = some vm) (h3 : curveFor p.alg = .ok curve)
    (h4 : vm.as C curve = .error e) : SignersKey C doc p.kid p.alg (.error e) := by
  obtain ⟨st, sa, hs, _⟩ := scheme_of_curve h3
  rcases as_error h4 with ⟨h, rfl⟩ | ⟨h, h'⟩
  · exact .otherType h1 h2 hs h
  · exact .unreadable h1 h2 hs h h'

theorem priorRead (jwt : Str) : Yields E (FromPrior.unpack C jwt) (PriorRead C E jwt) := by
  unfold FromPrior.unpack
  refine Yields.liftBind (fun e h => ?_) (fun p hp => ?_)
  · rw [parseCompact_error h]
    refine .notJwt fun hd pl sig hdr hf => ?_
    have := parseCompact_ok.2 (show CompactForm jwt ⟨hd, hdr, pl, sig⟩ from ⟨hf.parts, hf.dots, hf.header⟩)
    rw [h] at this; cases this
  have hc := parseCompact_ok.1 hp
  have uniq : ∀ hd pl sig hdr, JwtForm jwt hd pl sig hdr → hdr = p.parsedHeader := by
    intro hd pl sig hdr hf
    have := parseCompact_ok.2 (show CompactForm jwt ⟨hd, hdr, pl, sig⟩ from ⟨hf.parts, hf.dots, hf.header⟩)
    rw [hp] at this; cases this; rfl
  split
  · rename_i ht
    exact Yields.fail (.notJwt fun hd pl sig hdr hf => ht (uniq _ _ _ _ hf ▸ hf.typ))
  rename_i ht
  have ht : p.parsedHeader.typ = b!"JWT" := Classical.byContradiction ht
  dsimp only
  split
  · rename_i hk
    exact Yields.fail (.notJwt fun hd pl sig hdr hf => (didOrUrl_isNone _).1 hk (uniq _ _ _ _ hf ▸ hf.kid))
  rename_i hk
  have hk : HasFragment p.parsedHeader.kid := Classical.byContradiction fun h => hk ((didOrUrl_isNone _).2 h)
  have hf : JwtForm jwt p.header p.payload p.signature p.parsedHeader := ⟨hc.1, hc.2.1, hc.2.2, ht, hk⟩
  rw [didOrUrl_fst]
  refine Yields.docBind (fun e h => .noDocument hf h) (fun doc hd => ?_)
  refine Yields.liftBind (fun e h => ?_) (fun kid h => ?_)
  · obtain ⟨h', rfl⟩ := okOr_eq_error.1 h
    exact .noKey hf hd (.notListed (find_kid_none h'))
  obtain ⟨rfl, hl⟩ := find_kid (okOr_eq_ok.1 h)
  rw [find_method]
  refine Yields.liftBind (fun e h => ?_) (fun vm h => ?_)
  · obtain ⟨h', rfl⟩ := okOr_eq_error.1 h
    exact .noKey hf hd (.noMethod hl h')
  have hm := okOr_eq_ok.1 h
  refine Yields.liftBind (fun e h => ?_) (fun curve h3 => ?_)
  · obtain ⟨rfl, h'⟩ := no_scheme h
    exact .noKey hf hd (.unknownAlg hl hm h')
  refine Yields.liftBind (fun e h => .noKey hf hd (signersKey_error hl hm h3 h)) (fun key h4 => ?_)
  obtain ⟨st, sa, hs, hst⟩ := scheme_of_curve h3
  have hkey : SignersKey C doc p.parsedHeader.kid p.parsedHeader.alg (.ok (curve, st, key)) := .key hl hm hs (as_iff.1 h4)
  have dj : dotJoin p.header p.payload = p.header ++ b!"." ++ p.payload := by simp [dotJoin]
  have hver : ∀ b, p.verify C curve key = .ok b ↔
      ∃ raw, B64.decode p.signature = some raw ∧ C.verify curve key (p.header ++ b!"." ++ p.payload) raw st = some b := by
    intro b
    unfold ParsedCompactJWS.verify
    rw [hst, dj]
    simp only [res_bind_ok, okOr_eq_ok, Except.ok.injEq, exists_eq_left']
  refine Yields.liftBind (fun e h => ?_) (fun valid hv => ?_)
  · have he : e = .kind .malformed := by
      unfold ParsedCompactJWS.verify at h
      rw [hst] at h
      rcases res_bind_error.1 h with h | ⟨_, _, h⟩
      · cases h
      · rcases res_bind_error.1 h with h | ⟨_, _, h⟩
        · exact (okOr_eq_error.1 h).2
        · exact (okOr_eq_error.1 h).2
    subst he
    refine .notVerified hf hd hkey fun raw hr hv => ?_
    rw [(hver true).2 ⟨raw, hr, hv⟩] at h; cases h
  obtain ⟨raw, hr, hv⟩ := (hver valid).1 hv
  split
  · rename_i hb; subst hb
    refine Yields.fail (.notVerified hf hd hkey fun raw' hr' hv' => ?_)
    rw [hr] at hr'; cases hr'; rw [hv] at hv'; cases hv'
  rename_i hb
  have hb : valid = true := by simpa using hb
  subst hb
  refine Yields.liftBind (fun e h => ?_) (fun payload h => ?_)
  · obtain ⟨h', rfl⟩ := okOr_eq_error.1 h
    exact .notClaims hf hd hkey hr hv fun _ _ h2 => by rw [h'] at h2; cases h2
  have hpl := okOr_eq_ok.1 h
  split
  · rename_i hu
    refine Yields.fail (.notClaims hf hd hkey hr hv fun _ _ h' hu' => ?_)
    rw [hpl] at h'; cases h'
    rw [(validUtf8_iff _).2 hu'] at hu; cases hu
  rename_i hu
  have hu : IsUtf8 payload := (validUtf8_iff _).1 (by simpa using hu)
  refine Yields.liftBind (fun e h => ?_) (fun fp h => ?_)
  · cases withKind_error fromJson_kind h
    refine .notClaims hf hd hkey hr hv fun _ fp h' _ hc => ?_
    rw [hpl] at h'; cases h'
    rw [hc] at h; cases h
  · exact Yields.lift (.read hf hd hkey hr hv hpl hu (withKind_eq_ok.1 h))

theorem validatePack_error {f : FromPrior} {k : Option Str} {e : Err} (h : f.validatePack k = .error e) :
    (¬ TwoDids f ∧ e = .kind .malformed) ∨
    (TwoDids f ∧ ∃ kid, k = some kid ∧ ¬ (HasFragment kid ∧ didOf kid = f.iss) ∧ e = .kind .illegalArgument) := by
  have hd : ∀ s : Str, (isDid s = false ∨ (didOrUrl s).2.isSome = true) ↔ ¬ PlainDid s := by
    intro s
    unfold PlainDid
    rw [← C46_is_did, ← didOrUrl_isSome, Classical.not_and_iff_not_or_not]
    cases isDid s <;> cases (didOrUrl s).2 <;> simp
  unfold FromPrior.validatePack at h
  split at h
  · rename_i h1; cases h; exact .inl ⟨fun h2 => (hd _).1 h1 h2.1, rfl⟩
  rename_i h1
  split at h
  · rename_i h2; cases h; exact .inl ⟨fun h3 => (hd _).1 h2 h3.2.1, rfl⟩
  rename_i h2
  split at h
  · rename_i h3; cases h; exact .inl ⟨fun h4 => h4.2.2 h3, rfl⟩
  rename_i h3
  have ht : TwoDids f := ⟨Classical.byContradiction fun h => h1 ((hd _).2 h), Classical.byContradiction fun h => h2 ((hd _).2 h), h3⟩
  split at h
  · cases h
  · rename_i kid
    split at h
    · rename_i h4; cases h; exact .inr ⟨ht, kid, rfl, fun h5 => (didOrUrl_isNone _).1 h4 h5.1, rfl⟩
    · split at h
      · rename_i h4; cases h; rw [didOrUrl_fst] at h4; exact .inr ⟨ht, kid, rfl, fun h5 => h4 h5.2, rfl⟩
      · cases h

/-- Only the kind of outcome of signing matters. -/
theorem signs_of {p : KeyPair C} {kid : Str} {f : JwsAlg → Res Str} (hf : ∀ alg st, alg.sigType = .ok st →
      (∃ out, f alg = .ok out) ∨ (f alg = .error (.kind .invalidState) ∧ ∃ t, C.sign p.curve p.key t st = none))
    {P : Res (Str × Str) → Prop} (h : ∀ r : Res (Str × Str), Signs C p (r.map fun _ => ()) →
      (∀ x, r = .ok x → x.2 = kid) → P r) :
    Yields E (Prog.lift (signAlgFor p.curve) >>= fun alg => Prog.lift (f alg) >>= fun out => Prog.lift (.ok (out, kid))) P := by
  refine Yields.liftBind (fun e he => ?_) (fun alg ha => ?_)
  · have : p.curve = .x25519 ∧ e = .kind .unsupported := by
      cases hc : p.curve <;> rw [hc] at he <;> simp [signAlgFor, fail] at he
      exact ⟨rfl, he.symm⟩
    obtain ⟨hc, rfl⟩ := this
    exact h _ (.unsupported (fun h => h hc)) (fun _ h => by cases h)
  · have hc : CanSign p.curve := by intro hc; rw [hc] at ha; cases ha
    obtain ⟨_, _, _, sa, _, st, hs⟩ := signAlgFor_ok ha
    refine Yields.liftBind (fun e he => ?_) (fun out ho => Yields.lift (h _ (.signed hc) (fun _ h => by cases h; rfl)))
    rcases hf alg st hs.parts.2 with ⟨out, ho⟩ | ⟨ho, t, hn⟩
    · rw [ho] at he; cases he
    · rw [ho] at he; cases he
      exact h _ (.refused hc ⟨t, st, hn⟩) (fun _ h => by cases h)

theorem authKids_ok {f : FromPrior} {issuerKid : Option Str} {doc : DIDDoc} {kids : List Str} (h : f.authKids issuerKid doc = .ok kids) :
    kids = issuerKid.elim doc.authentication (fun k => [k]) ∧ ∀ k, issuerKid = some k → k ∈ doc.authentication := by
  unfold FromPrior.authKids at h
  split at h
  · rename_i k
    split at h
    · cases h
    · rename_i did kid hk
      split at h
      · cases h
      · obtain ⟨k', h1, h2⟩ := res_bind_ok.1 h
        obtain ⟨rfl, hl⟩ := find_kid (okOr_eq_ok.1 h1)
        have := didOrUrl_snd k
        rw [hk] at this
        split at this
        · cases this; cases h2
          exact ⟨rfl, fun _ h => by cases h; exact hl⟩
        · cases this
  · cases h; exact ⟨rfl, fun _ h => by cases h⟩

theorem authKids_error {f : FromPrior} {issuerKid : Option Str} {doc : DIDDoc} {e : Err}
    (hk : ∀ k, issuerKid = some k → HasFragment k ∧ didOf k = f.iss) (h : f.authKids issuerKid doc = .error e) :
    e = .kind .didUrlNotFound ∧ ∃ k, issuerKid = some k ∧ k ∉ doc.authentication := by
  unfold FromPrior.authKids at h
  split at h
  · rename_i k
    obtain ⟨h1, h2⟩ := hk k rfl
    have e1 := didOrUrl_snd k
    have e2 := didOrUrl_fst k
    rw [if_pos h1] at e1
    split at h
    · rename_i hx; rw [hx] at e1; cases e1
    · rename_i hx
      rw [hx] at e1 e2; cases e1
      simp only at e2
      split at h
      · rename_i hn; exact absurd (e2.trans h2) hn
      · rcases res_bind_error.1 h with h | ⟨_, _, h⟩
        · obtain ⟨h', rfl⟩ := okOr_eq_error.1 h
          exact ⟨rfl, k, rfl, find_kid_none h'⟩
        · cases h
  · cases h

theorem priorIssued (f : FromPrior) (issuerKid : Option Str) :
    Yields E (f.pack C issuerKid) (fun r => PriorIssued C E f issuerKid (r.map Prod.snd)) := by
  unfold FromPrior.pack
  refine Yields.liftBind (fun e h => ?_) (fun _ h => ?_)
  · rcases validatePack_error h with ⟨h', rfl⟩ | ⟨h', k, hk, hb, rfl⟩
    · exact .badClaims h'
    · exact .badKid h' hk hb
  obtain ⟨h1, h2, h3, hk⟩ := validatePack_ok.1 h
  have ht : TwoDids f := ⟨h1, h2, h3⟩
  refine Yields.docBind (fun e h => .noDocument ht hk h) (fun doc hd => ?_)
  refine Yields.liftBind (fun e h => ?_) (fun kids h => ?_)
  · obtain ⟨rfl, k, hi, hl⟩ := authKids_error hk h
    exact .notListed ht hi (hk k hi) hd hl
  obtain ⟨rfl, hl⟩ := authKids_ok h
  have hl' : ∀ k, issuerKid = some k → (HasFragment k ∧ didOf k = f.iss) ∧ k ∈ doc.authentication := fun k h => ⟨hk k h, hl k h⟩
  refine Yields.ownKey (fun e h => .noKey ht hd hl' h) (fun kid p ho => ?_)
  refine signs_of (fun alg st hst => ?_) (fun r hs hx => ?_)
  · unfold jwsSignCompact
    rw [hst]
    simp only [bind, Except.bind]
    cases hc : C.sign p.curve p.key (dotJoin (B64.encode (CompactHeader.toJson ⟨jwtTyp, alg, kid⟩).print) (B64.encode f.toJson.print)) st with
    | none => exact .inr ⟨rfl, _, hc⟩
    | some sig => exact .inl ⟨_, rfl⟩
  · have := PriorIssued.issued ht hd hl' ho hs
    rcases r with e | x
    · exact this
    · simpa [Except.map, hx x rfl] using this

/-! ## Plaintext and signatures -/

theorem plaintextPacked (m : Message) : Yields E (packPlaintext C m) (fun r => PlaintextPacked C E m (r.map fun _ => ())) := by
  unfold packPlaintext
  cases hm : m.fromPrior with
  | none =>
    simp only [unpackFromPrior]
    refine Yields.bind (Q := fun r => r = .ok none) (Yields.pure rfl) (fun _ h => by cases h) (fun a h => ?_)
    cases h
    exact Yields.liftBind (fun e h => by cases h) (fun _ _ => Yields.lift (.without hm))
  | some jwt =>
    simp only [unpackFromPrior]
    refine Yields.bind (Q := fun r => ∃ x, PriorRead C E jwt x ∧ r = x.map some) ?_ ?_ ?_
    · refine Yields.bind (priorRead jwt) (fun e h => ⟨_, h, rfl⟩) (fun a h => Yields.pure ⟨_, h, rfl⟩)
    · rintro e ⟨x, hx, h⟩
      rcases x with e' | x
      · cases h; exact .unreadable hm hx
      · cases h
    · rintro a ⟨x, hx, h⟩
      rcases x with e' | ⟨f, kid⟩
      · cases h
      cases h
      refine Yields.liftBind (fun e h => ?_) (fun _ h => ?_)
      · simp only [Message.validatePackPlaintext] at h
        rcases res_bind_error.1 h with h | ⟨_, h0, h⟩
        · rcases validatePack_error h with ⟨h', rfl⟩ | ⟨h', k, hk, hb, rfl⟩
          · exact .badClaims hm hx h'
          · cases hk
            refine .otherIssuer hm hx h' (fun hi => hb ⟨?_, hi⟩)
            cases hx with | read hf => exact hf.kid
        · obtain ⟨h1, h2, h3, hk⟩ := validatePack_ok.1 h0
          split at h
          · rename_i from_ hfrom
            split at h
            · rename_i hne; cases h
              exact .otherSender hm hx ⟨h1, h2, h3⟩ (hk _ rfl).2 hfrom hne
            · cases h
          · cases h
      · simp only [Message.validatePackPlaintext] at h
        obtain ⟨_, h0, h⟩ := res_bind_ok.1 h
        obtain ⟨h1, h2, h3, hk⟩ := validatePack_ok.1 h0
        refine Yields.lift (.good hm hx ⟨h1, h2, h3⟩ (hk _ rfl).2 fun from_ hfrom => ?_)
        rw [hfrom] at h
        simp only at h
        split at h
        · cases h
        · rename_i hne; exact Classical.byContradiction hne

theorem signKids_error {signBy : Str} {doc : DIDDoc} {e : Err} (h : signKids signBy doc = .error e) :
    e = .kind .didUrlNotFound ∧ HasFragment signBy ∧ signBy ∉ doc.authentication := by
  unfold signKids at h
  rw [didOrUrl_snd] at h
  by_cases hf : HasFragment signBy
  · rw [if_pos hf] at h
    rcases res_bind_error.1 h with h | ⟨_, _, h⟩
    · obtain ⟨h', rfl⟩ := okOr_eq_error.1 h
      exact ⟨rfl, hf, find_kid_none h'⟩
    · cases h
  · rw [if_neg hf] at h; cases h

theorem signedPacked (m : Message) (signBy : Str) :
    Yields E (packSigned C m signBy) (fun r => SignedPacked C E m signBy (r.map Prod.snd)) := by
  unfold packSigned
  split
  · rename_i h
    refine Yields.fail (.notDid fun h' => ?_)
    rw [(C46_is_did _).2 h'] at h; cases h
  rename_i h
  have hd : LooksLikeDid signBy := (C46_is_did _).1 (by simpa using h)
  rw [didOrUrl_fst]
  refine Yields.docBind (fun e h => .noDocument hd h) (fun doc hdoc => ?_)
  refine Yields.liftBind (fun e h => ?_) (fun kids h => ?_)
  · obtain ⟨rfl, hf, hl⟩ := signKids_error h
    exact .notListed hd hdoc hf hl
  obtain ⟨rfl, hl⟩ := signKids_ok.1 h
  refine Yields.ownKey (fun e h => .noKey hd hdoc hl h) (fun kid p ho => ?_)
  refine Yields.bind (plaintextPacked m) (fun e h => .badMessage hd hdoc hl ho h) (fun payload hp => ?_)
  refine signs_of (fun alg st hst => ?_) (fun r hs hx => ?_)
  · unfold jwsSign
    rw [hst]
    simp only [bind, Except.bind]
    cases hc : C.sign p.curve p.key (dotJoin (jwsProtected alg) (B64.encode payload)) st with
    | none => exact .inr ⟨rfl, _, hc⟩
    | some sig => exact .inl ⟨_, rfl⟩
  · have := SignedPacked.signed hd hdoc hl ho hp hs
    rcases r with e | x
    · exact this
    · simpa [Except.map, hx x rfl] using this

end DIDComm
