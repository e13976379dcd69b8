import Verif.Spec.KeyMaterial
import Verif.Props.Codec

/-!
# Key material: C78

`PublicJwk`, `PrivateJwk` and `libraryKey` are defined in `Verif.Spec.KeyMaterial`.
-/

set_option autoImplicit false

namespace DIDComm

variable {C : Crypto}

theorem getStr_iff {j : Value} {name text : Str} : j.getStr name = some text ↔ HasText j name text := by
  have hp : ∀ ms : List (Str × Value), ms.find? (fun p => p.1 == name) = ms.find? (fun p => decide (p.1 = name)) := by
    intro ms
    congr 1
    funext p
    exact Bool.eq_iff_iff.2 (by simp)
  unfold Value.getStr HasText
  constructor
  · intro h
    split at h
    · rename_i ms
      rw [hp] at h
      split at h
      · rename_i a s hf
        cases h
        have := List.find?_some hf
        simp only [decide_eq_true_eq] at this
        subst this
        exact ⟨ms, rfl, hf⟩
      · cases h
    · cases h
  · rintro ⟨ms, rfl, h⟩
    simp only [hp, h]

theorem HasText.unique {j : Value} {name a b : Str} (h : HasText j name a) (h' : HasText j name b) : a = b := by
  rw [← getStr_iff] at h h'
  exact Option.some.inj (h.symm.trans h')

theorem jwkCurve_iff {j : Value} {c : Curve} : jwkCurve j = some c ↔ JwkKind j c := by
  constructor
  · intro h
    unfold jwkCurve at h
    split at h
    · rename_i kty crv h1 h2
      rw [getStr_iff] at h1 h2
      refine ⟨kty, crv, ?_, h1, h2⟩
      split at h
      · rename_i e; obtain ⟨rfl, rfl⟩ := e; cases h; decide
      · split at h
        · rename_i e; obtain ⟨rfl, rfl⟩ := e; cases h; decide
        · split at h
          · rename_i e; obtain ⟨rfl, rfl⟩ := e; cases h; decide
          · split at h
            · rename_i e; obtain ⟨rfl, rfl⟩ := e; cases h; decide
            · cases h
    · cases h
  · rintro ⟨kty, crv, h, h1, h2⟩
    rw [← getStr_iff] at h1 h2
    unfold jwkCurve
    rw [h1, h2]
    simp only [jwkKinds, List.mem_cons, Prod.mk.injEq, List.not_mem_nil, or_false] at h
    rcases h with ⟨rfl, rfl, rfl⟩ | ⟨rfl, rfl, rfl⟩ | ⟨rfl, rfl, rfl⟩ | ⟨rfl, rfl, rfl⟩ <;> rfl

theorem jwkCurve_none {j : Value} (h : ∀ c, ¬ JwkKind j c) : jwkCurve j = none := by
  cases hc : jwkCurve j with
  | none => rfl
  | some c => exact absurd (jwkCurve_iff.1 hc) (h c)

theorem bs58_eq {s : Str} {r : Except ErrorKind Bytes} (h : Base58Text s r) : bs58 s = asRes r := by
  cases h with
  | bytes x h => rw [h, bs58, b58_decode_encode]; rfl
  | other h =>
    have : b58Decode s = none := by
      cases hd : b58Decode s with
      | none => rfl
      | some b => exact absurd (b58_encode_decode hd).symm (h b)
    rw [bs58, this]; rfl

theorem base58Text_total (s : Str) : ∃ r, Base58Text s r := by
  by_cases h : ∃ x, s = b58Encode x
  · obtain ⟨x, h⟩ := h; exact ⟨_, .bytes x h⟩
  · exact ⟨_, .other fun x hx => h ⟨x, hx⟩⟩

theorem fromMultibase_eq {want : Codec} {s : Str} {r : Except ErrorKind Bytes} (h : MultibaseText want s r) :
    fromMultibase want s = asRes r := by
  obtain ⟨h1, h2, h3, h4⟩ := C44_refused want s
  cases h with
  | key value n h hn hw => exact (C44_accepted want s _).2 ⟨value, n, h, hn, hw, rfl⟩
  | notBase58btc h => exact h1 h
  | notBase58 t h ht => exact h2 t h ht
  | noCodec value h hn => exact h3 value h hn
  | otherCodec value n h hn hw => exact h4 value n h hn hw

theorem multibaseText_total (want : Codec) (s : Str) : ∃ r, MultibaseText want s r := by
  by_cases h : s.head? = some 0x7A
  · obtain ⟨t, rfl⟩ : ∃ t, s = b!"z" ++ t := by
      cases s with
      | nil => cases h
      | cons a t => cases h; exact ⟨t, rfl⟩
    by_cases ht : ∃ value, t = b58Encode value
    · obtain ⟨value, rfl⟩ := ht
      by_cases hn : ∃ n, Leb128 5 value n
      · obtain ⟨n, hn⟩ := hn
        by_cases hw : n % 2 ^ 32 = want.number
        · exact ⟨_, .key value n rfl hn hw⟩
        · exact ⟨_, .otherCodec value n rfl hn hw⟩
      · exact ⟨_, .noCodec value rfl fun n h => hn ⟨n, h⟩⟩
    · exact ⟨_, .notBase58 t rfl fun v hv => ht ⟨v, hv⟩⟩
  · exact ⟨_, .notBase58btc h⟩

theorem pairFromJwk_eq (c : Curve) (j : Value) : pairFromJwk C c j = libraryKey C (.ok (c, j)) := by
  simp only [pairFromJwk, libraryKey]
  cases C.fromJwk c j <;> rfl

theorem publicJwk_okp (c : Curve) (h : c = .x25519 ∨ c = .ed25519) (x : Bytes) : okpPublicJwk c x = publicJwk c.okpText x := by
  rcases h with rfl | rfl <;> rfl

/-- C78: a verification method stands for a key exactly as `PublicJwk` says: if it stands for a JWK, the result is what the
cryptographic library makes of that JWK; otherwise it is the error. -/
theorem C78_method (vm : VerificationMethod) (x : Except ErrorKind (Curve × Value)) (h : PublicJwk vm.type_ vm.material x) :
    vm.asKeyPair C = libraryKey C (asRes x) := by
  obtain ⟨id, t, ctrl, m⟩ := vm
  simp only at h
  cases h with
  | jwk h => simp only [VerificationMethod.asKeyPair, jwkCurve_iff.2 h]; exact pairFromJwk_eq _ _
  | unknown h => simp only [VerificationMethod.asKeyPair, jwkCurve_none h]; rfl
  | raw h =>
    cases h with
    | x2019 h => simp only [VerificationMethod.asKeyPair, bs58_eq h]; exact pairFromJwk_eq _ _
    | ed2018 h => simp only [VerificationMethod.asKeyPair, bs58_eq h]; exact pairFromJwk_eq _ _
    | x2020 h => simp only [VerificationMethod.asKeyPair, fromMultibase_eq h]; exact pairFromJwk_eq _ _
    | ed2020 h => simp only [VerificationMethod.asKeyPair, fromMultibase_eq h]; exact pairFromJwk_eq _ _
  | bad h =>
    cases h with
    | x2019 h => simp only [VerificationMethod.asKeyPair, bs58_eq h]; rfl
    | ed2018 h => simp only [VerificationMethod.asKeyPair, bs58_eq h]; rfl
    | x2020 h => simp only [VerificationMethod.asKeyPair, fromMultibase_eq h]; rfl
    | ed2020 h => simp only [VerificationMethod.asKeyPair, fromMultibase_eq h]; rfl
  | misfit h =>
    unfold VerificationMethod.asKeyPair
    split <;> rename_i h1 h2 <;> simp only at h1 h2 <;> first
      | rfl
      | (subst h1 h2; exact absurd (by constructor) h)

/-- C78: and every verification method stands for something. -/
theorem C78_method_total (t : VmType) (m : Material) : ∃ x, PublicJwk t m x := by
  by_cases h : Fits t m
  · have raw : ∀ {c : Curve} {r : Except ErrorKind Bytes}, RawKey .x25519Pub .ed25519Pub t m c r → ∃ x, PublicJwk t m x := by
      intro c r h
      cases r with
      | ok x => exact ⟨_, .raw h⟩
      | error k => exact ⟨_, .bad h⟩
    cases h with
    | jwk j =>
      by_cases hj : ∃ c, JwkKind j c
      · obtain ⟨c, hc⟩ := hj; exact ⟨_, .jwk hc⟩
      · exact ⟨_, .unknown fun c hc => hj ⟨c, hc⟩⟩
    | x2019 s => obtain ⟨r, hr⟩ := base58Text_total s; exact raw (.x2019 hr)
    | ed2018 s => obtain ⟨r, hr⟩ := base58Text_total s; exact raw (.ed2018 hr)
    | x2020 s => obtain ⟨r, hr⟩ := multibaseText_total .x25519Pub s; exact raw (.x2020 hr)
    | ed2020 s => obtain ⟨r, hr⟩ := multibaseText_total .ed25519Pub s; exact raw (.ed2020 hr)
  · exact ⟨_, .misfit h⟩

/-- The raw bytes of a secret. -/
theorem rawKey_secret {t : VmType} {m : Material} {c : Curve} {r : Except ErrorKind Bytes} (id : Str)
    (h : RawKey .x25519Priv .ed25519Priv t m c r) :
    (⟨id, t, m⟩ : Secret).asKeyPair C = (asRes r >>= fun b => if c = .x25519 then x25519Secret C b else ed25519Secret C b) := by
  cases h with
  | x2019 h => simp only [Secret.asKeyPair, bs58_eq h]; rfl
  | ed2018 h => simp only [Secret.asKeyPair, bs58_eq h]; rfl
  | x2020 h => simp only [Secret.asKeyPair, fromMultibase_eq h]; rfl
  | ed2020 h => simp only [Secret.asKeyPair, fromMultibase_eq h]; rfl

/-- C78: a secret stands for a key exactly as `PrivateJwk` says. -/
theorem C78_secret (s : Secret) (x : Res (Curve × Value)) (h : PrivateJwk C s.type_ s.material x) :
    s.asKeyPair C = libraryKey C x := by
  obtain ⟨id, t, m⟩ := s
  simp only at h
  cases h with
  | jwk h => simp only [Secret.asKeyPair, jwkCurve_iff.2 h]; exact pairFromJwk_eq _ _
  | unknown h => simp only [Secret.asKeyPair, jwkCurve_none h]; rfl
  | @ed25519 _ _ d x hd h =>
    rw [rawKey_secret id h]
    have hl : ¬ (d ++ x).length < 32 := by simp [hd]
    simp only [asRes, bind, Except.bind, reduceCtorEq, if_false, ed25519Secret, if_neg hl, pairFromJwk_eq]
    have h1 : (d ++ x).take 32 = d := by rw [← hd]; simp
    have h2 : (d ++ x).drop 32 = x := by rw [← hd]; simp
    rw [h1, h2]; rfl
  | short hb h =>
    rw [rawKey_secret id h]
    simp only [asRes, bind, Except.bind, reduceCtorEq, if_false, ed25519Secret, if_pos hb]
    rfl
  | x25519 h hk hd =>
    rw [rawKey_secret id h]
    simp only [asRes, bind, Except.bind, if_true, x25519Secret, hk, okOr, pairFromJwk_eq, hd]
    rfl
  | noSecret h hk hd =>
    rw [rawKey_secret id h]
    simp only [asRes, bind, Except.bind, if_true, x25519Secret, hk, okOr, pairFromJwk_eq, hd]
    rfl
  | notX25519 h hk =>
    rw [rawKey_secret id h]
    simp only [asRes, bind, Except.bind, if_true, x25519Secret, hk, okOr]
    rfl
  | bad h => rw [rawKey_secret id h]; rfl
  | misfit h =>
    unfold Secret.asKeyPair
    split <;> rename_i h1 h2 <;> simp only at h1 h2 <;> first
      | rfl
      | (subst h1 h2; exact absurd (by constructor) h)

/-- C78: and every secret stands for something. -/
theorem C78_secret_total (C : Crypto) (t : VmType) (m : Material) : ∃ x, PrivateJwk C t m x := by
  by_cases h : Fits t m
  · have ed : ∀ {r : Except ErrorKind Bytes}, RawKey .x25519Priv .ed25519Priv t m .ed25519 r → ∃ x, PrivateJwk C t m x := by
      intro r h
      cases r with
      | ok b =>
        by_cases hb : b.length < 32
        · exact ⟨_, .short hb h⟩
        · have e : b = b.take 32 ++ b.drop 32 := by simp
          rw [e] at h
          exact ⟨_, .ed25519 (by simp; omega) h⟩
      | error k => exact ⟨_, .bad h⟩
    have x : ∀ {r : Except ErrorKind Bytes}, RawKey .x25519Priv .ed25519Priv t m .x25519 r → ∃ x, PrivateJwk C t m x := by
      intro r h
      cases r with
      | ok b =>
        cases hk : C.x25519FromSecret b with
        | none => exact ⟨_, .notX25519 h hk⟩
        | some k =>
          cases hd : C.secretBytes k with
          | none => exact ⟨_, .noSecret h hk hd⟩
          | some d => exact ⟨_, .x25519 h hk hd⟩
      | error k => exact ⟨_, .bad h⟩
    cases h with
    | jwk j =>
      by_cases hj : ∃ c, JwkKind j c
      · obtain ⟨c, hc⟩ := hj; exact ⟨_, .jwk hc⟩
      · exact ⟨_, .unknown fun c hc => hj ⟨c, hc⟩⟩
    | x2019 s => obtain ⟨r, hr⟩ := base58Text_total s; exact x (.x2019 hr)
    | ed2018 s => obtain ⟨r, hr⟩ := base58Text_total s; exact ed (.ed2018 hr)
    | x2020 s => obtain ⟨r, hr⟩ := multibaseText_total .x25519Priv s; exact x (.x2020 hr)
    | ed2020 s => obtain ⟨r, hr⟩ := multibaseText_total .ed25519Priv s; exact ed (.ed2020 hr)
  · exact ⟨_, .misfit h⟩

/-- C78: the key type by which keys are negotiated is the one the material announces; it does not depend on whether the key
is readable. -/
theorem C78_type (vm : VerificationMethod) (s : Secret) (c : Curve) :
    (vm.keyAlg = some c ↔ Announces vm.type_ vm.material c) ∧ (s.keyAlg = some c ↔ Announces s.type_ s.material c) := by
  have key : ∀ (t : VmType) (m : Material), keyAlg t m = some c ↔ Announces t m c := by
    intro t m
    constructor
    · intro h
      unfold keyAlg at h
      split at h <;> first
        | exact .jwk (jwkCurve_iff.1 h)
        | (cases h; done)
        | (cases h; constructor)
    · intro h
      cases h with
      | jwk h => exact jwkCurve_iff.2 h
      | _ => rfl
  exact ⟨key _ _, key _ _⟩

/-- C78: a key is used only as a key of the type that is asked for: for any other use the error is `InvalidState`. -/
theorem C78_use (vm : VerificationMethod) (s : Secret) (c : Curve) :
    (¬ Announces vm.type_ vm.material c → vm.as C c = .error (.kind .invalidState)) ∧
    (Announces vm.type_ vm.material c → ∀ x, PublicJwk vm.type_ vm.material x →
      vm.as C c = (libraryKey C (asRes x)).map KeyPair.key) ∧
    (¬ Announces s.type_ s.material c → s.as C c = .error (.kind .invalidState)) ∧
    (Announces s.type_ s.material c → ∀ x, PrivateJwk C s.type_ s.material x →
      s.as C c = (libraryKey C x).map KeyPair.key) := by
  obtain ⟨h1, h2⟩ := C78_type vm s c
  rw [← h1, ← h2]
  refine ⟨fun h => ?_, fun h x hx => ?_, fun h => ?_, fun h x hx => ?_⟩
  · simp only [VerificationMethod.as, asCurve, if_pos (show vm.keyAlg ≠ some c from h), fail]
  · have hm := C78_method (C := C) vm x hx
    rw [← hm]
    simp only [VerificationMethod.as, asCurve, h, ne_eq, not_true_eq_false, if_false]
    cases hk : vm.asKeyPair C with
    | error e => rfl
    | ok p =>
      have := C47_method C vm p hk
      rw [h] at this
      cases this
      simp [bind, Except.bind, Except.map]
  · simp only [Secret.as, asCurve, if_pos (show s.keyAlg ≠ some c from h), fail]
  · have hm := C78_secret (C := C) s x hx
    rw [← hm]
    simp only [Secret.as, asCurve, h, ne_eq, not_true_eq_false, if_false]
    cases hk : s.asKeyPair C with
    | error e => rfl
    | ok p =>
      have := C47_secret C s p hk
      rw [h] at this
      cases this
      simp [bind, Except.bind, Except.map]

/-- The cases occur: a JWK, a JWK of an unknown type, a raw key, a bad raw key, a misfit. -/
example : (∃ j, PublicJwk .jsonWebKey2020 (.jwk j) (.ok (.p256, j))) ∧
    PublicJwk .jsonWebKey2020 (.jwk .null) (.error .unsupported) ∧
    PublicJwk .x25519KeyAgreementKey2019 (.base58 b!"11Ldp") (.ok (.x25519, publicJwk b!"X25519" [0, 0, 1, 2, 3])) ∧
    PublicJwk .ed25519VerificationKey2020 (.multibase b!"u") (.error .illegalArgument) ∧
    PublicJwk .ed25519VerificationKey2020 (.base58 b!"11Ldp") (.error .unsupported) := by
  refine ⟨⟨.obj [(b!"kty", .str b!"EC"), (b!"crv", .str b!"P-256")], .jwk ⟨_, _, .head _, ⟨_, rfl, rfl⟩, ⟨_, rfl, rfl⟩⟩⟩, .unknown ?_,
    .raw (.x2019 (.bytes _ (by decide +kernel))), .bad (.ed2020 (.notBase58btc (by decide))), .misfit ?_⟩
  · rintro c ⟨_, _, _, ⟨_, h, _⟩, _⟩; cases h
  · intro h; cases h

/-- A short Ed25519 secret, and one of the right length. -/
example : PrivateJwk Toy.crypto .ed25519VerificationKey2018 (.base58 b!"11Ldp") (.error .panic) ∧
    PrivateJwk Toy.crypto .ed25519VerificationKey2018 (.base58 (b58Encode (List.replicate 32 7 ++ [8])))
      (.ok (.ed25519, privateJwk b!"Ed25519" (List.replicate 32 7) [8])) :=
  ⟨.short (b := [0, 0, 1, 2, 3]) (by decide) (.ed2018 (.bytes _ (by decide +kernel))), .ed25519 (by decide) (.ed2018 (.bytes _ rfl))⟩

end DIDComm
