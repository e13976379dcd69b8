import Verif.Proofs.ParseTotal
import Verif.Spec.Panic
import Verif.Model.Unpack

/-!
# Which steps can fail otherwise than with an error kind
-/

set_option autoImplicit false

namespace DIDComm

variable {C : Crypto} {α β : Type}

/-- The result is a value or an error of some kind. -/
def Tame (x : Res α) : Prop := ∀ e, x = .error e → ∃ k, e = .kind k

theorem Tame.ok {a : α} : Tame (.ok a : Res α) := fun _ h => by cases h
theorem Tame.fail {k : ErrorKind} : Tame (fail k : Res α) := fun _ h => by cases h; exact ⟨k, rfl⟩
theorem Tame.okOr {k : ErrorKind} {o : Option α} : Tame (okOr k o) := fun _ h => ⟨k, (okOr_eq_error.1 h).2⟩
theorem Tame.bind {x : Res α} {f : α → Res β} (hx : Tame x) (hf : ∀ a, x = .ok a → Tame (f a)) : Tame (x >>= f) := by
  intro e h
  rcases res_bind_error.1 h with h | ⟨a, ha, h⟩
  · exact hx e h
  · exact hf a ha e h
theorem Tame.withKind {k : ErrorKind} {x : Res α} (h : Tame x) : Tame (withKind k x) := by
  intro e he
  rcases x with e' | a
  · obtain ⟨k', rfl⟩ := h e' rfl
    cases he; exact ⟨k, rfl⟩
  · cases he
theorem Tame.fromJson {d : Nat → Tree → Option α} {_ : Early d} {s : Str} : Tame (fromJson d s) := by
  intro e h
  rcases fromJson_tame d s with ⟨a, h'⟩ | ⟨k, h'⟩
  · rw [h'] at h; cases h
  · rw [h'] at h; cases h; exact ⟨k, rfl⟩
theorem Tame.ite {c : Prop} [Decidable c] {x y : Res α} (hx : c → Tame x) (hy : ¬ c → Tame y) :
    Tame (if c then x else y) := by
  split
  · exact hx ‹_›
  · exact hy ‹_›
theorem Tame.map {x : Res α} {f : α → β} (h : Tame x) : Tame (x.map f) := by
  intro e he
  cases x with
  | error e' => cases he; exact h _ rfl
  | ok a => cases he
theorem Tame.recognise {x : Res α} (h : Tame x) : Tame (recognise x) := by
  intro e he
  unfold DIDComm.recognise at he
  split at he
  · cases he
  · cases he
  · cases he; exact h _ rfl

/-! ## Keys -/

theorem codecByPrefix_tame (n : Nat) : Tame (codecByPrefix n) := by
  unfold codecByPrefix
  repeat' split
  all_goals first | exact Tame.ok | exact Tame.fail

theorem codecByPrefix_two {p : Nat} {c : Codec} (h : codecByPrefix p = .ok c) : (writeVarint p).length = 2 ∧ 128 ≤ p := by
  unfold codecByPrefix at h
  split at h
  · rename_i e; subst e; exact ⟨by decide, by decide⟩
  split at h
  · rename_i e; subst e; exact ⟨by decide, by decide⟩
  split at h
  · rename_i e; subst e; exact ⟨by decide, by decide⟩
  split at h
  · rename_i e; subst e; exact ⟨by decide, by decide⟩
  · cases h

theorem readVarint_two {b : Bytes} {p : Nat} (h : readVarint b = some p) (hp : 128 ≤ p) : 2 ≤ b.length := by
  unfold readVarint at h
  match b, h with
  | [], h => simp [readVarintAux] at h
  | [x], h =>
    simp only [readVarintAux] at h
    split at h
    · simp at h
      have : x.toNat % 4294967296 = x.toNat := Nat.mod_eq_of_lt (by omega)
      omega
    · simp at h
  | _ :: _ :: _, _ => simp

theorem fromMulticodec_tame (b : Bytes) : Tame (fromMulticodec b) := by
  unfold fromMulticodec
  refine Tame.bind Tame.okOr fun p hp => Tame.bind (codecByPrefix_tame _) fun c hc => ?_
  obtain ⟨h1, h2⟩ := codecByPrefix_two hc
  have := readVarint_two (okOr_eq_ok.1 hp) h2
  exact Tame.ite (fun h => by omega) (fun _ => Tame.ok)

theorem fromMultibase_tame (c : Codec) (s : Str) : Tame (fromMultibase c s) := by
  unfold fromMultibase
  split
  · refine Tame.bind Tame.okOr fun d _ => Tame.bind (fromMulticodec_tame _) fun x _ => ?_
    obtain ⟨codec, v⟩ := x
    exact Tame.ite (fun _ => Tame.fail) (fun _ => Tame.ok)
  · exact Tame.fail

theorem pairFromJwk_tame (c : Curve) (v : Value) : Tame (pairFromJwk C c v) :=
  Tame.bind Tame.okOr fun _ _ => Tame.ok

theorem VerificationMethod.asKeyPair_tame (vm : VerificationMethod) : Tame (vm.asKeyPair C) := by
  unfold VerificationMethod.asKeyPair
  split
  · split
    · exact pairFromJwk_tame _ _
    · exact Tame.fail
  · exact Tame.bind Tame.okOr fun _ _ => pairFromJwk_tame _ _
  · exact Tame.bind Tame.okOr fun _ _ => pairFromJwk_tame _ _
  · exact Tame.bind (fromMultibase_tame _ _) fun _ _ => pairFromJwk_tame _ _
  · exact Tame.bind (fromMultibase_tame _ _) fun _ _ => pairFromJwk_tame _ _
  · exact Tame.fail

theorem asCurve_tame {c : Curve} {alg : Option Curve} {p : Res (KeyPair C)} (h : Tame p) : Tame (asCurve c alg p) := by
  unfold asCurve
  exact Tame.ite (fun _ => Tame.fail) (fun _ => Tame.bind h fun _ _ => Tame.ite (fun _ => Tame.ok) (fun _ => Tame.fail))

theorem x25519Secret_tame (d : Bytes) : Tame (x25519Secret C d) :=
  Tame.bind Tame.okOr fun _ _ => pairFromJwk_tame _ _

theorem ed25519Secret_panic {b : Bytes} {e : Err} (h : ed25519Secret C b = .error e) :
    (∃ k, e = .kind k) ∨ (e = .panic ∧ b.length < 32) := by
  unfold ed25519Secret at h
  split at h
  · cases h; exact .inr ⟨rfl, ‹_›⟩
  · exact .inl (pairFromJwk_tame _ _ _ h)

theorem fromMultibase_priv {s : Str} {v : Bytes} (h : fromMultibase .ed25519Priv s = .ok v) :
    ∃ t b, s = b!"z" ++ t ∧ b58Decode t = some b ∧ readVarint b = some 0x1300 ∧ v = b.drop 2 := by
  unfold fromMultibase at h
  split at h
  · rename_i r
    obtain ⟨b, h1, h⟩ := res_bind_ok.1 h
    obtain ⟨⟨codec, v'⟩, h2, h⟩ := res_bind_ok.1 h
    simp only at h
    split at h
    · cases h
    rename_i hc
    cases h
    refine ⟨r, b, rfl, okOr_eq_ok.1 h1, ?_⟩
    unfold fromMulticodec at h2
    obtain ⟨p, h3, h2⟩ := res_bind_ok.1 h2
    obtain ⟨c, h4, h2⟩ := res_bind_ok.1 h2
    have hw := (codecByPrefix_two h4).1
    simp only [hw] at h2
    split at h2
    · cases h2
    cases h2
    simp only [ne_eq, Decidable.not_not] at hc
    subst hc
    refine ⟨?_, rfl⟩
    rw [okOr_eq_ok.1 h3]
    unfold codecByPrefix at h4
    split at h4
    · cases h4
    split at h4
    · cases h4
    split at h4
    · cases h4
    split at h4
    · rename_i hp; rw [hp]
    · cases h4
  · cases h

/-- A secret fails with an error kind, unless it is a short Ed25519 secret. -/
theorem Secret.asKeyPair_error {s : Secret} {e : Err} (h : s.asKeyPair C = .error e) :
    (∃ k, e = .kind k) ∨ (e = .panic ∧ ShortEd25519 s) := by
  unfold Secret.asKeyPair at h
  split at h
  · split at h
    · exact .inl (pairFromJwk_tame _ _ _ h)
    · exact .inl (Tame.fail _ h)
  · exact .inl (Tame.bind Tame.okOr (fun _ _ => x25519Secret_tame _) _ h)
  · rename_i t e1 e2
    rcases res_bind_error.1 h with h | ⟨b, hb, h⟩
    · exact .inl (Tame.okOr _ h)
    rcases ed25519Secret_panic h with h | ⟨rfl, hl⟩
    · exact .inl h
    · exact .inr ⟨rfl, .inl ⟨e1, t, b, e2, okOr_eq_ok.1 hb, hl⟩⟩
  · exact .inl (Tame.bind (fromMultibase_tame _ _) (fun _ _ => x25519Secret_tame _) _ h)
  · rename_i t e1 e2
    rcases res_bind_error.1 h with h | ⟨v, hv, h⟩
    · exact .inl (fromMultibase_tame _ _ _ h)
    rcases ed25519Secret_panic h with h | ⟨rfl, hl⟩
    · exact .inl h
    · obtain ⟨t', b, rfl, h1, h2, rfl⟩ := fromMultibase_priv hv
      refine .inr ⟨rfl, .inr ⟨e1, t', b, e2, h1, h2, ?_⟩⟩
      simp only [List.length_drop] at hl
      omega
  · exact .inl (Tame.fail _ h)

/-- A short Ed25519 secret panics. -/
theorem Secret.asKeyPair_short {s : Secret} (h : ShortEd25519 s) : s.asKeyPair C = .error .panic := by
  rcases h with ⟨h1, t, b, h2, h3, h4⟩ | ⟨h1, t, b, h2, h3, h4, h5⟩
  · unfold Secret.asKeyPair
    rw [h1, h2]
    simp only [bs58, h3, okOr, bind, Except.bind, ed25519Secret, h4, if_true]
  · have h6 : 2 ≤ b.length := readVarint_two h4 (by decide)
    unfold Secret.asKeyPair
    rw [h1, h2]
    have : fromMultibase .ed25519Priv (b!"z" ++ t) = .ok (b.drop 2) := by
      simp only [fromMultibase, List.cons_append, List.nil_append, bs58, h3, okOr, bind, Except.bind, fromMulticodec, h4,
        codecByPrefix]
      have hw : (writeVarint 4864).length = 2 := by decide
      simp [hw, show ¬ b.length < 2 by omega]
    simp only [this, bind, Except.bind, ed25519Secret]
    rw [if_pos (by simp only [List.length_drop]; omega)]

theorem Secret.asKeyPair_tame {s : Secret} (h : ¬ ShortEd25519 s) : Tame (s.asKeyPair C) := by
  intro e he
  rcases Secret.asKeyPair_error he with hk | ⟨-, hs⟩
  · exact hk
  · exact absurd hs h

/-! ## JWE and JWS -/

theorem deriveKey_tame {kdf : Kdf} {c : Curve} {e : C.Key} {s : Option C.Key} {r : C.Key} {a b d t : Bytes} {x : Bool} :
    Tame (deriveKey C kdf c e s r a b d t x) := by
  unfold deriveKey
  split
  · exact Tame.okOr
  · split
    · exact Tame.fail
    · exact Tame.okOr

theorem wrapAll_tame {kdf : Kdf} {c : Curve} {e : C.Key} {s : Option C.Key} {a b d t k : Bytes} :
    ∀ l, Tame (wrapAll C kdf c e s a b d t k l) := by
  intro l
  induction l with
  | nil => exact Tame.ok
  | cons p r ih =>
    obtain ⟨kid, key⟩ := p
    exact Tame.bind deriveKey_tame fun _ _ => Tame.bind Tame.okOr fun _ _ => Tame.bind ih fun _ _ => Tame.ok

theorem sigType_tame (a : JwsAlg) : Tame a.sigType := by
  cases a <;> first | exact Tame.ok | exact Tame.fail

theorem signAlgFor_tame (c : Curve) : Tame (signAlgFor c) := by
  cases c <;> first | exact Tame.ok | exact Tame.fail

theorem curveFor_tame (a : JwsAlg) : Tame (curveFor a) := by
  cases a <;> first | exact Tame.ok | exact Tame.fail

theorem jwsSign_tame {p : Bytes} {kid : Str} {c : Curve} {k : C.Key} {a : JwsAlg} : Tame (jwsSign C p kid c k a) :=
  Tame.bind (sigType_tame _) fun _ _ => Tame.bind Tame.okOr fun _ _ => Tame.ok

theorem jwsSignCompact_tame {p : Bytes} {kid : Str} {c : Curve} {k : C.Key} {t : Str} {a : JwsAlg} :
    Tame (jwsSignCompact C p kid c k t a) :=
  Tame.bind (sigType_tame _) fun _ _ => Tame.bind Tame.okOr fun _ _ => Tame.ok

theorem parseJwsHeaders_tame : ∀ l, Tame (parseJwsHeaders l) := by
  intro l
  induction l with
  | nil => exact Tame.ok
  | cons s r ih => exact Tame.bind Tame.okOr fun _ _ => Tame.bind Tame.fromJson fun _ _ => Tame.bind ih fun _ _ => Tame.ok

theorem JWS.parse_tame (j : JWS) : Tame j.parse := Tame.bind (parseJwsHeaders_tame _) fun _ _ => Tame.ok

theorem ParsedJWS.verify_tame {p : ParsedJWS} {kid : Str} {c : Curve} {k : C.Key} : Tame (p.verify C kid c k) := by
  refine Tame.bind Tame.okOr fun x _ => ?_
  obtain ⟨i, sig⟩ := x
  exact Tame.bind Tame.okOr fun _ _ => Tame.bind (sigType_tame _) fun _ _ => Tame.bind Tame.okOr fun _ _ => Tame.okOr

theorem parseCompact_tame (s : Str) : Tame (parseCompact s) := by
  unfold parseCompact
  split
  · exact Tame.bind Tame.okOr fun _ _ => Tame.bind (Tame.withKind Tame.fromJson) fun _ _ => Tame.ok
  · exact Tame.fail

theorem ParsedCompactJWS.verify_tame {p : ParsedCompactJWS} {c : Curve} {k : C.Key} : Tame (p.verify C c k) :=
  Tame.bind (sigType_tame _) fun _ _ => Tame.bind Tame.okOr fun _ _ => Tame.okOr

theorem JWE.parse_tame (j : JWE) : Tame (j.parse C) := by
  unfold JWE.parse
  refine Tame.bind Tame.okOr fun _ _ => Tame.bind Tame.fromJson fun h _ => Tame.bind Tame.okOr fun _ _ => ?_
  cases h.apu with
  | none => exact Tame.ok
  | some a => exact Tame.bind (Tame.map Tame.okOr) fun _ _ => Tame.ok

theorem ParsedJWE.verifyDidcomm_tame (p : ParsedJWE) : Tame (p.verifyDidcomm C) := by
  unfold ParsedJWE.verifyDidcomm
  repeat' split
  all_goals first | exact Tame.ok | exact Tame.fail

theorem ParsedJWE.decrypt_tame {ce : ContentEnc} {kdf : Kdf} {c : Curve} {p : ParsedJWE} {s : Option (Str × C.Key)}
    {kid : Str} {k : C.Key} : Tame (p.decrypt C ce kdf c s kid k) := by
  unfold ParsedJWE.decrypt
  refine Tame.ite (fun _ => Tame.fail) fun _ => ?_
  exact Tame.bind Tame.okOr fun _ _ => Tame.bind Tame.okOr fun _ _ => Tame.bind Tame.okOr fun _ _ =>
    Tame.bind Tame.okOr fun _ _ => Tame.bind deriveKey_tame fun _ _ => Tame.bind Tame.okOr fun _ _ =>
    Tame.bind Tame.okOr fun _ _ => Tame.bind Tame.okOr fun _ _ => Tame.okOr

theorem checkRecipients_tame (l : List Str) : Tame (checkRecipients l) := by
  unfold checkRecipients
  split
  · exact Tame.fail
  · exact Tame.ite (fun _ => Tame.fail) fun _ => Tame.ok

theorem anonDecryptWith_tame {p : ParsedJWE} {kid : Str} {k : KeyPair C} : Tame (anonDecryptWith C p kid k) := by
  unfold anonDecryptWith
  refine Tame.ite (fun _ => ?_) fun _ => Tame.fail
  split
  · exact Tame.bind ParsedJWE.decrypt_tame fun _ _ => Tame.ok
  · exact Tame.fail

theorem authDecryptWith_tame {p : ParsedJWE} {fk : Str} {f : KeyPair C} {kid : Str} {k : KeyPair C} :
    Tame (authDecryptWith C p fk f kid k) := by
  unfold authDecryptWith
  refine Tame.ite (fun _ => Tame.bind ParsedJWE.decrypt_tame fun _ _ => Tame.ok) fun _ =>
    Tame.ite (fun _ => Tame.fail) fun _ => Tame.ite (fun _ => Tame.fail) fun _ => Tame.fail

/-! ## Arguments and selection -/

theorem FromPrior.validatePack_tame (f : FromPrior) (k : Option Str) : Tame (f.validatePack k) := by
  unfold FromPrior.validatePack
  repeat' split
  all_goals first | exact Tame.ok | exact Tame.fail

theorem FromPrior.authKids_tame (f : FromPrior) (k : Option Str) (d : DIDDoc) : Tame (f.authKids k d) := by
  unfold FromPrior.authKids
  split
  · split
    · exact Tame.fail
    · exact Tame.ite (fun _ => Tame.fail) fun _ => Tame.bind Tame.okOr fun _ _ => Tame.ok
  · exact Tame.ok

theorem Message.validatePackPlaintext_tame (m : Message) (fp : Option (FromPrior × Str)) :
    Tame (m.validatePackPlaintext fp) := by
  unfold Message.validatePackPlaintext
  split
  · exact Tame.ok
  · refine Tame.bind (FromPrior.validatePack_tame _ _) fun _ _ => ?_
    split
    · exact Tame.ite (fun _ => Tame.fail) fun _ => Tame.ok
    · exact Tame.ok

theorem signKids_tame (s : Str) (d : DIDDoc) : Tame (signKids s d) := by
  unfold signKids
  split
  · exact Tame.bind Tame.okOr fun _ _ => Tame.ok
  · exact Tame.ok

theorem agreementKids_tame (k : Option Str) (d : DIDDoc) : Tame (agreementKids k d) :=
  Tame.ite (fun _ => Tame.fail) fun _ => Tame.ok

theorem methodsOf_tame (k : ErrorKind) (d : DIDDoc) : ∀ l, Tame (methodsOf k d l) := by
  intro l
  induction l with
  | nil => exact Tame.ok
  | cons s r ih => exact Tame.bind Tame.okOr fun _ _ => Tame.bind ih fun _ _ => Tame.ok

theorem keysOf_tame (c : Curve) : ∀ l, Tame (keysOf C c l) := by
  intro l
  induction l with
  | nil => exact Tame.ok
  | cons s r ih =>
    exact Tame.bind (asCurve_tame (VerificationMethod.asKeyPair_tame _)) fun _ _ => Tame.bind ih fun _ _ => Tame.ok

theorem Message.validatePackEncrypted_tame (m : Message) (to : Str) (f s : Option Str) :
    Tame (m.validatePackEncrypted to f s) := by
  unfold Message.validatePackEncrypted
  repeat' split
  all_goals first | exact Tame.ok | exact Tame.fail

theorem selectService_tame (l : List Service) (o : Option Str) : Tame (selectService l o) := by
  unfold selectService
  split
  · refine Tame.bind Tame.okOr fun _ _ => ?_
    split
    · exact Tame.ite (fun _ => Tame.ok) fun _ => Tame.fail
    · exact Tame.fail
  · exact Tame.ok

theorem Message.validate_tame (m : Message) : Tame m.validate :=
  Tame.ite (fun _ => Tame.fail) fun _ => Tame.ok

end DIDComm
