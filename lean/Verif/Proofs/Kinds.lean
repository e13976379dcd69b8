import Verif.Spec.Errors
import Verif.Proofs.Runs
import Verif.Proofs.ParseTotal
import Verif.Model.Unpack

/-!
# The kinds of errors of each step

`Only S x`: an error kind of `x` is in `S`.  `Fails S p`: an error kind of `p` is in `S` or is that of a
resolver that failed.
-/

set_option autoImplicit false

namespace DIDComm

variable {C : Crypto} {α β : Type} {S T : List ErrorKind}

def Only (S : List ErrorKind) (x : Res α) : Prop := ∀ k, x = .error (.kind k) → k ∈ S

namespace Only

theorem ok {a : α} : Only S (.ok a : Res α) := fun _ h => by cases h
theorem panic : Only S (.error .panic : Res α) := fun _ h => by cases h
theorem fail {k : ErrorKind} (h : k ∈ S) : Only S (fail k : Res α) := fun _ e => by cases e; exact h
theorem okOr {k : ErrorKind} {o : Option α} (h : k ∈ S) : Only S (okOr k o) := fun _ e => by
  have := (okOr_eq_error.1 e).2
  cases this
  exact h
theorem bind {x : Res α} {f : α → Res β} (hx : Only S x) (hf : ∀ a, Only S (f a)) : Only S (x >>= f) := by
  intro k h
  rcases res_bind_error.1 h with h | ⟨a, -, h⟩
  · exact hx k h
  · exact hf a k h
theorem mono {x : Res α} (hx : Only S x) (h : ∀ k ∈ S, k ∈ T) : Only T x := fun k e => h k (hx k e)
theorem withKind {k : ErrorKind} {x : Res α} (h : k ∈ S) : Only S (withKind k x) := by
  intro k' he
  rcases x with e' | a
  · cases e' <;> cases he
    exact h
  · cases he
theorem fromJson {d : Nat → Tree → Option α} {_ : Early d} {s : Str} (h1 : .malformed ∈ S) (h2 : .invalidState ∈ S) :
    Only S (fromJson d s) := by
  unfold DIDComm.fromJson
  split
  · intro k h; cases h; split <;> assumption
  · intro k h; cases h; exact h1
  · intro k h; cases h
  · exact okOr h1
theorem ite {c : Prop} [Decidable c] {x y : Res α} (hx : c → Only S x) (hy : ¬ c → Only S y) :
    Only S (if c then x else y) := by
  split
  · exact hx ‹_›
  · exact hy ‹_›
theorem map {x : Res α} {f : α → β} (h : Only S x) : Only S (x.map f) := by
  intro e he
  cases x with
  | error e' => cases he; exact h _ rfl
  | ok a => cases he
theorem recognise {x : Res α} (h : Only S x) : Only S (recognise x) := by
  intro e he
  unfold DIDComm.recognise at he
  split at he
  · cases he
  · cases he
  · cases he; exact h _ rfl

end Only

/-! ## Keys -/

theorem codecByPrefix_only (n : Nat) : Only [.illegalArgument] (codecByPrefix n) := by
  unfold codecByPrefix
  repeat' split
  all_goals first | exact Only.ok | exact Only.fail (by decide)

theorem fromMulticodec_only (b : Bytes) : Only [.invalidState, .illegalArgument] (fromMulticodec b) := by
  unfold fromMulticodec
  exact .bind (.okOr (by decide)) fun _ => .bind ((codecByPrefix_only _).mono (by decide)) fun _ =>
    .ite (fun _ => .panic) fun _ => .ok

/-- The error kinds of key material. -/
def keyKinds : List ErrorKind := [.malformed, .unsupported, .invalidState, .illegalArgument]

theorem fromMultibase_only (c : Codec) (s : Str) : Only keyKinds (fromMultibase c s) := by
  unfold fromMultibase
  split
  · refine .bind (.okOr (by decide)) fun _ => .bind ((fromMulticodec_only _).mono (by decide)) fun x => ?_
    obtain ⟨codec, v⟩ := x
    exact .ite (fun _ => .fail (by decide)) fun _ => .ok
  · exact .fail (by decide)

theorem pairFromJwk_only (c : Curve) (v : Value) : Only keyKinds (pairFromJwk C c v) :=
  .bind (.okOr (by decide)) fun _ => .ok

theorem VerificationMethod.asKeyPair_only (vm : VerificationMethod) : Only keyKinds (vm.asKeyPair C) := by
  unfold VerificationMethod.asKeyPair
  split
  · split
    · exact pairFromJwk_only _ _
    · exact .fail (by decide)
  · exact .bind (.okOr (by decide)) fun _ => pairFromJwk_only _ _
  · exact .bind (.okOr (by decide)) fun _ => pairFromJwk_only _ _
  · exact .bind (fromMultibase_only _ _) fun _ => pairFromJwk_only _ _
  · exact .bind (fromMultibase_only _ _) fun _ => pairFromJwk_only _ _
  · exact .fail (by decide)

theorem asCurve_only {c : Curve} {alg : Option Curve} {p : Res (KeyPair C)} (h : Only keyKinds p) :
    Only keyKinds (asCurve c alg p) := by
  unfold asCurve
  exact .ite (fun _ => .fail (by decide)) fun _ => .bind h fun _ => .ite (fun _ => .ok) fun _ => .fail (by decide)

theorem x25519Secret_only (d : Bytes) : Only keyKinds (x25519Secret C d) :=
  .bind (.okOr (by decide)) fun _ => pairFromJwk_only _ _

theorem ed25519Secret_only (b : Bytes) : Only keyKinds (ed25519Secret C b) := by
  unfold ed25519Secret
  exact .ite (fun _ => .panic) fun _ => pairFromJwk_only _ _

theorem Secret.asKeyPair_only (s : Secret) : Only keyKinds (s.asKeyPair C) := by
  unfold Secret.asKeyPair
  split
  · split
    · exact pairFromJwk_only _ _
    · exact .fail (by decide)
  · exact .bind (.okOr (by decide)) fun _ => x25519Secret_only _
  · exact .bind (.okOr (by decide)) fun _ => ed25519Secret_only _
  · exact .bind (fromMultibase_only _ _) fun _ => x25519Secret_only _
  · exact .bind (fromMultibase_only _ _) fun _ => ed25519Secret_only _
  · exact .fail (by decide)

/-! ## JWE and JWS -/

theorem deriveKey_only {kdf : Kdf} {c : Curve} {e : C.Key} {s : Option C.Key} {r : C.Key} {a b d t : Bytes} {x : Bool} :
    Only [.invalidState] (deriveKey C kdf c e s r a b d t x) := by
  unfold deriveKey
  split
  · exact .okOr (by decide)
  · split
    · exact .fail (by decide)
    · exact .okOr (by decide)

theorem wrapAll_only {kdf : Kdf} {c : Curve} {e : C.Key} {s : Option C.Key} {a b d t k : Bytes} :
    ∀ l, Only [.invalidState] (wrapAll C kdf c e s a b d t k l) := by
  intro l
  induction l with
  | nil => exact .ok
  | cons p r ih =>
    obtain ⟨kid, key⟩ := p
    exact .bind deriveKey_only fun _ => .bind (.okOr (by decide)) fun _ => .bind ih fun _ => .ok

theorem sigType_only (a : JwsAlg) : Only [.unsupported] a.sigType := by
  cases a <;> first | exact .ok | exact .fail (by decide)

theorem signAlgFor_only (c : Curve) : Only [.unsupported] (signAlgFor c) := by
  cases c <;> first | exact .ok | exact .fail (by decide)

theorem curveFor_only (a : JwsAlg) : Only [.unsupported] (curveFor a) := by
  cases a <;> first | exact .ok | exact .fail (by decide)

theorem jwsSign_only {p : Bytes} {kid : Str} {c : Curve} {k : C.Key} {a : JwsAlg} :
    Only [.unsupported, .invalidState] (jwsSign C p kid c k a) :=
  .bind ((sigType_only _).mono (by decide)) fun _ => .bind (.okOr (by decide)) fun _ => .ok

theorem jwsSignCompact_only {p : Bytes} {kid : Str} {c : Curve} {k : C.Key} {t : Str} {a : JwsAlg} :
    Only [.unsupported, .invalidState] (jwsSignCompact C p kid c k t a) :=
  .bind ((sigType_only _).mono (by decide)) fun _ => .bind (.okOr (by decide)) fun _ => .ok

theorem parseJwsHeaders_only : ∀ l, Only [.malformed, .invalidState] (parseJwsHeaders l) := by
  intro l
  induction l with
  | nil => exact .ok
  | cons s r ih =>
    exact .bind (.okOr (by decide)) fun _ => .bind (.fromJson (by decide) (by decide)) fun _ => .bind ih fun _ => .ok

theorem JWS.parse_only (j : JWS) : Only [.malformed, .invalidState] j.parse :=
  .bind (parseJwsHeaders_only _) fun _ => .ok

theorem ParsedJWS.verify_only {p : ParsedJWS} {kid : Str} {c : Curve} {k : C.Key} :
    Only [.malformed, .invalidState, .unsupported] (p.verify C kid c k) := by
  refine .bind (.okOr (by decide)) fun x => ?_
  obtain ⟨i, sig⟩ := x
  exact .bind (.okOr (by decide)) fun _ => .bind ((sigType_only _).mono (by decide)) fun _ =>
    .bind (.okOr (by decide)) fun _ => .okOr (by decide)

theorem parseCompact_only (s : Str) : Only [.malformed] (parseCompact s) := by
  unfold parseCompact
  split
  · exact .bind (.okOr (by decide)) fun _ => .bind (.withKind (by decide)) fun _ => .ok
  · exact .fail (by decide)

theorem ParsedCompactJWS.verify_only {p : ParsedCompactJWS} {c : Curve} {k : C.Key} :
    Only [.malformed, .unsupported] (p.verify C c k) :=
  .bind ((sigType_only _).mono (by decide)) fun _ => .bind (.okOr (by decide)) fun _ => .okOr (by decide)

theorem JWE.parse_only (j : JWE) : Only [.malformed, .invalidState] (j.parse C) := by
  unfold JWE.parse
  refine .bind (.okOr (by decide)) fun _ => .bind (.fromJson (by decide) (by decide)) fun h => .bind (.okOr (by decide)) fun _ => ?_
  cases h.apu with
  | none => exact .ok
  | some a => exact .bind (.map (.okOr (by decide))) fun _ => .ok

theorem ParsedJWE.verifyDidcomm_only (p : ParsedJWE) : Only [.malformed] (p.verifyDidcomm C) := by
  unfold ParsedJWE.verifyDidcomm
  repeat' split
  all_goals first | exact .ok | exact .fail (by decide)

theorem ParsedJWE.decrypt_only {ce : ContentEnc} {kdf : Kdf} {c : Curve} {p : ParsedJWE} {s : Option (Str × C.Key)}
    {kid : Str} {k : C.Key} : Only [.malformed, .invalidState] (p.decrypt C ce kdf c s kid k) := by
  unfold ParsedJWE.decrypt
  refine .ite (fun _ => .fail (by decide)) fun _ => ?_
  exact .bind (.okOr (by decide)) fun _ => .bind (.okOr (by decide)) fun _ => .bind (.okOr (by decide)) fun _ =>
    .bind (.okOr (by decide)) fun _ => .bind (deriveKey_only.mono (by decide)) fun _ => .bind (.okOr (by decide)) fun _ =>
    .bind (.okOr (by decide)) fun _ => .bind (.okOr (by decide)) fun _ => .okOr (by decide)

theorem checkRecipients_only (l : List Str) : Only [.malformed] (checkRecipients l) := by
  unfold checkRecipients
  split
  · exact .fail (by decide)
  · exact .ite (fun _ => .fail (by decide)) fun _ => .ok

theorem anonDecryptWith_only {p : ParsedJWE} {kid : Str} {k : KeyPair C} : Only keyKinds (anonDecryptWith C p kid k) := by
  unfold anonDecryptWith
  refine .ite (fun _ => ?_) fun _ => .fail (by decide)
  split
  · exact .bind (ParsedJWE.decrypt_only.mono (by decide)) fun _ => .ok
  · exact .fail (by decide)

theorem authDecryptWith_only {p : ParsedJWE} {fk : Str} {f : KeyPair C} {kid : Str} {k : KeyPair C} :
    Only keyKinds (authDecryptWith C p fk f kid k) := by
  unfold authDecryptWith
  exact .ite (fun _ => .bind (ParsedJWE.decrypt_only.mono (by decide)) fun _ => .ok) fun _ =>
    .ite (fun _ => .fail (by decide)) fun _ => .ite (fun _ => .fail (by decide)) fun _ => .fail (by decide)

/-! ## Arguments and selection -/

theorem FromPrior.validatePack_only (f : FromPrior) (k : Option Str) :
    Only [.malformed, .illegalArgument] (f.validatePack k) := by
  unfold FromPrior.validatePack
  repeat' split
  all_goals first | exact .ok | exact .fail (by decide)

theorem FromPrior.authKids_only (f : FromPrior) (k : Option Str) (d : DIDDoc) :
    Only [.illegalArgument, .didUrlNotFound] (f.authKids k d) := by
  unfold FromPrior.authKids
  split
  · split
    · exact .fail (by decide)
    · exact .ite (fun _ => .fail (by decide)) fun _ => .bind (.okOr (by decide)) fun _ => .ok
  · exact .ok

theorem Message.validatePackPlaintext_only (m : Message) (fp : Option (FromPrior × Str)) :
    Only [.malformed, .illegalArgument] (m.validatePackPlaintext fp) := by
  unfold Message.validatePackPlaintext
  split
  · exact .ok
  · refine .bind (FromPrior.validatePack_only _ _) fun _ => ?_
    split
    · exact .ite (fun _ => .fail (by decide)) fun _ => .ok
    · exact .ok

theorem signKids_only (s : Str) (d : DIDDoc) : Only [.didUrlNotFound] (signKids s d) := by
  unfold signKids
  split
  · exact .bind (.okOr (by decide)) fun _ => .ok
  · exact .ok

theorem agreementKids_only (k : Option Str) (d : DIDDoc) : Only [.didUrlNotFound] (agreementKids k d) :=
  .ite (fun _ => .fail (by decide)) fun _ => .ok

theorem methodsOf_only (k : ErrorKind) (d : DIDDoc) : ∀ l, Only [k] (methodsOf k d l) := by
  intro l
  induction l with
  | nil => exact .ok
  | cons s r ih => exact .bind (.okOr List.mem_cons_self) fun _ => .bind ih fun _ => .ok

theorem keysOf_only (c : Curve) : ∀ l, Only keyKinds (keysOf C c l) := by
  intro l
  induction l with
  | nil => exact .ok
  | cons s r ih =>
    exact .bind (asCurve_only (VerificationMethod.asKeyPair_only _)) fun _ => .bind ih fun _ => .ok

theorem Message.validatePackEncrypted_only (m : Message) (to : Str) (f s : Option Str) :
    Only [.illegalArgument] (m.validatePackEncrypted to f s) := by
  unfold Message.validatePackEncrypted
  repeat' split
  all_goals first | exact .ok | exact .fail (by decide)

theorem selectService_only (l : List Service) (o : Option Str) : Only [.illegalArgument] (selectService l o) := by
  unfold selectService
  split
  · refine .bind (.okOr (by decide)) fun _ => ?_
    split
    · exact .ite (fun _ => .ok) fun _ => .fail (by decide)
    · exact .fail (by decide)
  · exact .ok

theorem Message.validate_only (m : Message) : Only [.malformed] m.validate :=
  .ite (fun _ => .fail (by decide)) fun _ => .ok

/-! ## Effectful steps -/

def Fails (S : List ErrorKind) (p : Prog α) : Prop := ∀ tr r, Runs p tr r → FailsOnlyWith S tr r

namespace Fails

theorem lift {x : Res α} (h : Only S x) : Fails S (Prog.lift x) := by
  intro tr r hr k hk
  obtain ⟨rfl, rfl⟩ := runs_lift.1 hr
  exact .inl (h k hk)

theorem pure {a : α} : Fails S (pure a : Prog α) := lift .ok

theorem fail {k : ErrorKind} (h : k ∈ S) : Fails S (Prog.fail k : Prog α) := lift (.fail h)

theorem mono {p : Prog α} (hp : Fails S p) (h : ∀ k ∈ S, k ∈ T) : Fails T p :=
  fun tr r hr k hk => (hp tr r hr k hk).imp (h k) id

theorem bind {p : Prog α} {f : α → Prog β} (hp : Fails S p) (hf : ∀ a, Fails S (f a)) : Fails S (p >>= f) := by
  intro tr r hr k hk
  subst hk
  rcases runs_bind_error.1 hr with h | ⟨a, t1, t2, rfl, -, h⟩
  · exact hp tr _ h k rfl
  · rcases hf a t2 _ h k rfl with h | ⟨ev, hev, h⟩
    · exact .inl h
    · exact .inr ⟨ev, List.mem_append_right _ hev, h⟩

theorem ite {c : Prop} [Decidable c] {p q : Prog α} (hp : c → Fails S p) (hq : ¬ c → Fails S q) :
    Fails S (if c then p else q) := by
  split
  · exact hp ‹_›
  · exact hq ‹_›

theorem resolve {d : Str} : Fails S (resolve d) := by
  intro tr r hr k hk
  rcases runs_resolve.1 hr with ⟨_, _, h⟩ | ⟨k', ht, h⟩ <;> rw [hk] at h <;> cases h
  subst ht
  exact .inr ⟨_, List.mem_cons_self, rfl⟩

theorem findSecrets {l : List Str} : Fails S (findSecrets l) := by
  intro tr r hr k hk
  rcases runs_findSecrets.1 hr with ⟨_, _, h⟩ | ⟨k', ht, h⟩ <;> rw [hk] at h <;> cases h
  subst ht
  exact .inr ⟨_, List.mem_cons_self, rfl⟩

theorem getSecret {d : Str} : Fails S (getSecret d) := by
  intro tr r hr k hk
  rcases runs_getSecret.1 hr with ⟨_, _, h⟩ | ⟨k', ht, h⟩ <;> rw [hk] at h <;> cases h
  subst ht
  exact .inr ⟨_, List.mem_cons_self, rfl⟩

theorem random : Fails S random := by
  intro tr r hr k hk
  obtain ⟨_, _, h⟩ := runs_random.1 hr
  rw [hk] at h; cases h

theorem withKind {k : ErrorKind} {p : Prog α} (h : k ∈ S) : Fails S (p.withKind k) := by
  intro tr r hr k' hk
  obtain ⟨r', -, he⟩ := runs_withKind.1 hr
  exact .inl (Only.withKind h k' (he.symm.trans hk))

end Fails

/-! ## `from_prior` -/

theorem FromPrior.unpack_kinds (jwt : Str) : Fails readingKinds (FromPrior.unpack C jwt) := by
  unfold FromPrior.unpack
  refine .bind (.lift ((parseCompact_only _).mono (by decide))) fun _ => .ite (fun _ => .fail (by decide)) fun _ =>
    .ite (fun _ => .fail (by decide)) fun _ =>
    .bind .resolve fun _ => .bind (.lift (.okOr (by decide))) fun _ => .bind (.lift (.okOr (by decide))) fun _ =>
    .bind (.lift (.okOr (by decide))) fun _ =>
    .bind (.lift ((curveFor_only _).mono (by decide))) fun _ =>
    .bind (.lift ((asCurve_only (VerificationMethod.asKeyPair_only _)).mono (by decide))) fun _ =>
    .bind (.lift (ParsedCompactJWS.verify_only.mono (by decide))) fun _ => .ite (fun _ => .fail (by decide)) fun _ =>
    .bind (.lift (.okOr (by decide))) fun _ =>
    .ite (fun _ => .fail (by decide)) fun _ => .bind (.lift (.withKind (by decide))) fun _ => .lift .ok

theorem FromPrior.pack_kinds (f : FromPrior) (k : Option Str) : Fails secretKinds (f.pack C k) := by
  unfold FromPrior.pack
  exact .bind (.lift ((FromPrior.validatePack_only _ _).mono (by decide))) fun _ => .bind .resolve fun _ =>
    .bind (.lift (.okOr (by decide))) fun _ =>
    .bind (.lift ((FromPrior.authKids_only _ _ _).mono (by decide))) fun _ => .bind .findSecrets fun _ =>
    .bind (.lift (.okOr (by decide))) fun _ =>
    .bind .getSecret fun _ => .bind (.lift (.okOr (by decide))) fun _ =>
    .bind (.lift ((Secret.asKeyPair_only _).mono (by decide))) fun _ => .bind (.lift ((signAlgFor_only _).mono (by decide))) fun _ =>
    .bind (.lift (jwsSignCompact_only.mono (by decide))) fun _ => .lift .ok

/-! ## Packing -/

theorem packPlaintext_kinds (m : Message) : Fails readingKinds (packPlaintext C m) := by
  unfold packPlaintext
  refine .bind ?_ fun _ => .bind (.lift ((Message.validatePackPlaintext_only _ _).mono (by decide))) fun _ => .lift .ok
  unfold unpackFromPrior
  split
  · exact .pure
  · exact .bind (FromPrior.unpack_kinds _) fun _ => .pure

theorem packSigned_kinds (m : Message) (s : Str) : Fails secretKinds (packSigned C m s) := by
  unfold packSigned
  exact .ite (fun _ => .fail (by decide)) fun _ => .bind .resolve fun _ => .bind (.lift (.okOr (by decide))) fun _ =>
    .bind (.lift ((signKids_only _ _).mono (by decide))) fun _ => .bind .findSecrets fun _ => .bind (.lift (.okOr (by decide))) fun _ =>
    .bind .getSecret fun _ => .bind (.lift (.okOr (by decide))) fun _ => .bind (.lift ((Secret.asKeyPair_only _).mono (by decide))) fun _ =>
    .bind ((packPlaintext_kinds _).mono (by decide)) fun _ =>
    .bind (.lift ((signAlgFor_only _).mono (by decide))) fun _ => .bind (.lift (jwsSign_only.mono (by decide))) fun _ => .lift .ok

theorem jweEncrypt_kinds {ce : ContentEnc} {kdf : Kdf} {c : Curve} {pt : Bytes} {a : JweAlg} {en : EncAlg}
    {s : Option (Str × C.Key)} {rs : List (Str × C.Key)} : Fails [.invalidState] (jweEncrypt C ce kdf c pt a en s rs) := by
  unfold jweEncrypt
  exact .bind .random fun _ => .bind (.lift (.okOr (by decide))) fun _ => .bind .random fun _ => .bind (.lift (.okOr (by decide))) fun _ =>
    .bind (.lift (.okOr (by decide))) fun _ => .bind .random fun _ => .bind (.lift (.okOr (by decide))) fun _ => .bind (.lift (wrapAll_only _)) fun _ =>
    .lift .ok

theorem anoncrypt_kinds {to : Str} {msg : Bytes} {alg : AnonCryptAlg} : Fails readingKinds (anoncrypt C to msg alg) := by
  unfold anoncrypt
  exact .bind .resolve fun _ => .bind (.lift (.okOr (by decide))) fun _ => .bind (.lift ((agreementKids_only _ _).mono (by decide))) fun _ =>
    .bind (.lift ((methodsOf_only _ _ _).mono (by decide))) fun _ => .bind (.lift (.okOr (by decide))) fun _ =>
    .ite (fun _ => .bind (.lift ((keysOf_only _ _).mono (by decide))) fun _ => .bind (jweEncrypt_kinds.mono (by decide)) fun _ => .lift .ok)
      fun _ => .fail (by decide)

theorem authcrypt_kinds {to f : Str} {msg : Bytes} {a : AuthCryptAlg} {b : AnonCryptAlg} {ps : Bool} :
    Fails encryptKinds (authcrypt C to f msg a b ps) := by
  unfold authcrypt
  refine .bind .resolve fun _ => .bind (.lift (.okOr (by decide))) fun _ => .bind .resolve fun _ => .bind (.lift (.okOr (by decide))) fun _ =>
    .bind (.lift ((agreementKids_only _ _).mono (by decide))) fun _ => .bind .findSecrets fun _ => .ite (fun _ => .fail (by decide)) fun _ =>
    .bind (.lift ((methodsOf_only _ _ _).mono (by decide))) fun _ => .bind (.lift ((agreementKids_only _ _).mono (by decide))) fun _ =>
    .bind (.lift ((methodsOf_only _ _ _).mono (by decide))) fun _ => .bind (.lift (.okOr (by decide))) fun vm =>
    .bind .getSecret fun _ => .bind (.lift (.okOr (by decide))) fun s => ?_
  split
  · refine .ite (fun _ => .bind (.lift ((keysOf_only _ _).mono (by decide))) fun _ =>
      .bind (.lift ((asCurve_only (Secret.asKeyPair_only _)).mono (by decide))) fun _ =>
      .bind (jweEncrypt_kinds.mono (by decide)) fun _ => .ite (fun _ => .bind (jweEncrypt_kinds.mono (by decide)) fun _ => .lift .ok) fun _ => .lift .ok)
      fun _ => .fail (by decide)
  · exact .fail (by decide)

theorem findDidCommService_kinds (d : Str) (o : Option Str) : Fails readingKinds (findDidCommService d o) := by
  unfold findDidCommService
  exact .bind .resolve fun _ => .bind (.lift (.okOr (by decide))) fun _ => .lift ((selectService_only _ _).mono (by decide))

theorem chainLoop_kinds : ∀ n l u, Fails readingKinds (chainLoop n l u) := by
  intro n
  induction n with
  | zero => intro l u; unfold chainLoop; exact .lift (fun k h => by cases h)
  | succ n ih =>
    intro l u
    unfold chainLoop
    refine .ite (fun _ => .ite (fun _ => .fail (by decide)) fun hl => ?_) fun _ => .pure
    exact .bind (findDidCommService_kinds _ _) fun _ => .bind (.lift (.okOr (by decide))) fun s => ih _ _

theorem servicesChain_kinds (t : Str) (o : Option Str) : Fails readingKinds (servicesChain t o) := by
  unfold servicesChain
  refine .bind (findDidCommService_kinds _ _) fun s => ?_
  cases s with
  | none => exact .pure
  | some s => exact chainLoop_kinds 3 _ _

theorem buildForwardMessage_kinds {m n : Str} {h : Option (List (Str × Value))} : Fails readingKinds (buildForwardMessage C m n h) := by
  unfold buildForwardMessage
  exact .bind (.lift (.withKind (by decide))) fun _ => .bind .random fun _ => .lift .ok

theorem wrapLoop_kinds {h : Option (List (Str × Value))} {a : AnonCryptAlg} : ∀ l m, Fails readingKinds (wrapLoop C h a l m) := by
  intro l
  induction l with
  | nil => intro m; exact .pure
  | cons p r ih =>
    intro m
    obtain ⟨to, next⟩ := p
    unfold wrapLoop
    exact .bind buildForwardMessage_kinds fun _ => .bind anoncrypt_kinds fun _ => ih _

theorem wrapInForward_kinds {m : Str} {h : Option (List (Str × Value))} {to : Str} {ks : List Str} {a : AnonCryptAlg} :
    Fails readingKinds (wrapInForward C m h to ks a) := by
  unfold wrapInForward
  split
  · exact .lift .panic
  · exact wrapLoop_kinds _ _

theorem wrapInForwardIfNeeded_kinds {m to : Str} {o : PackEncryptedOptions} : Fails readingKinds (wrapInForwardIfNeeded C m to o) := by
  unfold wrapInForwardIfNeeded
  refine .ite (fun _ => .pure) fun _ => .bind (servicesChain_kinds _ _) fun c => ?_
  split
  · exact .ite (fun _ => .pure) fun hk => .bind wrapInForward_kinds fun _ => .pure
  · exact .pure

/-- The kinds of `pack_encrypted`, which depend on whether there is a sender and a signer. -/
theorem packEncrypted_kinds (m : Message) (to : Str) (f s : Option Str) (o : PackEncryptedOptions) {S : List ErrorKind}
    (h1 : ∀ k ∈ readingKinds, k ∈ S) (h2 : s.isSome = true → .secretNotFound ∈ S)
    (h3 : f.isSome = true → .secretNotFound ∈ S ∧ .noCompatibleCrypto ∈ S) :
    Fails S (packEncrypted C m to f s o) := by
  unfold packEncrypted
  refine .bind (.lift ((Message.validatePackEncrypted_only _ _ _ _).mono fun k hk => h1 k (by revert k; decide))) fun _ =>
    .bind ?_ fun _ => .bind ?_ fun _ => .bind (wrapInForwardIfNeeded_kinds.mono h1) fun w => ?_
  · unfold packInner
    split
    · refine .bind ((packSigned_kinds _ _).mono fun k hk => ?_) fun _ => .pure
      rcases List.mem_cons.1 hk with rfl | hk
      · exact h2 rfl
      · exact h1 k hk
    · exact .bind ((packPlaintext_kinds _).mono h1) fun _ => .pure
  · unfold packCrypt
    split
    · refine .bind (authcrypt_kinds.mono fun k hk => ?_) fun _ => .pure
      rcases List.mem_cons.1 hk with rfl | hk
      · exact (h3 rfl).2
      rcases List.mem_cons.1 hk with rfl | hk
      · exact (h3 rfl).1
      · exact h1 k hk
    · exact .bind (anoncrypt_kinds.mono h1) fun _ => .pure
  · split <;> exact .pure

/-! ## Unpacking -/

theorem decryptLoop_kinds {γ : Type} {all : Bool} {d : Str → KeyPair C → Res γ} (hd : ∀ k x, Only keyKinds (d k x)) :
    ∀ l acc, Fails secretKinds (decryptLoop C all d l acc) := by
  intro l
  induction l with
  | nil => intro acc; exact .pure
  | cons k r ih =>
    intro acc
    unfold decryptLoop
    exact .bind .getSecret fun _ => .bind (.lift (.okOr (by decide))) fun _ =>
      .bind (.lift ((Secret.asKeyPair_only _).mono (by decide))) fun _ => .bind (.lift ((hd _ _).mono (by decide))) fun _ =>
      .ite (fun _ => ih _) fun _ => .pure

theorem tryUnpackAnoncrypt_kinds (msg : Str) (o : UnpackOptions) (md : UnpackMetadata) :
    Fails secretKinds (tryUnpackAnoncrypt C msg o md) := by
  unfold tryUnpackAnoncrypt
  refine .bind (.lift (.recognise (.fromJson (by decide) (by decide)))) fun j => ?_
  cases j with
  | none => exact .pure
  | some j =>
    exact .bind (.lift ((JWE.parse_only _).mono (by decide))) fun _ => .ite (fun _ => .pure) fun _ =>
      .bind (.lift ((ParsedJWE.verifyDidcomm_only _).mono (by decide))) fun _ => .bind (.lift ((checkRecipients_only _).mono (by decide))) fun _ =>
      .bind .findSecrets fun _ => .ite (fun _ => .fail (by decide)) fun _ =>
      .bind (decryptLoop_kinds (fun _ _ => anonDecryptWith_only) _ _) fun _ => .bind (.lift (.okOr (by decide))) fun _ =>
      .ite (fun _ => .fail (by decide)) fun _ => .pure

theorem tryUnpackAuthcrypt_kinds (msg : Str) (o : UnpackOptions) (md : UnpackMetadata) :
    Fails secretKinds (tryUnpackAuthcrypt C msg o md) := by
  unfold tryUnpackAuthcrypt
  refine .bind (.lift (.recognise (.fromJson (by decide) (by decide)))) fun j => ?_
  cases j with
  | none => exact .pure
  | some j =>
    exact .bind (.lift ((JWE.parse_only _).mono (by decide))) fun _ => .ite (fun _ => .pure) fun _ =>
      .bind (.lift ((ParsedJWE.verifyDidcomm_only _).mono (by decide))) fun _ => .bind (.lift (.okOr (by decide))) fun _ =>
      .ite (fun _ => .fail (by decide)) fun _ =>
      .ite (fun _ => .fail (by decide)) fun _ => .bind (.withKind (by decide)) fun _ => .bind (.lift (.okOr (by decide))) fun _ =>
      .bind (.lift (.okOr (by decide))) fun _ => .bind (.lift (.okOr (by decide))) fun _ =>
      .bind (.lift ((VerificationMethod.asKeyPair_only _).mono (by decide))) fun _ =>
      .bind (.lift ((checkRecipients_only _).mono (by decide))) fun _ =>
      .bind .findSecrets fun _ => .ite (fun _ => .fail (by decide)) fun _ =>
      .bind (decryptLoop_kinds (fun _ _ => authDecryptWith_only) _ _) fun _ => .bind (.lift (.okOr (by decide))) fun _ =>
      .ite (fun _ => .fail (by decide)) fun _ => .pure

theorem tryUnpackSign_kinds (msg : Str) (md : UnpackMetadata) : Fails readingKinds (tryUnpackSign C msg md) := by
  unfold tryUnpackSign
  refine .bind (.lift (.recognise (.fromJson (by decide) (by decide)))) fun j => ?_
  cases j with
  | none => exact .pure
  | some j =>
    exact .bind (.lift ((JWS.parse_only _).mono (by decide))) fun _ => .ite (fun _ => .fail (by decide)) fun _ => .bind (.lift (.okOr (by decide))) fun _ =>
      .bind (.lift (.okOr (by decide))) fun _ => .ite (fun _ => .fail (by decide)) fun _ => .bind .resolve fun _ => .bind (.lift (.okOr (by decide))) fun _ =>
      .bind (.lift (.okOr (by decide))) fun _ => .bind (.lift (.okOr (by decide))) fun _ => .bind (.lift ((curveFor_only _).mono (by decide))) fun _ =>
      .bind (.lift ((asCurve_only (VerificationMethod.asKeyPair_only _)).mono (by decide))) fun _ =>
      .bind (.lift (ParsedJWS.verify_only.mono (by decide))) fun _ =>
      .ite (fun _ => .fail (by decide)) fun _ => .bind (.lift (.okOr (by decide))) fun _ => .ite (fun _ => .fail (by decide)) fun _ => .pure

theorem tryUnpackPlaintext_kinds (msg : Str) (md : UnpackMetadata) : Fails readingKinds (tryUnpackPlaintext C msg md) := by
  unfold tryUnpackPlaintext
  refine .bind (.lift (.recognise (.fromJson (by decide) (by decide)))) fun j => ?_
  cases j with
  | none => exact .pure
  | some j =>
    refine .bind (.lift ((Message.validate_only _).mono (by decide))) fun m => ?_
    cases m.fromPrior with
    | none => exact .pure
    | some _ => exact .bind (FromPrior.unpack_kinds _) fun _ => .pure

theorem tryUnwrapForwarded_kinds (msg : Str) : Fails readingKinds (tryUnwrapForwarded C msg) := by
  unfold tryUnwrapForwarded
  refine .bind (.lift (.recognise (.fromJson (by decide) (by decide)))) fun j => ?_
  cases j with
  | none => exact .pure
  | some m =>
    simp only
    split
    · exact .pure
    · refine .bind ?_ fun _ => .ite (fun _ => .pure) fun _ => .pure
      unfold hasKeyAgreementSecret
      refine .bind ?_ fun _ => .bind .findSecrets fun _ => .pure
      split
      · exact .pure
      · exact .bind .resolve fun _ => .bind (.lift (.okOr (by decide))) fun _ => .pure

theorem unwrapLoop_kinds (o : UnpackOptions) : ∀ n msg md, Fails secretKinds (unwrapLoop C o n msg md) := by
  intro n
  induction n with
  | zero => intro msg md; unfold unwrapLoop; exact .lift (fun k h => by cases h)
  | succ n ih =>
    intro msg md
    unfold unwrapLoop
    refine .bind (tryUnpackAnoncrypt_kinds _ _ _) fun x => ?_
    obtain ⟨anon, md⟩ := x
    cases anon with
    | none => exact .pure
    | some p =>
      refine .ite (fun _ => .bind ((tryUnwrapForwarded_kinds _).mono (by decide)) fun f => ?_) fun _ => .pure
      cases f with
      | none => exact .pure
      | some i => exact ih _ _

theorem unpack_kinds (msg : Str) (o : UnpackOptions) : Fails secretKinds (unpack C msg o) := by
  unfold unpack
  exact .bind (unwrapLoop_kinds _ _ _ _) fun _ => .bind (tryUnpackAuthcrypt_kinds _ _ _) fun _ =>
    .bind ((tryUnpackSign_kinds _ _).mono (by decide)) fun _ => .bind ((tryUnpackPlaintext_kinds _ _).mono (by decide)) fun _ =>
    .bind (.lift (.okOr (by decide))) fun _ => .pure

end DIDComm
