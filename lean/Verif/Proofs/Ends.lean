import Verif.Proofs.Tame
import Verif.Proofs.Runs

/-!
# How operations can fail

`Ends P G p`: an error of `p` is an error kind; or a panic, and then a short secret was handed out
or `P` holds; or `G` holds of it.
-/

set_option autoImplicit false

namespace DIDComm

variable {C : Crypto} {α β : Type} {P : Prop} {G : Err → Prop}

def Ends (P : Prop) (G : Err → Prop) (p : Prog α) : Prop :=
  ∀ tr e, Runs p tr (.error e) → (∃ k, e = .kind k) ∨ (e = .panic ∧ (P ∨ ¬ NoShortSecret tr)) ∨ G e

theorem noShort_append {a b : List Event} : NoShortSecret (a ++ b) ↔ NoShortSecret a ∧ NoShortSecret b := by
  unfold NoShortSecret
  simp only [List.mem_append]
  constructor
  · intro h; exact ⟨fun k s hs => h k s (.inl hs), fun k s hs => h k s (.inr hs)⟩
  · rintro ⟨h1, h2⟩ k s (hs | hs)
    · exact h1 k s hs
    · exact h2 k s hs

namespace Ends

theorem lift {x : Res α} (h : Tame x) : Ends P G (Prog.lift x) := by
  intro tr e hr
  obtain ⟨rfl, rfl⟩ := runs_lift.1 hr
  exact .inl (h e rfl)

theorem pure {a : α} : Ends P G (pure a : Prog α) := lift Tame.ok

theorem fail {k : ErrorKind} : Ends P G (Prog.fail k : Prog α) := lift Tame.fail

theorem bind {p : Prog α} {f : α → Prog β} (hp : Ends P G p) (hf : ∀ a, Ends P G (f a)) : Ends P G (p >>= f) := by
  intro tr e hr
  rcases runs_bind_error.1 hr with h | ⟨a, t1, t2, rfl, -, h⟩
  · exact hp tr e h
  · rcases hf a t2 e h with h | ⟨h, hs⟩ | h
    · exact .inl h
    · refine .inr (.inl ⟨h, ?_⟩)
      rcases hs with hs | hs
      · exact .inl hs
      · exact .inr fun hn => hs (noShort_append.1 hn).2
    · exact .inr (.inr h)

theorem ite {c : Prop} [Decidable c] {p q : Prog α} (hp : c → Ends P G p) (hq : ¬ c → Ends P G q) :
    Ends P G (if c then p else q) := by
  split
  · exact hp ‹_›
  · exact hq ‹_›

theorem resolve {d : Str} : Ends P G (resolve d) := by
  intro tr e hr
  rcases runs_resolve.1 hr with ⟨_, _, h⟩ | ⟨k, _, h⟩ <;> cases h
  exact .inl ⟨k, rfl⟩

theorem findSecrets {l : List Str} : Ends P G (findSecrets l) := by
  intro tr e hr
  rcases runs_findSecrets.1 hr with ⟨_, _, h⟩ | ⟨k, _, h⟩ <;> cases h
  exact .inl ⟨k, rfl⟩

theorem random : Ends P G random := by
  intro tr e hr
  obtain ⟨_, _, h⟩ := runs_random.1 hr
  cases h

theorem getSecret_bind {kid : Str} {f : Option Secret → Prog β}
    (hf : ∀ s, Ends (P ∨ ∃ x, s = some x ∧ ShortEd25519 x) G (f s)) : Ends P G (getSecret kid >>= f) := by
  intro tr e hr
  rcases runs_bind_error.1 hr with h | ⟨a, t1, t2, rfl, h1, h⟩
  · rcases runs_getSecret.1 h with ⟨_, _, h⟩ | ⟨k, _, h⟩ <;> cases h
    exact .inl ⟨k, rfl⟩
  · rcases hf a t2 e h with h | ⟨h, hs⟩ | h
    · exact .inl h
    · refine .inr (.inl ⟨h, ?_⟩)
      rcases hs with (hs | ⟨x, rfl, hx⟩) | hs
      · exact .inl hs
      · refine .inr fun hn => ?_
        rcases runs_getSecret.1 h1 with ⟨y, rfl, h⟩ | ⟨k, _, h⟩
        · cases h; exact hn kid x (by simp) hx
        · cases h
      · exact .inr fun hn => hs (noShort_append.1 hn).2
    · exact .inr (.inr h)

theorem withKind {k : ErrorKind} {p : Prog α} (hp : Ends P G p) (hG : ∀ e, G e → Tame (withKind k (.error e : Res α)) ∨ G e) :
    Ends P G (p.withKind k) := by
  intro tr e hr
  obtain ⟨r', h, he⟩ := runs_withKind.1 hr
  cases r' with
  | ok a => cases he
  | error e' =>
    rcases hp tr e' h with ⟨k', rfl⟩ | ⟨rfl, hs⟩ | h
    · cases he; exact .inl ⟨k, rfl⟩
    · cases he; exact .inr (.inl ⟨rfl, hs⟩)
    · cases e' with
      | kind k' => cases he; exact .inl ⟨k, rfl⟩
      | panic => cases he; exact .inr (.inr h)
      | fuel => cases he; exact .inr (.inr h)

theorem key {s : Secret} (h : ShortEd25519 s → P) : Ends P G (Prog.lift (s.asKeyPair C)) := by
  intro tr e hr
  obtain ⟨rfl, he⟩ := runs_lift.1 hr
  rcases Secret.asKeyPair_error he.symm with hk | ⟨hp, hs⟩
  · exact .inl hk
  · exact .inr (.inl ⟨hp, .inl (h hs)⟩)

theorem as {s : Secret} {c : Curve} (h : ShortEd25519 s → P) : Ends P G (Prog.lift (s.as C c)) := by
  intro tr e hr
  obtain ⟨rfl, he⟩ := runs_lift.1 hr
  unfold Secret.as asCurve at he
  split at he
  · cases he; exact .inl ⟨_, rfl⟩
  · rcases res_bind_error.1 he.symm with h1 | ⟨a, -, h1⟩
    · rcases Secret.asKeyPair_error h1 with hk | ⟨hp, hs⟩
      · exact .inl hk
      · exact .inr (.inl ⟨hp, .inl (h hs)⟩)
    · split at h1
      · cases h1
      · cases h1; exact .inl ⟨_, rfl⟩

theorem mono {Q : Prop} {p : Prog α} (h : Ends P G p) (hq : P → Q) : Ends Q G p := by
  intro tr e hr
  rcases h tr e hr with h | ⟨h, hs⟩ | h
  · exact .inl h
  · exact .inr (.inl ⟨h, hs.imp hq id⟩)
  · exact .inr (.inr h)

/-- A secret that was asked for, and must be there. -/
theorem getSecret_some {kid : Str} {k : ErrorKind} {f : Secret → Prog β}
    (hf : ∀ s, Ends (P ∨ ShortEd25519 s) G (f s)) :
    Ends P G (getSecret kid >>= fun s => Prog.lift (okOr k s) >>= f) := by
  refine getSecret_bind fun s => ?_
  cases s with
  | none => exact fail
  | some s =>
    change Ends _ _ (f s)
    exact (hf s).mono fun h => h.imp id fun h => ⟨s, rfl, h⟩

end Ends

/-! ## `from_prior` -/

theorem FromPrior.unpack_ends (jwt : Str) : Ends P G (FromPrior.unpack C jwt) := by
  unfold FromPrior.unpack
  refine .bind (.lift (parseCompact_tame _)) fun _ => .ite (fun _ => .fail) fun _ => .ite (fun _ => .fail) fun _ =>
    .bind .resolve fun _ => .bind (.lift .okOr) fun _ => .bind (.lift .okOr) fun _ => .bind (.lift .okOr) fun _ =>
    .bind (.lift (curveFor_tame _)) fun _ => .bind (.lift (asCurve_tame (VerificationMethod.asKeyPair_tame _))) fun _ =>
    .bind (.lift ParsedCompactJWS.verify_tame) fun _ => .ite (fun _ => .fail) fun _ => .bind (.lift .okOr) fun _ =>
    .ite (fun _ => .fail) fun _ => .bind (.lift (.withKind .fromJson)) fun _ => .lift .ok

theorem FromPrior.pack_ends (f : FromPrior) (k : Option Str) : Ends P G (f.pack C k) := by
  unfold FromPrior.pack
  exact .bind (.lift (FromPrior.validatePack_tame _ _)) fun _ => .bind .resolve fun _ => .bind (.lift .okOr) fun _ =>
    .bind (.lift (FromPrior.authKids_tame _ _ _)) fun _ => .bind .findSecrets fun _ => .bind (.lift .okOr) fun _ =>
    .getSecret_some fun _ => .bind (.key .inr) fun _ => .bind (.lift (signAlgFor_tame _)) fun _ =>
    .bind (.lift jwsSignCompact_tame) fun _ => .lift .ok

/-! ## Packing -/

theorem packPlaintext_ends (m : Message) : Ends P G (packPlaintext C m) := by
  unfold packPlaintext
  refine .bind ?_ fun _ => .bind (.lift (Message.validatePackPlaintext_tame _ _)) fun _ => .lift .ok
  unfold unpackFromPrior
  split
  · exact .pure
  · exact .bind (FromPrior.unpack_ends _) fun _ => .pure

theorem packSigned_ends (m : Message) (s : Str) : Ends P G (packSigned C m s) := by
  unfold packSigned
  exact .ite (fun _ => .fail) fun _ => .bind .resolve fun _ => .bind (.lift .okOr) fun _ =>
    .bind (.lift (signKids_tame _ _)) fun _ => .bind .findSecrets fun _ => .bind (.lift .okOr) fun _ =>
    .getSecret_some fun _ => .bind (.key .inr) fun _ => .bind (packPlaintext_ends _) fun _ =>
    .bind (.lift (signAlgFor_tame _)) fun _ => .bind (.lift jwsSign_tame) fun _ => .lift .ok

theorem jweEncrypt_ends {ce : ContentEnc} {kdf : Kdf} {c : Curve} {pt : Bytes} {a : JweAlg} {en : EncAlg}
    {s : Option (Str × C.Key)} {rs : List (Str × C.Key)} : Ends P G (jweEncrypt C ce kdf c pt a en s rs) := by
  unfold jweEncrypt
  exact .bind .random fun _ => .bind (.lift .okOr) fun _ => .bind .random fun _ => .bind (.lift .okOr) fun _ =>
    .bind (.lift .okOr) fun _ => .bind .random fun _ => .bind (.lift .okOr) fun _ => .bind (.lift (wrapAll_tame _)) fun _ =>
    .lift .ok

theorem anoncrypt_ends {to : Str} {msg : Bytes} {alg : AnonCryptAlg} : Ends P G (anoncrypt C to msg alg) := by
  unfold anoncrypt
  exact .bind .resolve fun _ => .bind (.lift .okOr) fun _ => .bind (.lift (agreementKids_tame _ _)) fun _ =>
    .bind (.lift (methodsOf_tame _ _ _)) fun _ => .bind (.lift .okOr) fun _ =>
    .ite (fun _ => .bind (.lift (keysOf_tame _ _)) fun _ => .bind jweEncrypt_ends fun _ => .lift .ok) fun _ => .fail

theorem authcrypt_ends {to f : Str} {msg : Bytes} {a : AuthCryptAlg} {b : AnonCryptAlg} {ps : Bool} :
    Ends P G (authcrypt C to f msg a b ps) := by
  unfold authcrypt
  refine .bind .resolve fun _ => .bind (.lift .okOr) fun _ => .bind .resolve fun _ => .bind (.lift .okOr) fun _ =>
    .bind (.lift (agreementKids_tame _ _)) fun _ => .bind .findSecrets fun _ => .ite (fun _ => .fail) fun _ =>
    .bind (.lift (methodsOf_tame _ _ _)) fun _ => .bind (.lift (agreementKids_tame _ _)) fun _ =>
    .bind (.lift (methodsOf_tame _ _ _)) fun _ => .bind (.lift .okOr) fun vm => .getSecret_some fun _ => ?_
  split
  · refine .ite (fun _ => .bind (.lift (keysOf_tame _ _)) fun _ => .bind (.as .inr) fun _ =>
      .bind jweEncrypt_ends fun _ => .ite (fun _ => .bind jweEncrypt_ends fun _ => .lift .ok) fun _ => .lift .ok)
      fun _ => .fail
  · exact .fail

theorem findDidCommService_ends (d : Str) (o : Option Str) : Ends P G (findDidCommService d o) := by
  unfold findDidCommService
  exact .bind .resolve fun _ => .bind (.lift .okOr) fun _ => .lift (selectService_tame _ _)

theorem chainLoop_ends : ∀ n l u, 2 < n + l.length → 1 ≤ n → Ends P G (chainLoop n l u) := by
  intro n
  induction n with
  | zero => intro l u _ h; omega
  | succ n ih =>
    intro l u h _
    unfold chainLoop
    refine .ite (fun _ => .ite (fun _ => .fail) fun hl => ?_) fun _ => .pure
    refine .bind (findDidCommService_ends _ _) fun _ => .bind (.lift .okOr) fun s => ?_
    exact ih _ _ (by simp only [List.length_cons]; omega) (by omega)

theorem servicesChain_ends (t : Str) (o : Option Str) : Ends P G (servicesChain t o) := by
  unfold servicesChain
  refine .bind (findDidCommService_ends _ _) fun s => ?_
  cases s with
  | none => exact .pure
  | some s => exact chainLoop_ends 3 _ _ (by simp) (by decide)

theorem buildForwardMessage_ends {m n : Str} {h : Option (List (Str × Value))} : Ends P G (buildForwardMessage C m n h) := by
  unfold buildForwardMessage
  exact .bind (.lift (.withKind .fromJson)) fun _ => .bind .random fun _ => .lift .ok

theorem wrapLoop_ends {h : Option (List (Str × Value))} {a : AnonCryptAlg} : ∀ l m, Ends P G (wrapLoop C h a l m) := by
  intro l
  induction l with
  | nil => intro m; exact .pure
  | cons p r ih =>
    intro m
    obtain ⟨to, next⟩ := p
    unfold wrapLoop
    exact .bind buildForwardMessage_ends fun _ => .bind anoncrypt_ends fun _ => ih _

theorem wrapInForward_ends {m : Str} {h : Option (List (Str × Value))} {to : Str} {ks : List Str} {a : AnonCryptAlg}
    (hk : ks ≠ []) : Ends P G (wrapInForward C m h to ks a) := by
  unfold wrapInForward
  split
  · exact absurd rfl hk
  · exact wrapLoop_ends _ _

theorem wrapInForwardIfNeeded_ends {m to : Str} {o : PackEncryptedOptions} : Ends P G (wrapInForwardIfNeeded C m to o) := by
  unfold wrapInForwardIfNeeded
  refine .ite (fun _ => .pure) fun _ => .bind (servicesChain_ends _ _) fun c => ?_
  split
  · refine .ite (fun _ => .pure) fun hk => .bind (wrapInForward_ends ?_) fun _ => .pure
    intro h; exact hk (by simp [h])
  · exact .pure

theorem packEncrypted_ends (m : Message) (to : Str) (f s : Option Str) (o : PackEncryptedOptions) :
    Ends P G (packEncrypted C m to f s o) := by
  unfold packEncrypted
  refine .bind (.lift (Message.validatePackEncrypted_tame _ _ _ _)) fun _ => .bind ?_ fun _ => .bind ?_ fun _ =>
    .bind wrapInForwardIfNeeded_ends fun w => ?_
  · unfold packInner
    split
    · exact .bind (packSigned_ends _ _) fun _ => .pure
    · exact .bind (packPlaintext_ends _) fun _ => .pure
  · unfold packCrypt
    split
    · exact .bind authcrypt_ends fun _ => .pure
    · exact .bind anoncrypt_ends fun _ => .pure
  · split <;> exact .pure

/-! ## Unpacking -/

theorem decryptLoop_ends {γ : Type} {all : Bool} {d : Str → KeyPair C → Res γ} (hd : ∀ k x, Tame (d k x)) :
    ∀ l acc, Ends P G (decryptLoop C all d l acc) := by
  intro l
  induction l generalizing P with
  | nil => intro acc; exact .pure
  | cons k r ih =>
    intro acc
    unfold decryptLoop
    exact .getSecret_some fun _ => .bind (.key .inr) fun _ => .bind (.lift (hd _ _)) fun _ =>
      .ite (fun _ => ih _) fun _ => .pure

theorem tryUnpackAnoncrypt_ends (msg : Str) (o : UnpackOptions) (md : UnpackMetadata) :
    Ends P G (tryUnpackAnoncrypt C msg o md) := by
  unfold tryUnpackAnoncrypt
  refine .bind (.lift (.recognise .fromJson)) fun j => ?_
  cases j with
  | none => exact .pure
  | some j =>
    exact .bind (.lift (JWE.parse_tame _)) fun _ => .ite (fun _ => .pure) fun _ =>
      .bind (.lift (ParsedJWE.verifyDidcomm_tame _)) fun _ => .bind (.lift (checkRecipients_tame _)) fun _ =>
      .bind .findSecrets fun _ => .ite (fun _ => .fail) fun _ =>
      .bind (decryptLoop_ends (fun _ _ => anonDecryptWith_tame) _ _) fun _ => .bind (.lift .okOr) fun _ =>
      .ite (fun _ => .fail) fun _ => .pure

theorem tryUnpackAuthcrypt_ends (msg : Str) (o : UnpackOptions) (md : UnpackMetadata) :
    Ends P (fun _ => False) (tryUnpackAuthcrypt C msg o md) := by
  unfold tryUnpackAuthcrypt
  refine .bind (.lift (.recognise .fromJson)) fun j => ?_
  cases j with
  | none => exact .pure
  | some j =>
    exact .bind (.lift (JWE.parse_tame _)) fun _ => .ite (fun _ => .pure) fun _ =>
      .bind (.lift (ParsedJWE.verifyDidcomm_tame _)) fun _ => .bind (.lift .okOr) fun _ => .ite (fun _ => .fail) fun _ =>
      .ite (fun _ => .fail) fun _ => .bind (.withKind .resolve (fun _ h => h.elim)) fun _ => .bind (.lift .okOr) fun _ =>
      .bind (.lift .okOr) fun _ => .bind (.lift .okOr) fun _ => .bind (.lift (VerificationMethod.asKeyPair_tame _)) fun _ =>
      .bind (.lift (checkRecipients_tame _)) fun _ =>
      .bind .findSecrets fun _ => .ite (fun _ => .fail) fun _ =>
      .bind (decryptLoop_ends (fun _ _ => authDecryptWith_tame) _ _) fun _ => .bind (.lift .okOr) fun _ =>
      .ite (fun _ => .fail) fun _ => .pure

theorem tryUnpackSign_ends (msg : Str) (md : UnpackMetadata) : Ends P G (tryUnpackSign C msg md) := by
  unfold tryUnpackSign
  refine .bind (.lift (.recognise .fromJson)) fun j => ?_
  cases j with
  | none => exact .pure
  | some j =>
    exact .bind (.lift (JWS.parse_tame _)) fun _ => .ite (fun _ => .fail) fun _ => .bind (.lift .okOr) fun _ =>
      .bind (.lift .okOr) fun _ => .ite (fun _ => .fail) fun _ => .bind .resolve fun _ => .bind (.lift .okOr) fun _ =>
      .bind (.lift .okOr) fun _ => .bind (.lift .okOr) fun _ => .bind (.lift (curveFor_tame _)) fun _ =>
      .bind (.lift (asCurve_tame (VerificationMethod.asKeyPair_tame _))) fun _ => .bind (.lift ParsedJWS.verify_tame) fun _ =>
      .ite (fun _ => .fail) fun _ => .bind (.lift .okOr) fun _ => .ite (fun _ => .fail) fun _ => .pure

theorem tryUnpackPlaintext_ends (msg : Str) (md : UnpackMetadata) : Ends P G (tryUnpackPlaintext C msg md) := by
  unfold tryUnpackPlaintext
  refine .bind (.lift (.recognise .fromJson)) fun j => ?_
  cases j with
  | none => exact .pure
  | some j =>
    refine .bind (.lift (Message.validate_tame _)) fun m => ?_
    cases m.fromPrior with
    | none => exact .pure
    | some _ => exact .bind (FromPrior.unpack_ends _) fun _ => .pure

theorem tryUnwrapForwarded_ends (msg : Str) : Ends P G (tryUnwrapForwarded C msg) := by
  unfold tryUnwrapForwarded
  refine .bind (.lift (.recognise .fromJson)) fun j => ?_
  cases j with
  | none => exact .pure
  | some m =>
    simp only
    split
    · exact .pure
    · refine .bind ?_ fun _ => .ite (fun _ => .pure) fun _ => .pure
      unfold hasKeyAgreementSecret
      refine .bind ?_ fun _ => .bind .findSecrets fun _ => .pure
      split
      · exact .pure
      · exact .bind .resolve fun _ => .bind (.lift .okOr) fun _ => .pure

theorem unwrapLoop_ends (o : UnpackOptions) : ∀ n msg md, Ends P (fun e => e = .fuel) (unwrapLoop C o n msg md) := by
  intro n
  induction n with
  | zero =>
    intro msg md tr e h
    obtain ⟨-, h⟩ := runs_ret.1 h
    cases h; exact .inr (.inr rfl)
  | succ n ih =>
    intro msg md
    unfold unwrapLoop
    refine .bind (tryUnpackAnoncrypt_ends _ _ _) fun x => ?_
    obtain ⟨anon, md⟩ := x
    cases anon with
    | none => exact .pure
    | some p =>
      refine .ite (fun _ => .bind (tryUnwrapForwarded_ends _) fun f => ?_) fun _ => .pure
      cases f with
      | none => exact .pure
      | some i => exact ih _ _

theorem Ends.noG {p : Prog α} (h : Ends P (fun _ => False) p) : Ends P G p := by
  intro tr e hr
  rcases h tr e hr with h | h | h
  · exact .inl h
  · exact .inr (.inl h)
  · exact h.elim

theorem unpack_ends (msg : Str) (o : UnpackOptions) : Ends P (fun e => e = .fuel) (unpack C msg o) := by
  unfold unpack
  exact .bind (unwrapLoop_ends _ _ _ _) fun _ => .bind (tryUnpackAuthcrypt_ends _ _ _).noG fun _ =>
    .bind (tryUnpackSign_ends _ _) fun _ => .bind (tryUnpackPlaintext_ends _ _) fun _ => .bind (.lift .okOr) fun _ => .pure

end DIDComm
