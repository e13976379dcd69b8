import Verif.Proofs.Kinds
import Verif.Proofs.Trace

/-!
# What is said about missing things
-/

set_option autoImplicit false

namespace DIDComm

variable {C : Crypto} {α β : Type} {S : List ErrorKind} {F : List Str → Prop} {G : List ErrorKind}

def Tells (F : List Str → Prop) (G : List ErrorKind) (p : Prog α) : Prop :=
  ∀ tr r, Runs p tr r → SaysWhatIsMissing F G tr r

theorem append_cons_split {t1 t2 pre post : List Event} {ev : Event} (h : t1 ++ t2 = pre ++ ev :: post) :
    (∃ m, t2 = m ++ ev :: post) ∨ (∃ m, t1 = pre ++ ev :: m ∧ post = m ++ t2) := by
  rcases List.append_eq_append_iff.1 h with ⟨m, rfl, hm⟩ | ⟨m, hm, hm'⟩
  · exact .inl ⟨m, hm⟩
  · cases m with
    | nil => exact .inl ⟨[], by simpa using hm'.symm⟩
    | cons e m =>
      simp only [List.cons_append, List.cons.injEq] at hm'
      obtain ⟨rfl, rfl⟩ := hm'
      exact .inr ⟨m, hm, rfl⟩

namespace Tells

theorem quiet {x : Res α} (h : Only S x) (h1 : .didNotResolved ∉ S := by decide) (h2 : .secretNotFound ∉ S := by decide) :
    SaysWhatIsMissing F G [] x :=
  ⟨fun pre _ _ ht => by simp at ht, fun pre _ _ ht => by simp at ht, fun pre _ _ ht => by simp at ht,
    fun hx => absurd (h _ hx) h1, fun hx => absurd (h _ hx) h2⟩

theorem lift {x : Res α} (h : Only S x) (h1 : .didNotResolved ∉ S := by decide) (h2 : .secretNotFound ∉ S := by decide) :
    Tells F G (Prog.lift x) := by
  intro tr r hr
  obtain ⟨rfl, rfl⟩ := runs_lift.1 hr
  exact quiet h h1 h2

theorem pure {a : α} : Tells F G (pure a : Prog α) := lift (S := []) .ok

theorem okOr {k : ErrorKind} {o : Option α} (h1 : .didNotResolved ∉ [k] := by decide) (h2 : .secretNotFound ∉ [k] := by decide) :
    Tells F G (Prog.lift (DIDComm.okOr k o)) := lift (S := [k]) (.okOr List.mem_cons_self) h1 h2

theorem fail {k : ErrorKind} (h1 : .didNotResolved ∉ [k] := by decide) (h2 : .secretNotFound ∉ [k] := by decide) :
    Tells F G (Prog.fail k : Prog α) := lift (S := [k]) (.fail List.mem_cons_self) h1 h2

theorem ite {c : Prop} [Decidable c] {p q : Prog α} (hp : c → Tells F G p) (hq : ¬ c → Tells F G q) :
    Tells F G (if c then p else q) := by
  split
  · exact hp ‹_›
  · exact hq ‹_›

theorem mono {F' : List Str → Prop} {G' : List ErrorKind} {p : Prog α} (h : Tells F G p) (hF : ∀ ks, F ks → F' ks)
    (hG : ∀ k ∈ G, k ∈ G') : Tells F' G' p := by
  intro tr r hr
  obtain ⟨a, b, c, d, e⟩ := h tr r hr
  refine ⟨a, fun pre ks post ht => (b pre ks post ht).imp (hF ks) id, fun pre kid post ht => ?_, d, e⟩
  obtain ⟨h1, k, h2, h3⟩ := c pre kid post ht
  exact ⟨h1, k, hG k h2, h3⟩

/-- A run that goes on after one that succeeded. -/
theorem append {t1 t2 : List Event} {a : α} {r : Res β} (h1 : SaysWhatIsMissing F G t1 (.ok a : Res α))
    (h2 : SaysWhatIsMissing F G t2 r) : SaysWhatIsMissing F G (t1 ++ t2) r := by
  obtain ⟨a1, b1, c1, -, -⟩ := h1
  obtain ⟨a2, b2, c2, d2, e2⟩ := h2
  refine ⟨fun pre d post ht => ?_, fun pre d post ht => ?_, fun pre d post ht => ?_, fun hr => ?_, fun hr => ?_⟩
  · rcases append_cons_split ht with ⟨m, hm⟩ | ⟨m, hm, -⟩
    · exact a2 m d post hm
    · cases (a1 pre d m hm).2
  · rcases append_cons_split ht with ⟨m, hm⟩ | ⟨m, hm, -⟩
    · exact b2 m d post hm
    · rcases b1 pre d m hm with h | ⟨-, h⟩
      · exact .inl h
      · cases h
  · rcases append_cons_split ht with ⟨m, hm⟩ | ⟨m, hm, -⟩
    · exact c2 m d post hm
    · obtain ⟨-, k, -, h⟩ := c1 pre d m hm
      cases h
  · rcases d2 hr with ⟨d, h⟩ | ⟨ev, h, h'⟩
    · exact .inl ⟨d, List.mem_append_right _ h⟩
    · exact .inr ⟨ev, List.mem_append_right _ h, h'⟩
  · rcases e2 hr with ⟨d, h⟩ | ⟨d, h⟩ | ⟨ev, h, h'⟩
    · exact .inl ⟨d, List.mem_append_right _ h⟩
    · exact .inr (.inl ⟨d, List.mem_append_right _ h⟩)
    · exact .inr (.inr ⟨ev, List.mem_append_right _ h, h'⟩)

theorem error {t : List Event} {e : Err} (h : SaysWhatIsMissing F G t (.error e : Res α)) :
    SaysWhatIsMissing F G t (.error e : Res β) := by
  obtain ⟨a, b, c, d, e⟩ := h
  refine ⟨fun pre x post ht => ?_, fun pre x post ht => ?_, fun pre x post ht => ?_, fun hr => d ?_, fun hr => e ?_⟩
  · obtain ⟨h1, h2⟩ := a pre x post ht
    cases h2; exact ⟨h1, rfl⟩
  · refine (b pre x post ht).imp id fun ⟨h1, h2⟩ => ?_
    cases h2; exact ⟨h1, rfl⟩
  · obtain ⟨h1, k, hk, h2⟩ := c pre x post ht
    cases h2; exact ⟨h1, k, hk, rfl⟩
  · cases hr; rfl
  · cases hr; rfl

theorem bind' {p : Prog α} {f : α → Prog β} (hp : Tells F G p) (hf : ∀ a tr, Runs p tr (.ok a) → Tells F G (f a)) :
    Tells F G (p >>= f) := by
  intro tr r hr
  rcases runs_bind.1 hr with ⟨x, h1, rfl⟩ | ⟨a, t1, t2, rfl, h1, h2⟩
  · exact error (hp _ _ h1)
  · exact append (hp _ _ h1) (hf a t1 h1 _ _ h2)

theorem bind {p : Prog α} {f : α → Prog β} (hp : Tells F G p) (hf : ∀ a, Tells F G (f a)) : Tells F G (p >>= f) :=
  bind' hp fun a _ _ => hf a

/-- One question that failed. -/
theorem failed {ev : Event} {k : ErrorKind} (h : Failed ev k) : SaysWhatIsMissing F G [ev] (.error (.kind k) : Res α) := by
  refine ⟨fun pre d post ht => ?_, fun pre d post ht => ?_, fun pre d post ht => ?_, fun hr => ?_, fun hr => ?_⟩
  · rcases List.cons_eq_append_iff.1 ht with ⟨-, h'⟩ | ⟨m, -, h'⟩
    · cases h'; cases h
    · simp at h'
  · rcases List.cons_eq_append_iff.1 ht with ⟨-, h'⟩ | ⟨m, -, h'⟩
    · cases h'; cases h
    · simp at h'
  · rcases List.cons_eq_append_iff.1 ht with ⟨-, h'⟩ | ⟨m, -, h'⟩
    · cases h'; cases h
    · simp at h'
  · cases hr; exact .inr ⟨ev, List.mem_cons_self, h⟩
  · cases hr; exact .inr (.inr ⟨ev, List.mem_cons_self, h⟩)

/-- One question whose answer is of no concern. -/
theorem other {ev : Event} {x : Res α} (h1 : ∀ d, ev ≠ evResolve d none) (h2 : ∀ ks, ev = evFind ks [] → F ks)
    (h3 : ∀ k, ev ≠ evGet k none) (h4 : x ≠ .error (.kind .didNotResolved)) (h5 : x ≠ .error (.kind .secretNotFound)) :
    SaysWhatIsMissing F G [ev] x := by
  refine ⟨fun pre d post ht => ?_, fun pre d post ht => ?_, fun pre d post ht => ?_, fun hr => absurd hr h4, fun hr => absurd hr h5⟩
  · rcases List.cons_eq_append_iff.1 ht with ⟨-, h'⟩ | ⟨m, -, h'⟩
    · cases h'; exact absurd rfl (h1 d)
    · simp at h'
  · rcases List.cons_eq_append_iff.1 ht with ⟨-, h'⟩ | ⟨m, -, h'⟩
    · cases h'; exact .inl (h2 d rfl)
    · simp at h'
  · rcases List.cons_eq_append_iff.1 ht with ⟨-, h'⟩ | ⟨m, -, h'⟩
    · cases h'; exact absurd rfl (h3 d)
    · simp at h'

theorem random : Tells F G random := by
  intro tr r hr
  obtain ⟨n, rfl, rfl⟩ := runs_random.1 hr
  exact other (fun d h => by cases h) (fun d h => by cases h) (fun d h => by cases h) (fun h => by cases h) (fun h => by cases h)

/-- A search that may be empty. -/
theorem find {ks : List Str} (h : F ks) : Tells F G (findSecrets ks) := by
  intro tr r hr
  rcases runs_findSecrets.1 hr with ⟨x, rfl, rfl⟩ | ⟨k, rfl, rfl⟩
  · exact other (fun d h => by cases h) (fun d h' => by cases h'; exact h) (fun d h => by cases h) (fun h => by cases h) (fun h => by cases h)
  · exact failed rfl

theorem single_resolve (d : Str) : SaysWhatIsMissing F G [evResolve d none] (.error (.kind .didNotResolved) : Res α) := by
  refine ⟨fun pre x post ht => ?_, fun pre x post ht => ?_, fun pre x post ht => ?_, fun _ => .inl ⟨d, List.mem_cons_self⟩, fun hr => by cases hr⟩
  · rcases List.cons_eq_append_iff.1 ht with ⟨-, h'⟩ | ⟨m, -, h'⟩
    · cases h'; exact ⟨rfl, rfl⟩
    · simp at h'
  · rcases List.cons_eq_append_iff.1 ht with ⟨-, h'⟩ | ⟨m, -, h'⟩
    · cases h'
    · simp at h'
  · rcases List.cons_eq_append_iff.1 ht with ⟨-, h'⟩ | ⟨m, -, h'⟩
    · cases h'
    · simp at h'

theorem single_find (ks : List Str) : SaysWhatIsMissing F G [evFind ks []] (.error (.kind .secretNotFound) : Res α) := by
  refine ⟨fun pre x post ht => ?_, fun pre x post ht => ?_, fun pre x post ht => ?_, fun hr => (by cases hr), fun _ => .inl ⟨ks, List.mem_cons_self⟩⟩
  · rcases List.cons_eq_append_iff.1 ht with ⟨-, h'⟩ | ⟨m, -, h'⟩
    · cases h'
    · simp at h'
  · rcases List.cons_eq_append_iff.1 ht with ⟨-, h'⟩ | ⟨m, -, h'⟩
    · cases h'; exact .inr ⟨rfl, rfl⟩
    · simp at h'
  · rcases List.cons_eq_append_iff.1 ht with ⟨-, h'⟩ | ⟨m, -, h'⟩
    · cases h'
    · simp at h'

theorem single_get (kid : Str) {k : ErrorKind} (hk : k ∈ G) (hd : k ≠ .didNotResolved) :
    SaysWhatIsMissing F G [evGet kid none] (.error (.kind k) : Res α) := by
  refine ⟨fun pre x post ht => ?_, fun pre x post ht => ?_, fun pre x post ht => ?_, fun hr => ?_, fun _ => .inr (.inl ⟨kid, List.mem_cons_self⟩)⟩
  · rcases List.cons_eq_append_iff.1 ht with ⟨-, h'⟩ | ⟨m, -, h'⟩
    · cases h'
    · simp at h'
  · rcases List.cons_eq_append_iff.1 ht with ⟨-, h'⟩ | ⟨m, -, h'⟩
    · cases h'
    · simp at h'
  · rcases List.cons_eq_append_iff.1 ht with ⟨-, h'⟩ | ⟨m, -, h'⟩
    · cases h'; exact ⟨rfl, k, hk, rfl⟩
    · simp at h'
  · cases hr; exact absurd rfl hd

/-- A DID that must have a document. -/
theorem resolveOr {d : Str} {f : DIDDoc → Prog β} (hf : ∀ x, Tells F G (f x)) :
    Tells F G (resolve d >>= fun doc => Prog.lift (DIDComm.okOr .didNotResolved doc) >>= f) := by
  intro tr r hr
  rcases runs_bind.1 hr with ⟨x, h1, rfl⟩ | ⟨a, t1, t2, rfl, h1, h2⟩
  · rcases runs_resolve.1 h1 with ⟨y, -, hy⟩ | ⟨k, rfl, hy⟩
    · cases hy
    · cases hy; exact failed rfl
  · rcases runs_resolve.1 h1 with ⟨y, rfl, hy⟩ | ⟨k, -, hy⟩
    · cases hy
      cases a with
      | none =>
        obtain ⟨rfl, rfl⟩ := runs_ret.1 h2
        exact single_resolve d
      | some doc =>
        exact append (a := ()) (other (fun d h => by cases h) (fun d h => by cases h) (fun d h => by cases h)
          (fun h => by cases h) (fun h => by cases h)) (hf doc _ _ h2)
    · cases hy

theorem resolveOr_withKind {d : Str} {k : ErrorKind} {f : DIDDoc → Prog β} (hk : k ≠ .didNotResolved) (hk' : k ≠ .secretNotFound)
    (hf : ∀ x, Tells F G (f x)) :
    Tells F G ((resolve d).withKind k >>= fun doc => Prog.lift (DIDComm.okOr .didNotResolved doc) >>= f) := by
  intro tr r hr
  rcases runs_bind.1 hr with ⟨x, h1, rfl⟩ | ⟨a, t1, t2, rfl, h1, h2⟩
  · obtain ⟨r', h1, hx⟩ := runs_withKind.1 h1
    rcases runs_resolve.1 h1 with ⟨y, -, rfl⟩ | ⟨k', rfl, rfl⟩
    · cases hx
    · cases hx
      exact other (fun d h => by cases h) (fun d h => by cases h) (fun d h => by cases h)
        (fun h => by cases h; exact hk rfl) (fun h => by cases h; exact hk' rfl)
  · obtain ⟨r', h1, hx⟩ := runs_withKind.1 h1
    rcases runs_resolve.1 h1 with ⟨y, rfl, rfl⟩ | ⟨k', -, rfl⟩
    · cases hx
      cases a with
      | none =>
        obtain ⟨rfl, rfl⟩ := runs_ret.1 h2
        exact single_resolve d
      | some doc =>
        exact append (a := ()) (other (fun d h => by cases h) (fun d h => by cases h) (fun d h => by cases h)
          (fun h => by cases h) (fun h => by cases h)) (hf doc _ _ h2)
    · cases hx

/-- A search that must be successful. -/
theorem find_bind {ks : List Str} {f : List Str → Prog β} (h0 : f [] = Prog.fail .secretNotFound)
    (hf : ∀ x, x ≠ [] → Tells F G (f x)) : Tells F G (findSecrets ks >>= f) := by
  intro tr r hr
  rcases runs_bind.1 hr with ⟨x, h1, rfl⟩ | ⟨a, t1, t2, rfl, h1, h2⟩
  · rcases runs_findSecrets.1 h1 with ⟨y, -, hy⟩ | ⟨k, rfl, hy⟩
    · cases hy
    · cases hy; exact failed rfl
  · rcases runs_findSecrets.1 h1 with ⟨y, rfl, hy⟩ | ⟨k, -, hy⟩
    · cases hy
      cases a with
      | nil =>
        rw [h0] at h2
        obtain ⟨rfl, rfl⟩ := runs_ret.1 h2
        exact single_find ks
      | cons x l =>
        exact append (a := ()) (other (fun d h => by cases h) (fun d h => by cases h) (fun d h => by cases h)
          (fun h => by cases h) (fun h => by cases h)) (hf _ (by simp) _ _ h2)
    · cases hy

theorem findAny {ks : List Str} {f : List Str → Prog β} (hf : ∀ x, Tells F G (f x)) :
    Tells F G (findSecrets ks >>= fun found => if found.isEmpty then Prog.fail .secretNotFound else f found) :=
  find_bind rfl fun x hx => by
    simp only [List.isEmpty_iff, hx, if_false]
    exact hf x

theorem findHead {ks : List Str} {f : Str → Prog β} (hf : ∀ x, Tells F G (f x)) :
    Tells F G (findSecrets ks >>= fun found => Prog.lift (DIDComm.okOr .secretNotFound found.head?) >>= f) :=
  find_bind rfl fun x hx => by
    cases x with
    | nil => exact absurd rfl hx
    | cons a l => exact hf a

/-- A secret that must be there. -/
theorem getOr {kid : Str} {k : ErrorKind} {f : Secret → Prog β} (hk : k ∈ G) (hd : k ≠ .didNotResolved)
    (hf : ∀ x, Tells F G (f x)) :
    Tells F G (getSecret kid >>= fun s => Prog.lift (DIDComm.okOr k s) >>= f) := by
  intro tr r hr
  rcases runs_bind.1 hr with ⟨x, h1, rfl⟩ | ⟨a, t1, t2, rfl, h1, h2⟩
  · rcases runs_getSecret.1 h1 with ⟨y, -, hy⟩ | ⟨k, rfl, hy⟩
    · cases hy
    · cases hy; exact failed rfl
  · rcases runs_getSecret.1 h1 with ⟨y, rfl, hy⟩ | ⟨k, -, hy⟩
    · cases hy
      cases a with
      | none =>
        obtain ⟨rfl, rfl⟩ := runs_ret.1 h2
        exact single_get kid hk hd
      | some doc =>
        exact append (a := ()) (other (fun d h => by cases h) (fun d h => by cases h) (fun d h => by cases h)
          (fun h => by cases h) (fun h => by cases h)) (hf doc _ _ h2)
    · cases hy

end Tells

/-! ## `from_prior` -/

theorem FromPrior.unpack_tells (jwt : Str) : Tells F G (FromPrior.unpack C jwt) := by
  unfold FromPrior.unpack
  exact .bind (.lift (parseCompact_only _)) fun _ => .ite (fun _ => .fail) fun _ => .ite (fun _ => .fail) fun _ =>
    .resolveOr fun _ => .bind .okOr fun _ => .bind .okOr fun _ =>
    .bind (.lift (curveFor_only _)) fun _ => .bind (.lift (asCurve_only (VerificationMethod.asKeyPair_only _))) fun _ =>
    .bind (.lift ParsedCompactJWS.verify_only) fun _ => .ite (fun _ => .fail) fun _ => .bind .okOr fun _ =>
    .ite (fun _ => .fail) fun _ => .bind (.lift (S := [.malformed]) (.withKind (by decide))) fun _ => .lift (S := []) .ok

theorem FromPrior.pack_tells (hG : .secretNotFound ∈ G) (f : FromPrior) (k : Option Str) : Tells F G (f.pack C k) := by
  unfold FromPrior.pack
  exact .bind (.lift (FromPrior.validatePack_only _ _)) fun _ => .resolveOr fun _ =>
    .bind (.lift (FromPrior.authKids_only _ _ _)) fun _ => .findHead fun _ => .getOr hG (by decide) fun _ =>
    .bind (.lift (Secret.asKeyPair_only _)) fun _ => .bind (.lift (signAlgFor_only _)) fun _ =>
    .bind (.lift jwsSignCompact_only) fun _ => .lift (S := []) .ok

/-! ## Packing -/

theorem packPlaintext_tells (m : Message) : Tells F G (packPlaintext C m) := by
  unfold packPlaintext
  refine .bind ?_ fun _ => .bind (.lift (Message.validatePackPlaintext_only _ _)) fun _ => .lift (S := []) .ok
  unfold unpackFromPrior
  split
  · exact .pure
  · exact .bind (FromPrior.unpack_tells _) fun _ => .pure

theorem packSigned_tells (hG : .secretNotFound ∈ G) (m : Message) (s : Str) : Tells F G (packSigned C m s) := by
  unfold packSigned
  exact .ite (fun _ => .fail) fun _ => .resolveOr fun _ => .bind (.lift (signKids_only _ _)) fun _ => .findHead fun _ =>
    .getOr hG (by decide) fun _ => .bind (.lift (Secret.asKeyPair_only _)) fun _ => .bind (packPlaintext_tells _) fun _ =>
    .bind (.lift (signAlgFor_only _)) fun _ => .bind (.lift jwsSign_only) fun _ => .lift (S := []) .ok

theorem jweEncrypt_tells {ce : ContentEnc} {kdf : Kdf} {c : Curve} {pt : Bytes} {a : JweAlg} {en : EncAlg}
    {s : Option (Str × C.Key)} {rs : List (Str × C.Key)} : Tells F G (jweEncrypt C ce kdf c pt a en s rs) := by
  unfold jweEncrypt
  exact .bind .random fun _ => .bind .okOr fun _ => .bind .random fun _ => .bind .okOr fun _ =>
    .bind .okOr fun _ => .bind .random fun _ => .bind .okOr fun _ => .bind (.lift (wrapAll_only _)) fun _ => .lift (S := []) .ok

theorem anoncrypt_tells {to : Str} {msg : Bytes} {alg : AnonCryptAlg} : Tells F G (anoncrypt C to msg alg) := by
  unfold anoncrypt
  exact .resolveOr fun _ => .bind (.lift (agreementKids_only _ _)) fun _ => .bind (.lift (methodsOf_only _ _ _)) fun _ =>
    .bind .okOr fun _ => .ite (fun _ => .bind (.lift (keysOf_only _ _)) fun _ => .bind jweEncrypt_tells fun _ => .lift (S := []) .ok)
      fun _ => .fail

theorem authcrypt_tells (hG : .invalidState ∈ G) {to f : Str} {msg : Bytes} {a : AuthCryptAlg} {b : AnonCryptAlg} {ps : Bool} :
    Tells F G (authcrypt C to f msg a b ps) := by
  unfold authcrypt
  refine .resolveOr fun _ => .resolveOr fun _ => .bind (.lift (agreementKids_only _ _)) fun _ => .findAny fun _ =>
    .bind (.lift (methodsOf_only _ _ _)) fun _ => .bind (.lift (agreementKids_only _ _)) fun _ =>
    .bind (.lift (methodsOf_only _ _ _)) fun _ => .bind .okOr fun vm => .getOr hG (by decide) fun s => ?_
  split
  · exact .ite (fun _ => .bind (.lift (keysOf_only _ _)) fun _ => .bind (.lift (asCurve_only (Secret.asKeyPair_only _))) fun _ =>
      .bind jweEncrypt_tells fun _ => .ite (fun _ => .bind jweEncrypt_tells fun _ => .lift (S := []) .ok) fun _ => .lift (S := []) .ok)
      fun _ => .fail
  · exact .fail

theorem findDidCommService_tells (d : Str) (o : Option Str) : Tells F G (findDidCommService d o) := by
  unfold findDidCommService
  exact .resolveOr fun _ => .lift (selectService_only _ _)

theorem chainLoop_tells : ∀ n l u, Tells F G (chainLoop n l u) := by
  intro n
  induction n with
  | zero => intro l u; unfold chainLoop; exact .lift (S := []) (fun k h => by cases h)
  | succ n ih =>
    intro l u
    unfold chainLoop
    refine .ite (fun _ => .ite (fun _ => .fail) fun hl => ?_) fun _ => .pure
    exact .bind (findDidCommService_tells _ _) fun _ => .bind .okOr fun s => ih _ _

theorem servicesChain_tells (t : Str) (o : Option Str) : Tells F G (servicesChain t o) := by
  unfold servicesChain
  refine .bind (findDidCommService_tells _ _) fun s => ?_
  cases s with
  | none => exact .pure
  | some s => exact chainLoop_tells 3 _ _

theorem buildForwardMessage_tells {m n : Str} {h : Option (List (Str × Value))} : Tells F G (buildForwardMessage C m n h) := by
  unfold buildForwardMessage
  exact .bind (.lift (S := [.malformed]) (.withKind (by decide))) fun _ => .bind .random fun _ => .lift (S := []) .ok

theorem wrapLoop_tells {h : Option (List (Str × Value))} {a : AnonCryptAlg} : ∀ l m, Tells F G (wrapLoop C h a l m) := by
  intro l
  induction l with
  | nil => intro m; exact .pure
  | cons p r ih =>
    intro m
    obtain ⟨to, next⟩ := p
    unfold wrapLoop
    exact .bind buildForwardMessage_tells fun _ => .bind anoncrypt_tells fun _ => ih _

theorem wrapInForward_tells {m : Str} {h : Option (List (Str × Value))} {to : Str} {ks : List Str} {a : AnonCryptAlg} :
    Tells F G (wrapInForward C m h to ks a) := by
  unfold wrapInForward
  split
  · exact .lift (S := []) .panic
  · exact wrapLoop_tells _ _

theorem wrapInForwardIfNeeded_tells {m to : Str} {o : PackEncryptedOptions} : Tells F G (wrapInForwardIfNeeded C m to o) := by
  unfold wrapInForwardIfNeeded
  refine .ite (fun _ => .pure) fun _ => .bind (servicesChain_tells _ _) fun c => ?_
  split
  · exact .ite (fun _ => .pure) fun hk => .bind wrapInForward_tells fun _ => .pure
  · exact .pure

theorem packEncrypted_tells (m : Message) (to : Str) (f s : Option Str) (o : PackEncryptedOptions)
    (h1 : s.isSome = true → .secretNotFound ∈ G) (h2 : f.isSome = true → .invalidState ∈ G) :
    Tells F G (packEncrypted C m to f s o) := by
  unfold packEncrypted
  refine .bind (.lift (Message.validatePackEncrypted_only _ _ _ _)) fun _ =>
    .bind ?_ fun _ => .bind ?_ fun _ => .bind wrapInForwardIfNeeded_tells fun w => ?_
  · unfold packInner
    split
    · exact .bind (packSigned_tells (h1 rfl) _ _) fun _ => .pure
    · exact .bind (packPlaintext_tells _) fun _ => .pure
  · unfold packCrypt
    split
    · exact .bind (authcrypt_tells (h2 rfl)) fun _ => .pure
    · exact .bind anoncrypt_tells fun _ => .pure
  · split <;> exact .pure

/-! ## Unpacking -/

theorem decryptLoop_tells (hG : .invalidState ∈ G) {γ : Type} {all : Bool} {d : Str → KeyPair C → Res γ}
    (hd : ∀ k x, Only keyKinds (d k x)) : ∀ l acc, Tells F G (decryptLoop C all d l acc) := by
  intro l
  induction l with
  | nil => intro acc; exact .pure
  | cons k r ih =>
    intro acc
    unfold decryptLoop
    exact .getOr hG (by decide) fun _ => .bind (.lift (Secret.asKeyPair_only _)) fun _ => .bind (.lift (hd _ _)) fun _ =>
      .ite (fun _ => ih _) fun _ => .pure

theorem recognised_tells {d : Nat → Tree → Option α} {_ : Early d} {s : Str} : Tells F G (Prog.lift (recognise (fromJson d s))) :=
  .lift (S := [.malformed, .invalidState]) (.recognise (.fromJson (by decide) (by decide)))

theorem tryUnpackAnoncrypt_tells (hG : .invalidState ∈ G) (msg : Str) (o : UnpackOptions) (md : UnpackMetadata) :
    Tells F G (tryUnpackAnoncrypt C msg o md) := by
  unfold tryUnpackAnoncrypt
  refine .bind recognised_tells fun j => ?_
  cases j with
  | none => exact .pure
  | some j =>
    exact .bind (.lift (JWE.parse_only _)) fun _ => .ite (fun _ => .pure) fun _ =>
      .bind (.lift (ParsedJWE.verifyDidcomm_only _)) fun _ => .bind (.lift (checkRecipients_only _)) fun _ =>
      .findAny fun _ => .bind (decryptLoop_tells hG (fun _ _ => anonDecryptWith_only) _ _) fun _ => .bind .okOr fun _ =>
      .ite (fun _ => .fail) fun _ => .pure

theorem tryUnpackAuthcrypt_tells (hG : .invalidState ∈ G) (msg : Str) (o : UnpackOptions) (md : UnpackMetadata) :
    Tells F G (tryUnpackAuthcrypt C msg o md) := by
  unfold tryUnpackAuthcrypt
  refine .bind recognised_tells fun j => ?_
  cases j with
  | none => exact .pure
  | some j =>
    exact .bind (.lift (JWE.parse_only _)) fun _ => .ite (fun _ => .pure) fun _ =>
      .bind (.lift (ParsedJWE.verifyDidcomm_only _)) fun _ => .bind .okOr fun _ => .ite (fun _ => .fail) fun _ =>
      .ite (fun _ => .fail) fun _ => .resolveOr_withKind (by decide) (by decide) fun _ =>
      .bind .okOr fun _ => .bind .okOr fun _ => .bind (.lift (VerificationMethod.asKeyPair_only _)) fun _ =>
      .bind (.lift (checkRecipients_only _)) fun _ =>
      .findAny fun _ => .bind (decryptLoop_tells hG (fun _ _ => authDecryptWith_only) _ _) fun _ => .bind .okOr fun _ =>
      .ite (fun _ => .fail) fun _ => .pure

theorem tryUnpackSign_tells (msg : Str) (md : UnpackMetadata) : Tells F G (tryUnpackSign C msg md) := by
  unfold tryUnpackSign
  refine .bind recognised_tells fun j => ?_
  cases j with
  | none => exact .pure
  | some j =>
    exact .bind (.lift (JWS.parse_only _)) fun _ => .ite (fun _ => .fail) fun _ => .bind .okOr fun _ =>
      .bind .okOr fun _ => .ite (fun _ => .fail) fun _ => .resolveOr fun _ =>
      .bind .okOr fun _ => .bind .okOr fun _ => .bind (.lift (curveFor_only _)) fun _ =>
      .bind (.lift (asCurve_only (VerificationMethod.asKeyPair_only _))) fun _ => .bind (.lift ParsedJWS.verify_only) fun _ =>
      .ite (fun _ => .fail) fun _ => .bind .okOr fun _ => .ite (fun _ => .fail) fun _ => .pure

theorem tryUnpackPlaintext_tells (msg : Str) (md : UnpackMetadata) : Tells F G (tryUnpackPlaintext C msg md) := by
  unfold tryUnpackPlaintext
  refine .bind recognised_tells fun j => ?_
  cases j with
  | none => exact .pure
  | some j =>
    refine .bind (.lift (Message.validate_only _)) fun m => ?_
    cases m.fromPrior with
    | none => exact .pure
    | some _ => exact .bind (FromPrior.unpack_tells _) fun _ => .pure

theorem tryUnwrapForwarded_tells {msg0 msg : Str} (hw : Within C msg0 msg) : Tells (ForTarget C msg0) G (tryUnwrapForwarded C msg) := by
  unfold tryUnwrapForwarded
  refine .bind' recognised_tells fun j t hj => ?_
  have hj := (runs_lift.1 hj).2
  cases j with
  | none => exact .pure
  | some m =>
    simp only
    split
    · exact .pure
    · rename_i f hf
      refine .bind ?_ fun _ => .ite (fun _ => .pure) fun _ => .pure
      have hm := recognise_ok_some.1 hj.symm
      have hf := (C41_only m f.next f.forwardedMsg).1 hf
      unfold hasKeyAgreementSecret
      refine .bind' ?_ fun ks t hk => .bind (.find ⟨msg, m, f.next, f.forwardedMsg, hw, hm, hf, fun hfr => ?_⟩) fun _ => .pure
      · split
        · exact .pure
        · exact .resolveOr fun _ => .pure
      · have := didOrUrl_snd f.next
        rw [if_pos hfr] at this
        split at hk
        · rename_i did kid hd
          obtain ⟨rfl, hk⟩ := runs_pure.1 hk
          cases hk
          rw [hd] at this
          cases this; rfl
        · rename_i did hd
          rw [hd] at this
          cases this

theorem unwrapLoop_tells (hG : .invalidState ∈ G) {msg0 : Str} (o : UnpackOptions) : ∀ n msg md, Within C msg0 msg →
    Tells (ForTarget C msg0) G (unwrapLoop C o n msg md) := by
  intro n
  induction n with
  | zero => intro msg md _; unfold unwrapLoop; exact .lift (S := []) (fun k h => by cases h)
  | succ n ih =>
    intro msg md hw
    unfold unwrapLoop
    refine .bind' (tryUnpackAnoncrypt_tells hG _ _ _) fun x t hx => ?_
    obtain ⟨anon, md⟩ := x
    cases anon with
    | none => exact .pure
    | some p =>
      obtain ⟨kids, alg, kid, secret, key, ho, -, -, -, hu, -⟩ := anon_layer hx
      have hw2 := hw.trans (.anon ho ((validUtf8_iff _).1 hu) (.here _))
      refine .ite (fun _ => .bind' (tryUnwrapForwarded_tells hw2) fun f t hf => ?_) fun _ => .pure
      cases f with
      | none => exact .pure
      | some i =>
        obtain ⟨m, next, v, h1, h2, rfl, -⟩ := forwarded_layer hf
        exact ih _ _ (hw2.trans (.forward h1 h2 (.here _)))

theorem unpack_tells (hG : .invalidState ∈ G) (msg : Str) (o : UnpackOptions) : Tells (ForTarget C msg) G (unpack C msg o) := by
  unfold unpack
  exact .bind (unwrapLoop_tells hG _ _ _ _ (.here _)) fun _ => .bind (tryUnpackAuthcrypt_tells hG _ _ _) fun _ =>
    .bind (tryUnpackSign_tells _ _) fun _ => .bind (tryUnpackPlaintext_tells _ _) fun _ => .bind .okOr fun _ => .pure

end DIDComm
