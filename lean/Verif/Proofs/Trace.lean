import Verif.Spec.Trace
import Verif.Proofs.Evidence
import Verif.Proofs.Select
import Verif.Props.Routing

/-! # Which questions are asked, and what happens when one fails -/

set_option autoImplicit false

namespace DIDComm

variable {α β : Type} {C : Crypto}

/-- Every question of the program is allowed by `S` after the history it has (which starts with `h`); a question
that fails is the last one, and the program ends with the same kind of error, or with one that `K` allows. -/
def Obeys (S : List Event → Query → Prop) (K : Query → ErrorKind → Prop) (h : List Event) (p : Prog α) : Prop :=
  ∀ tr r, Runs p tr r → ∀ pre e post, tr = pre ++ e :: post →
    S (h ++ pre) e.query ∧ ∀ k, Failed e k → post = [] ∧ ∃ k', r = .error (.kind k') ∧ (k' = k ∨ K e.query k')

variable {S : List Event → Query → Prop} {K : Query → ErrorKind → Prop} {h : List Event}

namespace Obeys

theorem ret {r : Res α} : Obeys S K h (.ret r) := by
  intro tr r' hr pre e post ht
  rw [(runs_ret.1 hr).1] at ht
  simp at ht

theorem lift {r : Res α} : Obeys S K h (Prog.lift r) := ret
theorem pure {a : α} : Obeys S K h (Pure.pure a : Prog α) := ret
theorem fail {k : ErrorKind} : Obeys S K h (Prog.fail k : Prog α) := ret

/-- One question. -/
theorem ask {q : Query} {k : q.Ans → Prog α} (hq : S h q) (hk : ∀ a, Obeys S K (h ++ [⟨q, a⟩]) (k a))
    (hf : ∀ a x, Failed ⟨q, a⟩ x → ∃ y, k a = .ret (.error (.kind y)) ∧ (y = x ∨ K q y)) : Obeys S K h (.ask q k) := by
  intro tr r hr pre e post ht
  obtain ⟨a, tr', rfl, hr2⟩ := runs_ask.1 hr
  cases pre with
  | nil =>
    simp only [List.nil_append, List.cons.injEq] at ht
    obtain ⟨rfl, rfl⟩ := ht
    refine ⟨by simpa using hq, fun x hx => ?_⟩
    obtain ⟨y, hy, hy'⟩ := hf a x hx
    rw [hy] at hr2
    obtain ⟨rfl, rfl⟩ := runs_ret.1 hr2
    exact ⟨rfl, y, rfl, hy'⟩
  | cons e' pre =>
    simp only [List.cons_append, List.cons.injEq] at ht
    obtain ⟨rfl, rfl⟩ := ht
    have := hk a _ _ hr2 pre e post rfl
    simpa using this

theorem bind {p : Prog α} {f : α → Prog β} (hp : Obeys S K h p)
    (hf : ∀ a tr, Runs p tr (.ok a) → Obeys S K (h ++ tr) (f a)) : Obeys S K h (p >>= f) := by
  intro tr r hr pre e post ht
  rcases runs_bind.1 hr with ⟨x, h1, rfl⟩ | ⟨a, t1, t2, rfl, h1, h2⟩
  · obtain ⟨s, hs⟩ := hp _ _ h1 pre e post ht
    refine ⟨s, fun k hk => ?_⟩
    obtain ⟨q, k', hk', hy⟩ := hs k hk
    cases hk'
    exact ⟨q, k', rfl, hy⟩
  · rcases List.append_eq_append_iff.1 ht with ⟨m, rfl, hm⟩ | ⟨m, hm, hm'⟩
    · have := hf a t1 h1 _ _ h2 m e post hm
      rw [List.append_assoc] at this
      exact this
    · cases m with
      | nil =>
        simp only [List.nil_append, List.append_nil] at hm hm'
        subst hm
        have := hf a _ h1 _ _ h2 [] e post (by simp [hm'])
        simpa using this
      | cons e' m =>
        simp only [List.cons_append, List.cons.injEq] at hm'
        obtain ⟨rfl, rfl⟩ := hm'
        obtain ⟨s, hs⟩ := hp _ _ h1 pre e m hm
        refine ⟨s, fun k hk => ?_⟩
        obtain ⟨-, k', hk', -⟩ := hs k hk
        cases hk'

theorem lift_bind {x : Res α} {f : α → Prog β} (hf : ∀ a, x = .ok a → Obeys S K h (f a)) :
    Obeys S K h (Prog.lift x >>= f) := by
  cases x with
  | error e => exact ret
  | ok a => exact hf a rfl

theorem ite {c : Prop} [Decidable c] {p q : Prog α} (hp : c → Obeys S K h p) (hq : ¬ c → Obeys S K h q) :
    Obeys S K h (if c then p else q) := by
  split
  · rename_i hc; exact hp hc
  · rename_i hc; exact hq hc

theorem resolve {d : Str} (hq : S h (.resolve d)) : Obeys S K h (DIDComm.resolve d) := by
  refine ask hq (fun a => ?_) (fun a x hx => ?_)
  · cases a <;> exact ret
  · cases hx; exact ⟨x, rfl, .inl rfl⟩

theorem findSecrets {d : List Str} (hq : S h (.findSecrets d)) : Obeys S K h (DIDComm.findSecrets d) := by
  refine ask hq (fun a => ?_) (fun a x hx => ?_)
  · cases a <;> exact ret
  · cases hx; exact ⟨x, rfl, .inl rfl⟩

theorem getSecret {d : Str} (hq : S h (.getSecret d)) : Obeys S K h (DIDComm.getSecret d) := by
  refine ask hq (fun a => ?_) (fun a x hx => ?_)
  · cases a <;> exact ret
  · cases hx; exact ⟨x, rfl, .inl rfl⟩

theorem random (hq : S h .random) : Obeys S K h DIDComm.random := by
  refine ask hq (fun a => ret) (fun a x hx => hx.elim)

theorem resolve_withKind {d : Str} {k : ErrorKind} (hq : S h (.resolve d)) (hK : K (.resolve d) k) :
    Obeys S K h ((DIDComm.resolve d).withKind k) := by
  refine ask hq (fun a => ?_) (fun a x hx => ?_)
  · cases a <;> exact ret
  · cases hx; exact ⟨k, rfl, .inr hK⟩

theorem resolve_bind {d : Str} {f : Option DIDDoc → Prog β} (hq : S h (.resolve d))
    (hf : ∀ x, Obeys S K (h ++ [evResolve d x]) (f x)) : Obeys S K h (DIDComm.resolve d >>= f) := by
  refine bind (resolve hq) fun a tr hr => ?_
  rcases runs_resolve.1 hr with ⟨x, rfl, hx⟩ | ⟨k, -, hx⟩
  · cases hx; exact hf _
  · cases hx

theorem resolve_withKind_bind {d : Str} {k : ErrorKind} {f : Option DIDDoc → Prog β} (hq : S h (.resolve d))
    (hK : K (.resolve d) k) (hf : ∀ x, Obeys S K (h ++ [evResolve d x]) (f x)) :
    Obeys S K h ((DIDComm.resolve d).withKind k >>= f) := by
  refine bind (resolve_withKind hq hK) fun a tr hr => ?_
  obtain ⟨r', hr, hx⟩ := runs_withKind.1 hr
  rcases runs_resolve.1 hr with ⟨x, rfl, rfl⟩ | ⟨k, -, rfl⟩
  · cases hx; exact hf _
  · cases hx

theorem findSecrets_bind {d : List Str} {f : List Str → Prog β} (hq : S h (.findSecrets d))
    (hf : ∀ x, Obeys S K (h ++ [evFind d x]) (f x)) : Obeys S K h (DIDComm.findSecrets d >>= f) := by
  refine bind (findSecrets hq) fun a tr hr => ?_
  rcases runs_findSecrets.1 hr with ⟨x, rfl, hx⟩ | ⟨k, -, hx⟩
  · cases hx; exact hf _
  · cases hx

theorem getSecret_bind {d : Str} {f : Option Secret → Prog β} (hq : S h (.getSecret d))
    (hf : ∀ x, Obeys S K (h ++ [evGet d x]) (f x)) : Obeys S K h (DIDComm.getSecret d >>= f) := by
  refine bind (getSecret hq) fun a tr hr => ?_
  rcases runs_getSecret.1 hr with ⟨x, rfl, hx⟩ | ⟨k, -, hx⟩
  · cases hx; exact hf _
  · cases hx

theorem random_bind {f : Nat → Prog β} (hq : S h .random) (hf : ∀ x, Obeys S K (h ++ [evRandom x]) (f x)) :
    Obeys S K h (DIDComm.random >>= f) := by
  refine bind (random hq) fun a tr hr => ?_
  obtain ⟨x, rfl, hx⟩ := runs_random.1 hr
  cases hx; exact hf _

/-- More questions and more kinds may be allowed. -/
theorem mono {S' : List Event → Query → Prop} {K' : Query → ErrorKind → Prop} {h' : List Event} {p : Prog α} (hp : Obeys S K h p)
    (hS : ∀ pre q, S (h ++ pre) q → S' (h' ++ pre) q) (hK : ∀ q k, K q k → K' q k) : Obeys S' K' h' p := by
  intro tr r hr pre e post ht
  obtain ⟨a, b⟩ := hp tr r hr pre e post ht
  refine ⟨hS _ _ a, fun k hk => ?_⟩
  obtain ⟨c, k', d, e⟩ := b k hk
  exact ⟨c, k', d, e.imp id (hK _ _)⟩

end Obeys

/-! ## Auxiliary facts -/

theorem didOf_self {s : Str} (h : ¬ HasFragment s) : didOf s = s := by
  rw [← didOrUrl_fst]
  have := (didOrUrl_isNone s).2 h
  unfold didOrUrl at this ⊢
  split at this
  · cases this
  · rfl

theorem parseJwsHeaders_length {l : List JwsSig} {hs : List JwsHeader} (h : parseJwsHeaders l = .ok hs) :
    hs.length = l.length := by
  induction l generalizing hs with
  | nil => cases h; rfl
  | cons s r ih =>
    simp only [parseJwsHeaders, res_bind_ok, Except.ok.injEq] at h
    obtain ⟨_, _, _, _, l, h3, rfl⟩ := h
    simp [ih h3]

/-! ## `from_prior` -/

/-- Questions for the document of the issuer of a `from_prior`. -/
def PriorAsks (jwt : Str) : Query → Prop := fun q =>
  ∃ h rest b hdr, jwt = h ++ b!"." ++ rest ∧ B64.decode h = some b ∧ fromJson dCompactHeader b = .ok hdr ∧
    HasFragment hdr.kid ∧ q = .resolve (didOf hdr.kid)

theorem parseCompact_head {jwt : Str} {p : ParsedCompactJWS} (h : parseCompact jwt = .ok p) :
    ∃ hd rest b, jwt = hd ++ b!"." ++ rest ∧ B64.decode hd = some b ∧ fromJson dCompactHeader b = .ok p.parsedHeader := by
  unfold parseCompact at h
  split at h
  · rename_i a b c hs
    simp only [res_bind_ok, okOr_eq_ok, withKind_eq_ok, Except.ok.injEq] at h
    obtain ⟨bb, g1, hdr, g2, rfl⟩ := h
    have hj := joinWith_splitOn 0x2E jwt
    rw [hs] at hj
    exact ⟨a, b ++ b!"." ++ c, bb, by simp only [joinWith] at hj; simp [← hj], g1, g2⟩
  · cases h

theorem FromPrior.unpack_obeys {jwt : Str} (hS : ∀ q, PriorAsks jwt q → S h q) :
    Obeys S K h (FromPrior.unpack C jwt) := by
  unfold FromPrior.unpack
  refine .lift_bind fun p hp => .ite (fun _ => .fail) fun _ => .ite (fun _ => .fail) fun hk => .resolve_bind ?_ fun _ =>
    .lift_bind fun _ _ => .lift_bind fun _ _ => .lift_bind fun _ _ => .lift_bind fun _ _ => .lift_bind fun _ _ =>
    .lift_bind fun _ _ => .ite (fun _ => .fail) fun _ => .lift_bind fun _ _ => .ite (fun _ => .fail) fun _ =>
    .lift_bind fun _ _ => .lift
  obtain ⟨hd, rest, b, h1, h2, h3⟩ := parseCompact_head hp
  rw [didOrUrl_isNone] at hk
  rw [didOrUrl_fst]
  exact hS _ ⟨hd, rest, b, _, h1, h2, h3, Classical.not_not.1 hk, rfl⟩

/-- A found key id is one of the reported ones. -/
theorem reported {pre : List Event} {ks found : List Str} {kid : Str} (he : evFind ks found ∈ pre) (hk : kid ∈ found) :
    Reported pre kid := ⟨ks, found, he, hk⟩

theorem FromPrior.pack_obeys {f : FromPrior} {k : Option Str} {from_ : Option Str} :
    Obeys (PackAsks (some f.iss) from_) K h (f.pack C k) := by
  unfold FromPrior.pack
  refine .lift_bind fun u hv => .resolve_bind .resolve fun doc => .lift_bind fun doc hd => .lift_bind fun kids hk =>
    .findSecrets_bind ?_ fun found => .lift_bind fun kid hf => .getSecret_bind ?_ fun _ => .lift_bind fun _ _ =>
    .lift_bind fun _ _ => .lift_bind fun _ _ => .lift_bind fun _ _ => .lift
  · rw [okOr_eq_ok] at hd
    subst hd
    have hiss : ¬ HasFragment f.iss := by
      cases u
      unfold FromPrior.validatePack at hv
      split at hv
      · cases hv
      · rename_i hn
        intro hf
        exact hn (.inr ((didOrUrl_isSome _).2 hf))
    have hdid : didOf f.iss = f.iss := didOf_self hiss
    refine .signer (s := f.iss) (doc := doc) rfl ?_ ?_
    · rw [hdid]; exact List.mem_append_right _ (List.mem_singleton.2 rfl)
    · intro x hx
      have : x ∈ doc.authentication := by
        unfold FromPrior.authKids at hk
        split at hk
        · split at hk
          · cases hk
          · split at hk
            · cases hk
            · simp only [res_bind_ok, okOr_eq_ok, Except.ok.injEq] at hk
              obtain ⟨y, hy, rfl⟩ := hk
              rw [List.mem_singleton] at hx
              subst hx
              exact List.mem_of_find?_eq_some hy
        · cases hk; exact hx
      simpa [meantBy, hiss] using this
  · rw [okOr_eq_ok] at hf
    exact .secret (reported (ks := kids) (found := found) (by simp) (List.mem_of_mem_head? hf))

/-! ## Packing -/

theorem packPlaintext_obeys {m : Message} (hS : ∀ q jwt, m.fromPrior = some jwt → PriorAsks jwt q → S h q) :
    Obeys S K h (packPlaintext C m) := by
  unfold packPlaintext
  refine .bind ?_ fun _ _ _ => .lift_bind fun _ _ => .lift
  unfold unpackFromPrior
  cases hj : m.fromPrior with
  | none => exact .pure
  | some jwt => exact .bind (FromPrior.unpack_obeys fun q hq => hS q jwt hj hq) fun _ _ _ => .pure

theorem packPlaintext_obeys' {m : Message} {a b : Option Str} : Obeys (PackAsks a b) K h (packPlaintext C m) := by
  refine packPlaintext_obeys ?_
  rintro q jwt - ⟨_, _, _, _, -, -, -, -, rfl⟩
  exact .resolve

theorem packSigned_obeys {m : Message} {s : Str} {b : Option Str} : Obeys (PackAsks (some s) b) K h (packSigned C m s) := by
  unfold packSigned
  refine .ite (fun _ => .fail) fun _ => .resolve_bind .resolve fun doc => .lift_bind fun doc hd => .lift_bind fun kids hk =>
    .findSecrets_bind ?_ fun found => .lift_bind fun kid hf => .getSecret_bind ?_ fun _ => .lift_bind fun _ _ =>
    .lift_bind fun _ _ => .bind packPlaintext_obeys' fun _ _ _ => .lift_bind fun _ _ => .lift_bind fun _ _ => .lift
  · rw [okOr_eq_ok] at hd
    subst hd
    refine .signer (s := s) (doc := doc) rfl (by rw [← didOrUrl_fst]; exact List.mem_append_right _ (List.mem_singleton.2 rfl)) fun x hx => ?_
    unfold signKids at hk
    rw [didOrUrl_snd] at hk
    split at hk
    · rename_i kid hs
      simp only [res_bind_ok, okOr_eq_ok, Except.ok.injEq] at hk
      obtain ⟨y, hy, rfl⟩ := hk
      split at hs
      · rename_i hfr
        cases hs
        rw [List.mem_singleton] at hx
        subst hx
        obtain ⟨rfl, hy⟩ := find?_eq_self.1 hy
        simp [meantBy, hfr, hy]
      · cases hs
    · rename_i hs
      split at hs
      · cases hs
      · rename_i hfr
        cases hk
        simpa [meantBy, hfr] using hx
  · rw [okOr_eq_ok] at hf
    exact .secret (reported (ks := kids) (found := found) (by simp) (List.mem_of_mem_head? hf))

theorem jweEncrypt_obeys {ce : ContentEnc} {kdf : Kdf} {c : Curve} {pt : Bytes} {al : JweAlg} {en : EncAlg}
    {s : Option (Str × C.Key)} {rs : List (Str × C.Key)} (hS : ∀ pre, S (h ++ pre) .random) :
    Obeys S K h (jweEncrypt C ce kdf c pt al en s rs) := by
  unfold jweEncrypt
  refine .random_bind (by simpa using hS []) fun _ => .lift_bind fun _ _ => .random_bind (hS _) fun _ =>
    .lift_bind fun _ _ => .lift_bind fun _ _ => .random_bind (by simpa using hS _) fun _ => .lift_bind fun _ _ =>
    .lift_bind fun _ _ => .lift

theorem anoncrypt_obeys {to : Str} {msg : Bytes} {alg : AnonCryptAlg} (hS : ∀ pre, S (h ++ pre) .random)
    (hR : ∀ d, S h (.resolve d)) : Obeys S K h (anoncrypt C to msg alg) := by
  unfold anoncrypt
  exact .resolve_bind (hR _) fun _ => .lift_bind fun _ _ => .lift_bind fun _ _ => .lift_bind fun _ _ => .lift_bind fun _ _ =>
    .ite (fun _ => .lift_bind fun _ _ => .bind (jweEncrypt_obeys fun pre => by simpa using hS _) fun _ _ _ => .lift)
      fun _ => .fail

theorem authcrypt_obeys {to f : Str} {msg : Bytes} {al : AuthCryptAlg} {an : AnonCryptAlg} {ps : Bool} {a : Option Str} :
    Obeys (PackAsks a (some f)) K h (authcrypt C to f msg al an ps) := by
  unfold authcrypt
  refine .resolve_bind .resolve fun _ => .lift_bind fun _ _ => .resolve_bind .resolve fun doc => .lift_bind fun doc hd =>
    .lift_bind fun kids hk => .findSecrets_bind ?_ fun found => .ite (fun _ => .fail) fun _ =>
    .lift_bind fun vms hv => .lift_bind fun _ _ => .lift_bind fun _ _ => .lift_bind fun vm hvm => .getSecret_bind ?_ fun _ =>
    .lift_bind fun _ _ => ?_
  · rw [okOr_eq_ok] at hd
    subst hd
    obtain ⟨rfl, -⟩ := agreementKids_ok.1 hk
    exact .sender (s := f) (doc := doc) rfl (by rw [← didOrUrl_fst]; exact List.mem_append_right _ (List.mem_singleton.2 rfl)) fun x hx => hx
  · refine .secret (reported (ks := kids) (found := found) (by simp) ?_)
    unfold chooseSender at hvm
    rw [okOr_eq_ok] at hvm
    have := List.mem_filter.1 (List.mem_of_find?_eq_some hvm)
    exact (methods_mem (methodsOf_ok.1 hv) this.1).1
  · split
    · exact .ite (fun _ => .lift_bind fun _ _ => .lift_bind fun _ _ => .bind (jweEncrypt_obeys fun _ => .random) fun _ _ _ =>
        .ite (fun _ => .bind (jweEncrypt_obeys fun _ => .random) fun _ _ _ => .lift) fun _ => .lift) fun _ => .fail
    · exact .fail

theorem findDidCommService_obeys {d : Str} {o : Option Str} (hR : S h (.resolve d)) : Obeys S K h (findDidCommService d o) := by
  unfold findDidCommService
  exact .resolve_bind hR fun _ => .lift_bind fun _ _ => .lift

theorem chainLoop_obeys (hR : ∀ pre d, S (h ++ pre) (.resolve d)) : ∀ n l u, Obeys S K h (chainLoop n l u) := by
  intro n
  induction n generalizing h with
  | zero => intro l u; exact .ret
  | succ n ih =>
    intro l u
    unfold chainLoop
    refine .ite (fun _ => .ite (fun _ => .fail) fun hl => ?_) fun _ => .pure
    exact .bind (findDidCommService_obeys (by simpa using hR [] _)) fun _ _ _ => .lift_bind fun s _ =>
      ih (fun pre d => by simpa using hR _ d) _ _

theorem servicesChain_obeys {t : Str} {o : Option Str} (hR : ∀ pre d, S (h ++ pre) (.resolve d)) :
    Obeys S K h (servicesChain t o) := by
  unfold servicesChain
  refine .bind (findDidCommService_obeys (by simpa using hR [] _)) fun s _ _ => ?_
  cases s with
  | none => exact .pure
  | some s => exact chainLoop_obeys (fun pre d => by simpa using hR _ d) _ _ _

theorem buildForwardMessage_obeys {m n : Str} {hs : Option (List (Str × Value))} (hS : S h .random) :
    Obeys S K h (buildForwardMessage C m n hs) := by
  unfold buildForwardMessage
  exact .lift_bind fun _ _ => .random_bind hS fun _ => .lift

theorem wrapLoop_obeys {hs : Option (List (Str × Value))} {a : AnonCryptAlg} (hS : ∀ pre, S (h ++ pre) .random)
    (hR : ∀ pre d, S (h ++ pre) (.resolve d)) : ∀ l m, Obeys S K h (wrapLoop C hs a l m) := by
  intro l
  induction l generalizing h with
  | nil => intro m; exact .pure
  | cons p r ih =>
    intro m
    obtain ⟨to, next⟩ := p
    unfold wrapLoop
    refine .bind (buildForwardMessage_obeys (by simpa using hS [])) fun _ t _ =>
      .bind (anoncrypt_obeys (fun pre => by simpa using hS _) (fun d => by simpa using hR t d)) fun _ t' _ =>
      ih (fun pre => by simpa using hS _) (fun pre d => by simpa using hR _ d) _

theorem wrapInForward_obeys {m : Str} {hs : Option (List (Str × Value))} {to : Str} {ks : List Str} {a : AnonCryptAlg}
    (hS : ∀ pre, S (h ++ pre) .random) (hR : ∀ pre d, S (h ++ pre) (.resolve d)) :
    Obeys S K h (wrapInForward C m hs to ks a) := by
  unfold wrapInForward
  split
  · exact .ret
  · exact wrapLoop_obeys hS hR _ _

theorem wrapInForwardIfNeeded_obeys {m to : Str} {o : PackEncryptedOptions}
    (hS : ∀ pre, S (h ++ pre) .random) (hR : ∀ pre d, S (h ++ pre) (.resolve d)) :
    Obeys S K h (wrapInForwardIfNeeded C m to o) := by
  unfold wrapInForwardIfNeeded
  refine .ite (fun _ => .pure) fun _ => .bind (servicesChain_obeys hR) fun c t _ => ?_
  split
  · exact .ite (fun _ => .pure) fun hk => .bind (wrapInForward_obeys (fun pre => by simpa using hS _)
      (fun pre d => by simpa using hR _ d)) fun _ _ _ => .pure
  · exact .pure

theorem packEncrypted_obeys {m : Message} {to : Str} {f s : Option Str} {o : PackEncryptedOptions} :
    Obeys (PackAsks s f) K h (packEncrypted C m to f s o) := by
  unfold packEncrypted
  refine .lift_bind fun _ _ => .bind ?_ fun _ _ _ => .bind ?_ fun _ _ _ =>
    .bind (wrapInForwardIfNeeded_obeys (fun _ => .random) (fun _ _ => .resolve)) fun w _ _ => ?_
  · unfold packInner
    split
    · exact .bind packSigned_obeys fun _ _ _ => .pure
    · exact .bind packPlaintext_obeys' fun _ _ _ => .pure
  · unfold packCrypt
    split
    · exact .bind authcrypt_obeys fun _ _ _ => .pure
    · exact .bind (anoncrypt_obeys (fun _ => .random) (fun _ => .resolve)) fun _ _ _ => .pure
  · split <;> exact .pure

/-! ## Unpacking -/

theorem decryptLoop_obeys {γ : Type} {all : Bool} {d : Str → KeyPair C → Res γ} :
    ∀ l acc, (∀ pre k, k ∈ l → S (h ++ pre) (.getSecret k)) → Obeys S K h (decryptLoop C all d l acc) := by
  intro l
  induction l generalizing h with
  | nil => intro acc _; exact .pure
  | cons k r ih =>
    intro acc hS
    unfold decryptLoop
    exact .getSecret_bind (by simpa using hS [] k (by simp)) fun _ => .lift_bind fun _ _ => .lift_bind fun _ _ =>
      .lift_bind fun _ _ => .ite (fun _ => ih _ fun pre x hx => by simpa using hS _ x (by simp [hx])) fun _ => .pure

/-- Which question may fail with another kind during unpacking. -/
def Masked (C : Crypto) (msg : Str) (q : Query) (k : ErrorKind) : Prop :=
  k = .invalidState ∧ ∃ t kid, Within C msg t ∧ SenderKid C t kid ∧ q = .resolve (didOf kid)

theorem tryUnpackAnoncrypt_obeys {msg0 msg : Str} {o : UnpackOptions} {md : UnpackMetadata} (hw : Within C msg0 msg) :
    Obeys (UnpackAsks C msg0) K h (tryUnpackAnoncrypt C msg o md) := by
  unfold tryUnpackAnoncrypt
  refine .lift_bind fun j hj => ?_
  cases j with
  | none => exact .pure
  | some j =>
    refine .lift_bind fun p hp => .ite (fun _ => .pure) fun ha => .lift_bind fun q hq => .lift_bind fun _ _ => ?_
    obtain ⟨rfl, hr⟩ := jwe_parse_ok (recognise_ok_some.1 hj) hp
    have : q = p := verifyDidcomm_eq hq
    subst this
    refine .findSecrets_bind (.recipients hw hr (.inl (Classical.not_not.1 ha))) fun found => .ite (fun _ => .fail) fun _ =>
      .bind (decryptLoop_obeys _ _ fun pre k hk => .secret (reported
        (ks := q.jwe.recipients.map JweRecipient.kid) (found := found)
        (List.mem_append_left _ (List.mem_append_right _ (List.mem_singleton.2 rfl))) hk)) fun _ _ _ =>
      .lift_bind fun _ _ => .ite (fun _ => .fail) fun _ => .pure

theorem tryUnpackAuthcrypt_obeys {msg0 msg : Str} {o : UnpackOptions} {md : UnpackMetadata} (hw : Within C msg0 msg) :
    Obeys (UnpackAsks C msg0) (Masked C msg0) h (tryUnpackAuthcrypt C msg o md) := by
  unfold tryUnpackAuthcrypt
  refine .lift_bind fun j hj => ?_
  cases j with
  | none => exact .pure
  | some j =>
    refine .lift_bind fun p hp => .ite (fun _ => .pure) fun ha => .lift_bind fun q hq => .lift_bind fun kid hkid =>
      .ite (fun _ => .fail) fun _ => .ite (fun _ => .fail) fun hfr => ?_
    obtain ⟨rfl, hr⟩ := jwe_parse_ok (recognise_ok_some.1 hj) hp
    have : q = p := verifyDidcomm_eq hq
    subst this
    rw [okOr_eq_ok] at hkid
    have hs : SenderKid C msg kid := ⟨_, _, _, hkid ▸ hr, Classical.not_not.1 ha⟩
    rw [didOrUrl_isNone] at hfr
    have hfr := Classical.not_not.1 hfr
    rw [didOrUrl_fst]
    refine .resolve_withKind_bind (.sender hw hs hfr) ⟨rfl, msg, kid, hw, hs, rfl⟩ fun _ => .lift_bind fun _ _ =>
      .lift_bind fun _ _ => .lift_bind fun _ _ => .lift_bind fun _ _ => .lift_bind fun _ _ => ?_
    refine .findSecrets_bind (.recipients hw hr (.inr (Classical.not_not.1 ha))) fun found => .ite (fun _ => .fail) fun _ =>
      .bind (decryptLoop_obeys _ _ fun pre k hk => .secret (reported
        (ks := q.jwe.recipients.map JweRecipient.kid) (found := found)
        (List.mem_append_left _ (List.mem_append_right _ (List.mem_singleton.2 rfl))) hk)) fun _ _ _ =>
      .lift_bind fun _ _ => .ite (fun _ => .fail) fun _ => .pure

/-- Questions for the document of a signer. -/
def SignAsks (msg : Str) : Query → Prop := fun q =>
  ∃ sig pl, fromJson dJws msg = .ok ⟨[sig], pl⟩ ∧ HasFragment sig.kid ∧ q = .resolve (didOf sig.kid)

theorem tryUnpackSign_obeys {msg : Str} {md : UnpackMetadata} (hS : ∀ q, SignAsks msg q → S h q) :
    Obeys S K h (tryUnpackSign C msg md) := by
  unfold tryUnpackSign
  refine .lift_bind fun j hj => ?_
  cases j with
  | none => exact .pure
  | some j =>
    refine .lift_bind fun p hp => .ite (fun _ => .fail) fun hl => .lift_bind fun hdr _ => .lift_bind fun sig hs =>
      .ite (fun _ => .fail) fun hfr => .resolve_bind ?_ fun _ => .lift_bind fun _ _ => .lift_bind fun _ _ =>
      .lift_bind fun _ _ => .lift_bind fun _ _ => .lift_bind fun _ _ => .lift_bind fun _ _ => .ite (fun _ => .fail) fun _ =>
      .lift_bind fun _ _ => .ite (fun _ => .fail) fun _ => .pure
    rw [didOrUrl_isNone] at hfr
    have hfr := Classical.not_not.1 hfr
    rw [didOrUrl_fst]
    have hj := recognise_ok_some.1 hj
    simp only [JWS.parse, res_bind_ok, Except.ok.injEq] at hp
    obtain ⟨hs', hp1, rfl⟩ := hp
    simp only [okOr_eq_ok] at hs hl
    have hlen : j.signatures.length = 1 := by
      rw [← parseJwsHeaders_length hp1]; exact Classical.not_not.1 hl
    obtain ⟨sigs, pl⟩ := j
    match sigs, hlen with
    | [s], _ =>
      cases hs
      exact hS _ ⟨_, _, hj, hfr, rfl⟩

/-- Questions of the plaintext stage. -/
theorem tryUnpackPlaintext_obeys {msg : Str} {md : UnpackMetadata}
    (hS : ∀ q m jwt, fromJson (dMessage C.f64) msg = .ok m → m.fromPrior = some jwt → PriorAsks jwt q → S h q) :
    Obeys S K h (tryUnpackPlaintext C msg md) := by
  unfold tryUnpackPlaintext
  refine .lift_bind fun j hj => ?_
  cases j with
  | none => exact .pure
  | some j =>
    refine .lift_bind fun m hm => ?_
    have : m = j := by
      unfold Message.validate at hm
      split at hm
      · cases hm
      · cases hm; rfl
    subst this
    cases hfp : m.fromPrior with
    | none => exact .pure
    | some jwt =>
      exact .bind (FromPrior.unpack_obeys fun q hq => hS q m jwt (recognise_ok_some.1 hj) hfp hq) fun _ _ _ => .pure

theorem tryUnwrapForwarded_obeys {msg0 msg : Str} (hw : Within C msg0 msg) :
    Obeys (UnpackAsks C msg0) K h (tryUnwrapForwarded C msg) := by
  unfold tryUnwrapForwarded
  refine .lift_bind fun j hj => ?_
  cases j with
  | none => exact .pure
  | some m =>
    simp only
    split
    · exact .pure
    · rename_i f hf
      refine .bind ?_ fun _ _ _ => .ite (fun _ => .pure) fun _ => .pure
      have hm := recognise_ok_some.1 hj
      have hf := (C41_only m f.next f.forwardedMsg).1 hf
      unfold hasKeyAgreementSecret
      refine .bind ?_ fun ks tr hk => .bind (.findSecrets ?_) fun _ _ _ => .pure
      · split
        · exact .pure
        · rename_i did hd
          have h1 : did = didOf f.next := by rw [← didOrUrl_fst, hd]
          have h2 : ¬ HasFragment f.next := by rw [← didOrUrl_isNone, hd]; rfl
          have h3 : did = f.next := by rw [h1, didOf_self h2]
          subst h3
          exact .resolve_bind (.target hw hm hf h2) fun _ => .lift_bind fun _ _ => .pure
      · split at hk
        · rename_i did kid hd
          obtain ⟨rfl, hk⟩ := runs_pure.1 hk
          cases hk
          have := didOrUrl_snd f.next
          rw [hd] at this
          split at this
          · cases this; exact .targetKey hw hm hf (by assumption)
          · cases this
        · rename_i did hd
          have h1 : did = didOf f.next := by rw [← didOrUrl_fst, hd]
          have h2 : ¬ HasFragment f.next := by rw [← didOrUrl_isNone, hd]; rfl
          have h3 : did = f.next := by rw [h1, didOf_self h2]
          subst h3
          rw [runs_bind_ok] at hk
          obtain ⟨x, t1, t2, rfl, hr, hk⟩ := hk
          rw [runs_lift_bind_ok] at hk
          obtain ⟨doc, hd', hk⟩ := hk
          rw [okOr_eq_ok] at hd'
          subst hd'
          obtain ⟨rfl, hk⟩ := runs_pure.1 hk
          cases hk
          rcases runs_resolve.1 hr with ⟨y, rfl, hy⟩ | ⟨k, -, hy⟩
          · cases hy
            exact .targetKeys hw hm hf h2 (List.mem_append_right _ (by simp))
          · cases hy

theorem unwrapLoop_obeys {msg0 : Str} {o : UnpackOptions} : ∀ n h msg md, Within C msg0 msg →
    Obeys (UnpackAsks C msg0) K h (unwrapLoop C o n msg md) := by
  intro n
  induction n with
  | zero => intro h msg md _; exact .ret
  | succ n ih =>
    intro h msg md hw
    unfold unwrapLoop
    refine .bind (tryUnpackAnoncrypt_obeys hw) fun x t hx => ?_
    obtain ⟨anon, md⟩ := x
    cases anon with
    | none => exact .pure
    | some p =>
      obtain ⟨kids, alg, kid, secret, key, ho, -, -, -, hu, -⟩ := anon_layer hx
      have hw2 := hw.trans (.anon ho ((validUtf8_iff _).1 hu) (.here _))
      refine .ite (fun _ => .bind (tryUnwrapForwarded_obeys hw2) fun f t hf => ?_) fun _ => .pure
      cases f with
      | none => exact .pure
      | some i =>
        obtain ⟨m, next, v, h1, h2, rfl, -⟩ := forwarded_layer hf
        exact ih _ _ _ (hw2.trans (.forward h1 h2 (.here _)))

theorem afterLoop_obeys {msg0 msg : Str} {md : UnpackMetadata} (hw : Within C msg0 msg) :
    Obeys (UnpackAsks C msg0) K h (tryUnpackSign C msg md >>= fun x =>
      tryUnpackPlaintext C (x.1.getD msg) x.2 >>= fun y => Prog.lift (okOr .malformed y.1) >>= fun m => (pure (m, y.2) : Prog _)) := by
  refine .bind (tryUnpackSign_obeys ?_) fun x t hx => .bind (tryUnpackPlaintext_obeys ?_) fun _ _ _ => .lift_bind fun _ _ => .pure
  · rintro q ⟨sig, pl, h1, h2, rfl⟩
    exact .signer hw h1 h2
  · rintro q m jwt hm hj ⟨hd, rest, b, hdr, h1, h2, h3, h4, rfl⟩
    refine .prior ?_ hm hj h1 h2 h3 h4
    obtain ⟨x, md'⟩ := x
    cases x with
    | none => exact hw
    | some p =>
      obtain ⟨kid, alg, doc, c, key, hs, -⟩ := sign_layer hx
      exact hw.trans (.signed hs (.here _))

theorem unpack_obeys {msg : Str} {o : UnpackOptions} : Obeys (UnpackAsks C msg) (Masked C msg) h (unpack C msg o) := by
  unfold unpack
  refine .bind (unwrapLoop_obeys _ _ _ _ (.here _)) fun x t hx => ?_
  obtain ⟨msg1, md1⟩ := x
  have hw := (unwrapLoop_ok hx).within
  refine .bind (tryUnpackAuthcrypt_obeys hw) fun y t hy => ?_
  obtain ⟨a, md2⟩ := y
  refine afterLoop_obeys ?_
  cases a with
  | none => exact hw
  | some p =>
    obtain ⟨_, _, _, _, _, _, _, _, ho, -, -, -, -, -, -, hu, -⟩ := auth_layer hy
    exact hw.trans (.auth ho ((validUtf8_iff _).1 hu) (.here _))

/-- Without an encrypted layer there are only questions for DID documents. -/
theorem unpack_obeys_clear {msg : Str} {o : UnpackOptions} (hn : ∀ j, fromJson dJwe msg ≠ .ok j) :
    Obeys (fun _ q => ∃ d, q = .resolve d) K h (unpack C msg o) := by
  have stage : Obeys (fun _ q => ∃ d, q = .resolve d) K h (tryUnpackSign C msg {} >>= fun x =>
      tryUnpackPlaintext C (x.1.getD msg) x.2 >>= fun y => Prog.lift (okOr .malformed y.1) >>= fun m => (pure (m, y.2) : Prog _)) := by
    refine .bind (tryUnpackSign_obeys ?_) fun x t hx => .bind (tryUnpackPlaintext_obeys ?_) fun _ _ _ => .lift_bind fun _ _ => .pure
    · rintro q ⟨sig, pl, h1, h2, rfl⟩
      exact ⟨_, rfl⟩
    · rintro q m jwt hm hj ⟨hd, rest, b, hdr, h1, h2, h3, h4, rfl⟩
      exact ⟨_, rfl⟩
  unfold unpack unwrapLoop
  cases hrec : recognise (jweFromStr msg) with
  | error e =>
    have h1 : ∀ md, tryUnpackAnoncrypt C msg o md = .ret (.error e) := by
      intro md; unfold tryUnpackAnoncrypt; rw [hrec]; rfl
    rw [h1]
    exact .ret
  | ok x =>
    cases x with
    | some j => exact absurd (recognise_ok_some.1 hrec) (hn j)
    | none =>
      have h1 : ∀ md, tryUnpackAnoncrypt C msg o md = pure (none, md) := by
        intro md; unfold tryUnpackAnoncrypt; rw [hrec]; rfl
      have h2 : ∀ md, tryUnpackAuthcrypt C msg o md = pure (none, md) := by
        intro md; unfold tryUnpackAuthcrypt; rw [hrec]; rfl
      rw [h1]
      change Obeys _ _ _ (tryUnpackAuthcrypt C msg o {} >>= _)
      rw [h2]
      exact stage

end DIDComm
