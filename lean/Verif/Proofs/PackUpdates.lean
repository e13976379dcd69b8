import Verif.Spec.PackUpdates
import Verif.Proofs.Runs
import Verif.Props.Routing

/-! # DID documents that change, seen by a sender: proofs -/

set_option autoImplicit false

namespace DIDComm

variable {C : Crypto} {E E' : Env} {α β γ δ : Type}

/-- Two programs, one in `E` and one in `E'`, that draw alike and end alike. -/
inductive Abreast (E E' : Env) {α β : Type} (R : α → β → Prop) : Prog α → Prog β → Prop
  | ok {a : α} {b : β} (h : R a b) : Abreast E E' R (.ret (.ok a)) (.ret (.ok b))
  | error (e : Err) : Abreast E E' R (.ret (.error e)) (.ret (.error e))
  | resolve {d d' : Str} {k : Except ErrorKind (Option DIDDoc) → Prog α} {k' : Except ErrorKind (Option DIDDoc) → Prog β}
      (h : Abreast E E' R (k (E.resolve d)) (k' (E'.resolve d'))) : Abreast E E' R (.ask (.resolve d) k) (.ask (.resolve d') k')
  | find {d d' : List Str} {k : Except ErrorKind (List Str) → Prog α} {k' : Except ErrorKind (List Str) → Prog β}
      (h : Abreast E E' R (k (E.findSecrets d)) (k' (E'.findSecrets d'))) : Abreast E E' R (.ask (.findSecrets d) k) (.ask (.findSecrets d') k')
  | get {d d' : Str} {k : Except ErrorKind (Option Secret) → Prog α} {k' : Except ErrorKind (Option Secret) → Prog β}
      (h : Abreast E E' R (k (E.getSecret d)) (k' (E'.getSecret d'))) : Abreast E E' R (.ask (.getSecret d) k) (.ask (.getSecret d') k')
  | random {k : Nat → Prog α} {k' : Nat → Prog β} (h : ∀ n, Abreast E E' R (k n) (k' n)) : Abreast E E' R (.ask .random k) (.ask .random k')

theorem Abreast.run {p q : Prog α} (h : Abreast E E' Eq p q) : ∀ rnd, (p.run E rnd).2 = (q.run E' rnd).2 := by
  induction h with
  | ok h => subst h; intro _; rfl
  | error e => intro _; rfl
  | resolve h ih => intro rnd; exact ih rnd
  | find h ih => intro rnd; exact ih rnd
  | get h ih => intro rnd; exact ih rnd
  | random h ih => intro rnd; exact ih (rnd 0) _

theorem Abreast.bind {R : α → β → Prop} {S : γ → δ → Prop} {p : Prog α} {q : Prog β} {f : α → Prog γ} {g : β → Prog δ}
    (h : Abreast E E' R p q) (hf : ∀ a b, R a b → Abreast E E' S (f a) (g b)) : Abreast E E' S (p >>= f) (q >>= g) := by
  induction h with
  | ok h => exact hf _ _ h
  | error e => exact .error e
  | resolve h ih => exact .resolve ih
  | find h ih => exact .find ih
  | get h ih => exact .get ih
  | random h ih => exact .random fun n => ih n

theorem Abreast.lift (r : Res α) : Abreast E E' Eq (Prog.lift r) (Prog.lift r) := by
  cases r with
  | ok a => exact .ok rfl
  | error e => exact .error e

theorem Abreast.fail {R : α → β → Prop} (k : ErrorKind) : Abreast E E' R (Prog.fail k) (Prog.fail k) := .error _

theorem Abreast.pure {R : α → β → Prop} {a : α} {b : β} (h : R a b) : Abreast E E' R (Pure.pure a) (Pure.pure b) := .ok h

theorem Abreast.lift_bind {S : γ → δ → Prop} (r : Res α) {f : α → Prog γ} {g : α → Prog δ}
    (hf : ∀ a, Abreast E E' S (f a) (g a)) : Abreast E E' S (Prog.lift r >>= f) (Prog.lift r >>= g) :=
  (Abreast.lift r).bind fun a b h => by subst h; exact hf a

theorem Abreast.eq_bind {S : γ → δ → Prop} {p q : Prog α} (h : Abreast E E' Eq p q) {f : α → Prog γ} {g : α → Prog δ}
    (hf : ∀ a, Abreast E E' S (f a) (g a)) : Abreast E E' S (p >>= f) (q >>= g) :=
  h.bind fun a b h => by subst h; exact hf a

/-- A program that asks for nothing but random draws. -/
inductive OnlyDraws {α : Type} : Prog α → Prop
  | ret (r : Res α) : OnlyDraws (.ret r)
  | random {k : Nat → Prog α} (h : ∀ n, OnlyDraws (k n)) : OnlyDraws (.ask .random k)

theorem OnlyDraws.bind {p : Prog α} {f : α → Prog β} (h : OnlyDraws p) (hf : ∀ a, OnlyDraws (f a)) : OnlyDraws (p >>= f) := by
  induction h with
  | ret r =>
    cases r with
    | ok a => exact hf a
    | error e => exact .ret _
  | random h ih => exact .random ih

theorem OnlyDraws.lift (r : Res α) : OnlyDraws (Prog.lift r) := .ret r

theorem OnlyDraws.draw : OnlyDraws DIDComm.random := .random fun n => .ret _

theorem OnlyDraws.abreast {p : Prog α} (h : OnlyDraws p) : Abreast E E' Eq p p := by
  induction h with
  | ret r => exact Abreast.lift r
  | random h ih => exact .random ih

theorem jweEncrypt_draws {ce : ContentEnc} {kdf : Kdf} {c : Curve} {pt : Bytes} {alg : JweAlg} {enc : EncAlg}
    {s : Option (Str × C.Key)} {rs : List (Str × C.Key)} : OnlyDraws (jweEncrypt C ce kdf c pt alg enc s rs) :=
  OnlyDraws.draw.bind fun _ => (OnlyDraws.lift _).bind fun _ => OnlyDraws.draw.bind fun _ => (OnlyDraws.lift _).bind fun _ =>
    (OnlyDraws.lift _).bind fun _ => OnlyDraws.draw.bind fun _ => (OnlyDraws.lift _).bind fun _ => (OnlyDraws.lift _).bind fun _ => .lift _

theorem buildForward_draws {msg next : Str} {headers : Option (List (Str × Value))} : OnlyDraws (buildForwardMessage C msg next headers) :=
  (OnlyDraws.lift _).bind fun _ => OnlyDraws.draw.bind fun _ => .lift _

/-- Asking for a document and going on if there is one. -/
theorem Abreast.document {R : DIDDoc → DIDDoc → Prop} {S : γ → δ → Prop} {d : Str} (h : AnswersBy R (E.resolve d) (E'.resolve d))
    {k : ErrorKind} {f : DIDDoc → Prog γ} {g : DIDDoc → Prog δ} (hf : ∀ a b, R a b → Abreast E E' S (f a) (g b)) :
    Abreast E E' S (do let x ← DIDComm.resolve d; let x ← Prog.lift (okOr k x); f x)
      (do let x ← DIDComm.resolve d; let x ← Prog.lift (okOr k x); g x) := by
  refine .resolve ?_
  generalize E.resolve d = x at h
  generalize E'.resolve d = y at h
  cases h with
  | failed e => exact .error _
  | unknown => exact .error _
  | found h => exact hf _ _ h

theorem Abreast.findSame {kids : List Str} (h : E.findSecrets kids = E'.findSecrets kids) :
    Abreast E E' Eq (DIDComm.findSecrets kids) (DIDComm.findSecrets kids) := by
  refine .find ?_
  rw [h]
  cases E'.findSecrets kids with
  | ok l => exact .ok rfl
  | error e => exact .error _

theorem Abreast.getSame {kid : Str} (h : E.getSecret kid = E'.getSecret kid) :
    Abreast E E' Eq (DIDComm.getSecret kid) (DIDComm.getSecret kid) := by
  refine .get ?_
  rw [h]
  cases E'.getSecret kid with
  | ok l => exact .ok rfl
  | error e => exact .error _

/-- Looking for a key of our own, and going on with the first that is reported. -/
theorem Abreast.first {S : γ → δ → Prop} {kids : List Str} (h : SameStart (E.findSecrets kids) (E'.findSecrets kids))
    (hg : ∀ kid rest, E.findSecrets kids = .ok (kid :: rest) → E.getSecret kid = E'.getSecret kid)
    {f : Str → Option Secret → Prog γ} {g : Str → Option Secret → Prog δ} (hf : ∀ kid s, Abreast E E' S (f kid s) (g kid s)) :
    Abreast E E' S (do let l ← DIDComm.findSecrets kids; let kid ← Prog.lift (okOr .secretNotFound l.head?); let s ← DIDComm.getSecret kid; f kid s)
      (do let l ← DIDComm.findSecrets kids; let kid ← Prog.lift (okOr .secretNotFound l.head?); let s ← DIDComm.getSecret kid; g kid s) := by
  refine .find ?_
  generalize hx : E.findSecrets kids = x at h hg
  generalize E'.findSecrets kids = y at h
  cases h with
  | failed e => exact .error _
  | nothing => exact .error _
  | first kid rest rest' => exact (Abreast.getSame (hg kid rest rfl)).eq_bind fun s => hf kid s

theorem find_eq_methodOf (doc : DIDDoc) (kid : Str) : doc.verificationMethod.find? (fun vm => vm.id == kid) = methodOf doc kid := by
  unfold methodOf
  congr 1
  funext vm
  by_cases h : vm.id = kid <;> simp [h]

theorem SameAgreement.kids {doc doc' : DIDDoc} (h : SameAgreement doc doc') (kid : Option Str) : agreementKids kid doc = agreementKids kid doc' := by
  simp only [agreementKids, h.listed]

theorem SameAgreement.methodsOf {doc doc' : DIDDoc} (h : SameAgreement doc doc') (k : ErrorKind) (l : List Str) :
    DIDComm.methodsOf k doc l = DIDComm.methodsOf k doc' l := by
  induction l with
  | nil => rfl
  | cons x r ih => simp only [DIDComm.methodsOf, find_eq_methodOf, h.methods, ih]

theorem anoncrypt_abreast {to : Str} {msg : Bytes} {alg : AnonCryptAlg}
    (h : AnswersBy SameAgreement (E.resolve (didOrUrl to).1) (E'.resolve (didOrUrl to).1)) :
    Abreast E E' Eq (anoncrypt C to msg alg) (anoncrypt C to msg alg) := by
  refine Abreast.document h fun a b hab => ?_
  rw [hab.kids]
  refine Abreast.lift_bind _ fun kids => ?_
  rw [hab.methodsOf]
  refine Abreast.lift_bind _ fun keys => Abreast.lift_bind _ fun curve => ?_
  split
  · exact Abreast.lift_bind _ fun _ => (jweEncrypt_draws.abreast).eq_bind fun _ => .lift _
  · exact .fail _

theorem authcrypt_abreast {to from_ : Str} {msg : Bytes} {ea : AuthCryptAlg} {alg : AnonCryptAlg} {ps : Bool}
    (ht : AnswersBy SameAgreement (E.resolve (didOrUrl to).1) (E'.resolve (didOrUrl to).1))
    (hf : AnswersBy SameAgreement (E.resolve (didOrUrl from_).1) (E'.resolve (didOrUrl from_).1)) (hs : SameSecrets E E') :
    Abreast E E' Eq (authcrypt C to from_ msg ea alg ps) (authcrypt C to from_ msg ea alg ps) := by
  refine Abreast.document ht fun a b hab => Abreast.document hf fun a' b' hab' => ?_
  rw [hab'.kids]
  refine Abreast.lift_bind _ fun fromKids => (Abreast.findSame (hs.find _)).eq_bind fun found => ?_
  split
  · exact .fail _
  rw [hab'.methodsOf]
  refine Abreast.lift_bind _ fun fromKeys => ?_
  rw [hab.kids]
  refine Abreast.lift_bind _ fun toKids => ?_
  rw [hab.methodsOf]
  refine Abreast.lift_bind _ fun toKeys => Abreast.lift_bind _ fun fromKey => (Abreast.getSame (hs.get _)).eq_bind fun secret =>
    Abreast.lift_bind _ fun secret => ?_
  split
  · split
    · refine Abreast.lift_bind _ fun _ => Abreast.lift_bind _ fun _ => (jweEncrypt_draws.abreast).eq_bind fun _ => ?_
      split
      · exact (jweEncrypt_draws.abreast).eq_bind fun _ => .lift _
      · exact .lift _
    · exact .fail _
  · exact .fail _

theorem fromPriorUnpack_abreast {jwt : Str} (h : ∀ d, AnswersBy SamePackDoc (E.resolve d) (E'.resolve d)) :
    Abreast E E' Eq (FromPrior.unpack C jwt) (FromPrior.unpack C jwt) := by
  refine Abreast.lift_bind _ fun parsed => ?_
  split
  · exact .fail _
  dsimp only
  split
  · exact .fail _
  refine Abreast.document (h _) fun a b hab => ?_
  rw [hab.authentication]
  refine Abreast.lift_bind _ fun kid => ?_
  rw [find_eq_methodOf, find_eq_methodOf, hab.agreement.methods]
  exact OnlyDraws.abreast ((OnlyDraws.lift _).bind fun _ => (OnlyDraws.lift _).bind fun _ => (OnlyDraws.lift _).bind fun _ =>
    (OnlyDraws.lift _).bind fun _ => by
      split
      · exact .ret _
      · exact (OnlyDraws.lift _).bind fun _ => by
          split
          · exact .ret _
          · exact (OnlyDraws.lift _).bind fun _ => .lift _)

theorem packPlaintext_abreast {m : Message} (h : m.fromPrior ≠ none → ∀ d, AnswersBy SamePackDoc (E.resolve d) (E'.resolve d)) :
    Abreast E E' Eq (packPlaintext C m) (packPlaintext C m) := by
  refine Abreast.eq_bind (p := unpackFromPrior C m.fromPrior) ?_ fun _ => Abreast.lift_bind _ fun _ => .lift _
  cases hp : m.fromPrior with
  | none => exact .pure rfl
  | some jwt => exact (fromPriorUnpack_abreast (h (by rw [hp]; simp))).eq_bind fun _ => .pure rfl

theorem packSigned_abreast {m : Message} {signBy : Str}
    (hd : AnswersBy (fun doc doc' => doc.authentication = doc'.authentication) (E.resolve (didOrUrl signBy).1) (E'.resolve (didOrUrl signBy).1))
    (hf : ∀ kids, SameStart (E.findSecrets kids) (E'.findSecrets kids))
    (hg : ∀ kids kid rest, E.findSecrets kids = .ok (kid :: rest) → E.getSecret kid = E'.getSecret kid)
    (h : m.fromPrior ≠ none → ∀ d, AnswersBy SamePackDoc (E.resolve d) (E'.resolve d)) :
    Abreast E E' Eq (packSigned C m signBy) (packSigned C m signBy) := by
  unfold packSigned
  split
  · exact .fail _
  refine Abreast.document hd fun a b hab => ?_
  have : signKids signBy a = signKids signBy b := by simp only [signKids, hab]
  rw [this]
  refine Abreast.lift_bind _ fun kids => Abreast.first (hf kids) (hg kids) fun kid s => ?_
  refine Abreast.lift_bind _ fun s => Abreast.lift_bind _ fun pair => (packPlaintext_abreast h).eq_bind fun _ => ?_
  exact Abreast.lift_bind _ fun _ => Abreast.lift_bind _ fun _ => .lift _

theorem fromPriorPack_abreast {f : FromPrior} {kid : Option Str}
    (hd : AnswersBy (fun doc doc' => doc.authentication = doc'.authentication) (E.resolve f.iss) (E'.resolve f.iss))
    (hf : ∀ kids, SameStart (E.findSecrets kids) (E'.findSecrets kids))
    (hg : ∀ kids kid rest, E.findSecrets kids = .ok (kid :: rest) → E.getSecret kid = E'.getSecret kid) :
    Abreast E E' Eq (FromPrior.pack C f kid) (FromPrior.pack C f kid) := by
  refine Abreast.lift_bind _ fun _ => Abreast.document hd fun a b hab => ?_
  have : f.authKids kid a = f.authKids kid b := by simp only [FromPrior.authKids, hab]
  rw [this]
  refine Abreast.lift_bind _ fun kids => Abreast.first (hf kids) (hg kids) fun kid s => ?_
  refine Abreast.lift_bind _ fun s => Abreast.lift_bind _ fun pair => ?_
  exact Abreast.lift_bind _ fun _ => Abreast.lift_bind _ fun _ => .lift _

theorem SameServices.select {doc doc' : DIDDoc} (h : SameServices doc doc') (sid : Option Str) :
    selectService doc.service sid = selectService doc'.service sid :=
  (selectService_spec _ sid).unique ((h sid _).2 (selectService_spec _ sid))

theorem findService_abreast (h : ∀ d, AnswersBy SamePackDoc (E.resolve d) (E'.resolve d)) (d : Str) (sid : Option Str) :
    Abreast E E' Eq (findDidCommService d sid) (findDidCommService d sid) :=
  Abreast.document (h d) fun a b hab => by
    rw [hab.services.select]
    exact .lift _

theorem chainLoop_abreast (h : ∀ d, AnswersBy SamePackDoc (E.resolve d) (E'.resolve d)) (n : Nat)
    (l : List (Str × DIDCommMessagingService)) (e : Str) : Abreast E E' Eq (chainLoop n l e) (chainLoop n l e) := by
  induction n generalizing l e with
  | zero => exact .error _
  | succ n ih =>
    unfold chainLoop
    split
    · split
      · exact .fail _
      · exact (findService_abreast h _ _).eq_bind fun _ => Abreast.lift_bind _ fun _ => ih _ _
    · exact .pure rfl

theorem wrapLoop_abreast (h : ∀ d, AnswersBy SamePackDoc (E.resolve d) (E'.resolve d)) {headers : Option (List (Str × Value))}
    {alg : AnonCryptAlg} (l : List (Str × Str)) (msg : Str) : Abreast E E' Eq (wrapLoop C headers alg l msg) (wrapLoop C headers alg l msg) := by
  induction l generalizing msg with
  | nil => exact .pure rfl
  | cons x r ih =>
    obtain ⟨to, next⟩ := x
    refine (buildForward_draws.abreast).eq_bind fun _ => (anoncrypt_abreast ?_).eq_bind fun _ => ih _
    have := h (didOrUrl to).1
    generalize E.resolve (didOrUrl to).1 = x at this
    generalize E'.resolve (didOrUrl to).1 = y at this
    cases this with
    | failed e => exact .failed e
    | unknown => exact .unknown
    | found h => exact .found h.agreement

theorem wrapInForward_abreast (h : ∀ d, AnswersBy SamePackDoc (E.resolve d) (E'.resolve d)) {msg to : Str} {headers : Option (List (Str × Value))}
    {keys : List Str} {alg : AnonCryptAlg} :
    Abreast E E' Eq (wrapInForward C msg headers to keys alg) (wrapInForward C msg headers to keys alg) := by
  cases keys with
  | nil => exact .error _
  | cons k r => exact wrapLoop_abreast h _ _

theorem wrapIfNeeded_abreast {msg to : Str} {opts : PackEncryptedOptions}
    (h : opts.forward = true → ∀ d, AnswersBy SamePackDoc (E.resolve d) (E'.resolve d)) :
    Abreast E E' Eq (wrapInForwardIfNeeded C msg to opts) (wrapInForwardIfNeeded C msg to opts) := by
  unfold wrapInForwardIfNeeded
  split
  · exact .pure rfl
  rename_i hn
  have h := h (by simpa using hn)
  refine Abreast.eq_bind (p := servicesChain to opts.messagingService) ?_ fun chain => ?_
  · refine (findService_abreast h _ _).eq_bind fun s => ?_
    cases s with
    | none => exact .pure rfl
    | some s => exact chainLoop_abreast h _ _ _
  · split
    · dsimp only
      split
      · exact .pure rfl
      · exact (wrapInForward_abreast h).eq_bind fun _ => .pure rfl
    · exact .pure rfl

theorem packEncrypted_abreast {m : Message} {to : Str} {from_ signBy : Option Str} {opts : PackEncryptedOptions}
    (hs : (from_ ≠ none ∨ signBy ≠ none) → SameSecrets E E')
    (ht : AnswersBy SameAgreement (E.resolve (didOrUrl to).1) (E'.resolve (didOrUrl to).1))
    (hf : ∀ f, from_ = some f → AnswersBy SameAgreement (E.resolve (didOrUrl f).1) (E'.resolve (didOrUrl f).1))
    (hb : ∀ s, signBy = some s → AnswersBy (fun doc doc' => doc.authentication = doc'.authentication)
      (E.resolve (didOrUrl s).1) (E'.resolve (didOrUrl s).1))
    (h : (m.fromPrior ≠ none ∨ opts.forward = true) → ∀ d, AnswersBy SamePackDoc (E.resolve d) (E'.resolve d)) :
    Abreast E E' Eq (packEncrypted C m to from_ signBy opts) (packEncrypted C m to from_ signBy opts) := by
  have hp := packPlaintext_abreast (C := C) (m := m) (E := E) (E' := E') fun hx => h (.inl hx)
  refine Abreast.lift_bind _ fun _ => Abreast.eq_bind (p := packInner C m signBy) ?_ fun a => ?_
  · cases signBy with
    | none => exact hp.eq_bind fun _ => .pure rfl
    | some s =>
      have hs := hs (.inr (by simp))
      refine (packSigned_abreast (hb s rfl) (fun kids => ?_) (fun _ kid _ _ => hs.get kid) fun hx => h (.inl hx)).eq_bind fun _ => .pure rfl
      rw [hs.find]
      cases E'.findSecrets kids with
      | error e => exact .failed e
      | ok l =>
        cases l with
        | nil => exact .nothing
        | cons k r => exact .first k r r
  · refine Abreast.eq_bind (p := packCrypt C to from_ a.1 opts) ?_ fun b => ?_
    · cases from_ with
      | none => exact (anoncrypt_abreast ht).eq_bind fun _ => .pure rfl
      | some f => exact (authcrypt_abreast ht (hf f rfl) (hs (.inl (by simp)))).eq_bind fun _ => .pure rfl
    · refine (wrapIfNeeded_abreast fun hx => h (.inr hx)).eq_bind fun w => ?_
      split <;> exact .pure rfl

end DIDComm
