import Verif.Spec.SenderSecrets
import Verif.Proofs.PackUpdates
import Verif.Proofs.Select

/-! # Senders with different secrets: proofs -/

set_option autoImplicit false

namespace DIDComm

variable {C : Crypto} {E E' : Env} {α β : Type} {has : Str → Bool}

/-! ## Secrets that are not looked for -/

theorem answersBy_of_eq {R : DIDDoc → DIDDoc → Prop} (hR : ∀ d, R d d) {x y : Except ErrorKind (Option DIDDoc)} (h : x = y) : AnswersBy R x y := by
  subst h
  match x with
  | .error k => exact .failed k
  | .ok none => exact .unknown
  | .ok (some d) => exact .found (hR d)

theorem samePackDoc_rfl (d : DIDDoc) : SamePackDoc d d := ⟨rfl, ⟨rfl, fun _ => rfl⟩, fun _ _ => Iff.rfl⟩

theorem Abreast.lift_bind_eq {γ δ : Type} {S : γ → δ → Prop} (r : Res α) {f : α → Prog γ} {g : α → Prog δ}
    (hf : ∀ a, r = .ok a → Abreast E E' S (f a) (g a)) : Abreast E E' S (Prog.lift r >>= f) (Prog.lift r >>= g) := by
  cases r with
  | ok a => exact hf a rfl
  | error e => exact .error e

theorem Abreast.documentSame {γ δ : Type} {S : γ → δ → Prop} {d : Str} (h : E.resolve d = E'.resolve d)
    {k : ErrorKind} {f : DIDDoc → Prog γ} {g : DIDDoc → Prog δ} (hf : ∀ a, E.resolve d = .ok (some a) → Abreast E E' S (f a) (g a)) :
    Abreast E E' S (do let x ← DIDComm.resolve d; let x ← Prog.lift (okOr k x); f x)
      (do let x ← DIDComm.resolve d; let x ← Prog.lift (okOr k x); g x) := by
  refine .resolve ?_
  rw [← h]
  cases hx : E.resolve d with
  | error e => exact .error _
  | ok o =>
    cases o with
    | none => exact .error _
    | some a => exact hf a hx

theorem Abreast.findFor {γ δ : Type} {S : γ → δ → Prop} {kids : List Str} (h : E.findSecrets kids = E'.findSecrets kids)
    {f : List Str → Prog γ} {g : List Str → Prog δ} (hf : ∀ l, E.findSecrets kids = .ok l → Abreast E E' S (f l) (g l)) :
    Abreast E E' S (DIDComm.findSecrets kids >>= f) (DIDComm.findSecrets kids >>= g) := by
  refine .find ?_
  rw [← h]
  cases hx : E.findSecrets kids with
  | error e => exact .error _
  | ok l => exact hf l hx

theorem signKids_meant {signBy : Str} {doc : DIDDoc} {kids : List Str} (h : signKids signBy doc = .ok kids) : kids = signersMeant signBy doc := by
  unfold signKids at h
  rw [didOrUrl_snd] at h
  unfold signersMeant
  by_cases hf : HasFragment signBy
  · rw [if_pos hf] at h ⊢
    dsimp only at h
    cases hx : doc.authentication.find? (fun a => a == signBy) with
    | none => rw [hx] at h; cases h
    | some x => rw [hx] at h; cases h; rfl
  · rw [if_neg hf] at h ⊢
    cases h; rfl

theorem authKids_meant {f : FromPrior} {kid : Option Str} {doc : DIDDoc} {kids : List Str} (h : f.authKids kid doc = .ok kids) :
    kids = issuersMeant kid doc := by
  unfold FromPrior.authKids at h
  unfold issuersMeant
  cases kid with
  | none => cases h; rfl
  | some k =>
    have h2 := didOrUrl_snd k
    dsimp only at h
    split at h
    · cases h
    · rename_i did kid hk
      rw [hk] at h2
      dsimp only at h2
      split at h2
      · cases h2
        split at h
        · cases h
        · cases hx : doc.authentication.find? (fun a => a == k) with
          | none => rw [hx] at h; cases h
          | some x =>
            rw [hx] at h; cases h
            have := List.find?_some hx
            simp only [beq_iff_eq] at this
            subst this; rfl
      · cases h2

theorem SameSecretsFor.start {l : List Str} (h : SameSecretsFor E E' l) : SameStart (E.findSecrets l) (E'.findSecrets l) := by
  rw [← h.found]
  cases E.findSecrets l with
  | error e => exact .failed e
  | ok l =>
    cases l with
    | nil => exact .nothing
    | cons k r => exact .first k r r

theorem packSigned_for {m : Message} {signBy : Str} (hd : ∀ d, E.resolve d = E'.resolve d)
    (hs : ∀ doc, E.resolve (didOf signBy) = .ok (some doc) → SameSecretsFor E E' (signersMeant signBy doc)) :
    Abreast E E' Eq (packSigned C m signBy) (packSigned C m signBy) := by
  unfold packSigned
  split
  · exact .fail _
  refine Abreast.documentSame (hd _) fun doc hdoc => ?_
  rw [didOrUrl_fst] at hdoc
  refine Abreast.lift_bind_eq _ fun kids hk => ?_
  cases signKids_meant hk
  have hs := hs doc hdoc
  refine Abreast.first hs.start (fun kid rest h => hs.secret _ h kid (by simp)) fun kid s => ?_
  refine Abreast.lift_bind _ fun s => Abreast.lift_bind _ fun pair =>
    (packPlaintext_abreast fun _ d => answersBy_of_eq samePackDoc_rfl (hd d)).eq_bind fun _ => ?_
  exact Abreast.lift_bind _ fun _ => Abreast.lift_bind _ fun _ => .lift _

theorem fromPriorPack_for {f : FromPrior} {kid : Option Str} (hd : ∀ d, E.resolve d = E'.resolve d)
    (hs : ∀ doc, E.resolve f.iss = .ok (some doc) → SameSecretsFor E E' (issuersMeant kid doc)) :
    Abreast E E' Eq (FromPrior.pack C f kid) (FromPrior.pack C f kid) := by
  refine Abreast.lift_bind _ fun _ => Abreast.documentSame (hd _) fun doc hdoc => ?_
  refine Abreast.lift_bind_eq _ fun kids hk => ?_
  cases authKids_meant hk
  have hs := hs doc hdoc
  refine Abreast.first hs.start (fun kid rest h => hs.secret _ h kid (by simp)) fun kid s => ?_
  refine Abreast.lift_bind _ fun s => Abreast.lift_bind _ fun pair => ?_
  exact Abreast.lift_bind _ fun _ => Abreast.lift_bind _ fun _ => .lift _

theorem methodsOf_ids {k : ErrorKind} {doc : DIDDoc} {l : List Str} {vms : List VerificationMethod} (h : methodsOf k doc l = .ok vms) :
    vms.map VerificationMethod.id = l := by
  induction l generalizing vms with
  | nil => cases h; rfl
  | cons x r ih =>
    unfold methodsOf at h
    cases hx : doc.verificationMethod.find? (fun vm => vm.id == x) with
    | none => rw [hx] at h; cases h
    | some vm =>
      rw [hx] at h
      cases hr : methodsOf k doc r with
      | error e => rw [hr] at h; cases h
      | ok vs =>
        rw [hr] at h; cases h
        have := List.find?_some hx
        simp only [beq_iff_eq] at this
        rw [List.map_cons, this, ih hr]

theorem chooseSender_mem {l t : List VerificationMethod} {vm : VerificationMethod} (h : chooseSender l t = .ok vm) : vm ∈ l := by
  unfold chooseSender at h
  cases hx : (l.filter (fun k => k.keyAlg.isSome)).find? (fun f => t.any (fun t => decide (t.keyAlg = f.keyAlg))) with
  | none => rw [hx] at h; cases h
  | some v =>
    rw [hx] at h; cases h
    exact (List.mem_filter.1 (List.mem_of_find?_eq_some hx)).1

theorem authcrypt_for {to from_ : Str} {msg : Bytes} {ea : AuthCryptAlg} {alg : AnonCryptAlg} {ps : Bool}
    (hd : ∀ d, E.resolve d = E'.resolve d)
    (hs : ∀ doc, E.resolve (didOf from_) = .ok (some doc) → SameSecretsFor E E' (meantBy from_ doc.keyAgreement)) :
    Abreast E E' Eq (authcrypt C to from_ msg ea alg ps) (authcrypt C to from_ msg ea alg ps) := by
  refine Abreast.documentSame (hd _) fun toDoc _ => Abreast.documentSame (hd _) fun doc hdoc => ?_
  rw [didOrUrl_fst] at hdoc
  refine Abreast.lift_bind_eq _ fun fromKids hk => ?_
  obtain ⟨rfl, -⟩ := agreementKids_ok.1 hk
  have hs := hs doc hdoc
  refine Abreast.findFor hs.found fun found hfound => ?_
  split
  · exact .fail _
  refine Abreast.lift_bind_eq _ fun fromKeys hfk => Abreast.lift_bind _ fun toKids => Abreast.lift_bind _ fun toKeys =>
    Abreast.lift_bind_eq _ fun fromKey hc => ?_
  have hmem : fromKey.id ∈ found := by
    rw [← methodsOf_ids hfk]
    exact List.mem_map.2 ⟨_, chooseSender_mem hc, rfl⟩
  refine (Abreast.getSame (hs.secret _ hfound _ hmem)).eq_bind fun secret => Abreast.lift_bind _ fun secret => ?_
  split
  · split
    · refine Abreast.lift_bind _ fun _ => Abreast.lift_bind _ fun _ => (jweEncrypt_draws.abreast).eq_bind fun _ => ?_
      split
      · exact (jweEncrypt_draws.abreast).eq_bind fun _ => .lift _
      · exact .lift _
    · exact .fail _
  · exact .fail _

theorem packEncrypted_for {m : Message} {to : Str} {from_ signBy : Option Str} {opts : PackEncryptedOptions}
    (hd : ∀ d, E.resolve d = E'.resolve d)
    (hs : ∀ s doc, signBy = some s → E.resolve (didOf s) = .ok (some doc) → SameSecretsFor E E' (signersMeant s doc))
    (hf : ∀ f doc, from_ = some f → E.resolve (didOf f) = .ok (some doc) → SameSecretsFor E E' (meantBy f doc.keyAgreement)) :
    Abreast E E' Eq (packEncrypted C m to from_ signBy opts) (packEncrypted C m to from_ signBy opts) := by
  have hdoc : ∀ d, AnswersBy SamePackDoc (E.resolve d) (E'.resolve d) := fun d => answersBy_of_eq samePackDoc_rfl (hd d)
  refine Abreast.lift_bind _ fun _ => Abreast.eq_bind (p := packInner C m signBy) ?_ fun a => ?_
  · cases signBy with
    | none => exact (packPlaintext_abreast fun _ => hdoc).eq_bind fun _ => .pure rfl
    | some s => exact (packSigned_for hd fun doc h => hs s doc rfl h).eq_bind fun _ => .pure rfl
  · refine Abreast.eq_bind (p := packCrypt C to from_ a.1 opts) ?_ fun b => ?_
    · cases from_ with
      | none => exact (anoncrypt_abreast (answersBy_of_eq (fun d => (samePackDoc_rfl d).agreement) (hd _))).eq_bind fun _ => .pure rfl
      | some f => exact (authcrypt_for hd fun doc h => hf f doc rfl h).eq_bind fun _ => .pure rfl
    · refine (wrapIfNeeded_abreast fun _ => hdoc).eq_bind fun w => ?_
      split <;> exact .pure rfl

/-! ## Fewer secrets -/

/-- All that `p` can return in `E` satisfies `P`. -/
def OnlyGives (E : Env) (P : α → Prop) (p : Prog α) : Prop := ∀ rnd a, (p.run E rnd).2 = .ok a → P a

theorem run_bind_ok {p : Prog α} {f : α → Prog β} {rnd : Nat → Nat} {b : β} (h : ((p >>= f).run E rnd).2 = .ok b) :
    ∃ a rnd', (p.run E rnd).2 = .ok a ∧ ((f a).run E rnd').2 = .ok b := by
  induction p generalizing rnd with
  | ret r =>
    cases r with
    | ok a => exact ⟨a, rnd, rfl, h⟩
    | error e => cases h
  | ask q k ih =>
    cases q with
    | resolve d => exact ih _ h
    | findSecrets d => exact ih _ h
    | getSecret d => exact ih _ h
    | random => exact ih _ h

theorem OnlyGives.bind {P : β → Prop} {p : Prog α} {f : α → Prog β} (h : ∀ a, OnlyGives E P (f a)) : OnlyGives E P (p >>= f) := by
  intro rnd b hb
  obtain ⟨a, rnd', -, h'⟩ := run_bind_ok hb
  exact h a rnd' b h'

theorem OnlyGives.ok {P : α → Prop} {a : α} (h : P a) : OnlyGives E P (Prog.lift (.ok a)) := by
  rintro rnd b hb
  cases hb
  exact h

theorem OnlyGives.error {P : α → Prop} {e : Err} : OnlyGives E P (.ret (.error e)) := by
  rintro rnd b hb
  cases hb

/-- If `p` in `E` returns something that satisfies `K`, then `q` in `E'` returns the same, with the same draws. -/
inductive Leads (E E' : Env) {α : Type} (K : α → Prop) : Prog α → Prog α → Prop
  | ok (a : α) : Leads E E' K (.ret (.ok a)) (.ret (.ok a))
  | never {p q : Prog α} (h : OnlyGives E (fun a => ¬ K a) p) : Leads E E' K p q
  | resolve {d d' : Str} {k k' : Except ErrorKind (Option DIDDoc) → Prog α}
      (h : Leads E E' K (k (E.resolve d)) (k' (E'.resolve d'))) : Leads E E' K (.ask (.resolve d) k) (.ask (.resolve d') k')
  | find {d d' : List Str} {k k' : Except ErrorKind (List Str) → Prog α}
      (h : Leads E E' K (k (E.findSecrets d)) (k' (E'.findSecrets d'))) : Leads E E' K (.ask (.findSecrets d) k) (.ask (.findSecrets d') k')
  | get {d d' : Str} {k k' : Except ErrorKind (Option Secret) → Prog α}
      (h : Leads E E' K (k (E.getSecret d)) (k' (E'.getSecret d'))) : Leads E E' K (.ask (.getSecret d) k) (.ask (.getSecret d') k')
  | random {k k' : Nat → Prog α} (h : ∀ n, Leads E E' K (k n) (k' n)) : Leads E E' K (.ask .random k) (.ask .random k')

theorem Leads.run {K : α → Prop} {p q : Prog α} (h : Leads E E' K p q) :
    ∀ rnd a, (p.run E rnd).2 = .ok a → K a → (q.run E' rnd).2 = .ok a := by
  induction h with
  | ok a => intro rnd b h _; exact h
  | never h => intro rnd a ha hk; exact absurd hk (h rnd a ha)
  | resolve h ih => intro rnd; exact ih rnd
  | find h ih => intro rnd; exact ih rnd
  | get h ih => intro rnd; exact ih rnd
  | random h ih => intro rnd; exact ih (rnd 0) _

theorem Abreast.leads {R : α → α → Prop} (hR : ∀ a b, R a b → a = b) {K : α → Prop} {p q : Prog α} (h : Abreast E E' R p q) :
    Leads E E' K p q := by
  induction h with
  | ok h => cases hR _ _ h; exact .ok _
  | error e => exact .never .error
  | resolve h ih => exact .resolve ih
  | find h ih => exact .find ih
  | get h ih => exact .get ih
  | random h ih => exact .random ih

theorem Abreast.leadsEq {K : α → Prop} {p q : Prog α} (h : Abreast E E' Eq p q) : Leads E E' K p q := h.leads fun _ _ h => h

theorem Leads.bind {K : α → Prop} {L : β → Prop} {p q : Prog α} {f g : α → Prog β} (h : Leads E E' K p q)
    (hf : ∀ a, K a → Leads E E' L (f a) (g a)) (hn : ∀ a, ¬ K a → OnlyGives E (fun b => ¬ L b) (f a)) :
    Leads E E' L (p >>= f) (q >>= g) := by
  induction h with
  | ok a =>
    by_cases ha : K a
    · exact hf a ha
    · exact .never (hn a ha)
  | never h =>
    refine .never fun rnd b hb => ?_
    obtain ⟨a, rnd', h1, h2⟩ := run_bind_ok hb
    exact hn a (h rnd a h1) rnd' b h2
  | resolve h ih => exact .resolve ih
  | find h ih => exact .find ih
  | get h ih => exact .get ih
  | random h ih => exact .random ih

theorem Leads.lift_bind {L : β → Prop} (r : Res α) {f g : α → Prog β} (hf : ∀ a, r = .ok a → Leads E E' L (f a) (g a)) :
    Leads E E' L (Prog.lift r >>= f) (Prog.lift r >>= g) := by
  cases r with
  | ok a => exact hf a rfl
  | error e => exact .never .error

theorem Leads.document {L : β → Prop} {d : Str} (h : E.resolve d = E'.resolve d) {k : ErrorKind} {f g : DIDDoc → Prog β}
    (hf : ∀ a, Leads E E' L (f a) (g a)) :
    Leads E E' L (do let x ← DIDComm.resolve d; let x ← Prog.lift (okOr k x); f x)
      (do let x ← DIDComm.resolve d; let x ← Prog.lift (okOr k x); g x) := by
  refine .resolve ?_
  rw [← h]
  cases E.resolve d with
  | error e => exact .never .error
  | ok o =>
    cases o with
    | none => exact .never .error
    | some a => exact hf a

/-- Looking for a key of our own, and going on with the first that is reported, if the other sender has it too. -/
theorem Leads.first {L : β → Prop} (h : FewerSecrets E' E has) {kids : List Str} {f : Str → Option Secret → Prog β}
    (hf : ∀ kid s, has kid = true → Leads E E' L (f kid s) (f kid s)) (hn : ∀ kid s, ¬ has kid = true → OnlyGives E (fun b => ¬ L b) (f kid s)) :
    Leads E E' L (do let l ← DIDComm.findSecrets kids; let kid ← Prog.lift (okOr .secretNotFound l.head?); let s ← DIDComm.getSecret kid; f kid s)
      (do let l ← DIDComm.findSecrets kids; let kid ← Prog.lift (okOr .secretNotFound l.head?); let s ← DIDComm.getSecret kid; f kid s) := by
  refine .find ?_
  cases hx : E.findSecrets kids with
  | error e => exact .never .error
  | ok found =>
    rw [h.found _ _ hx]
    cases found with
    | nil => exact .never .error
    | cons kid rest =>
      by_cases hk : has kid = true
      · rw [List.filter_cons_of_pos hk]
        exact (Abreast.getSame (h.secret kid hk)).leadsEq.bind (K := fun _ => True) (fun s _ => hf kid s hk) fun _ h => absurd trivial h
      · refine .never ?_
        show OnlyGives E _ (DIDComm.getSecret kid >>= _)
        exact OnlyGives.bind fun s => hn kid s hk

theorem packSigned_fewer {m : Message} {signBy : Str} (h : FewerSecrets E' E has) :
    Leads E E' (fun x => has x.2 = true) (packSigned C m signBy) (packSigned C m signBy) := by
  unfold packSigned
  split
  · exact .never .error
  refine Leads.document (h.docs _) fun doc => Leads.lift_bind _ fun kids _ => Leads.first h (fun kid s _ => ?_) fun kid s hk => ?_
  · refine Abreast.leadsEq (Abreast.lift_bind _ fun s => Abreast.lift_bind _ fun pair =>
      (packPlaintext_abreast fun _ d => answersBy_of_eq samePackDoc_rfl (h.docs d)).eq_bind fun _ => ?_)
    exact Abreast.lift_bind _ fun _ => Abreast.lift_bind _ fun _ => .lift _
  · exact OnlyGives.bind fun _ => OnlyGives.bind fun _ => OnlyGives.bind fun _ => OnlyGives.bind fun _ => OnlyGives.bind fun _ => .ok hk

theorem fromPriorPack_fewer {f : FromPrior} {kid : Option Str} (h : FewerSecrets E' E has) :
    Leads E E' (fun x => has x.2 = true) (FromPrior.pack C f kid) (FromPrior.pack C f kid) := by
  refine Leads.lift_bind _ fun _ _ => Leads.document (h.docs _) fun doc => Leads.lift_bind _ fun kids _ => Leads.first h (fun kid s _ => ?_) fun kid s hk => ?_
  · refine Abreast.leadsEq (Abreast.lift_bind _ fun s => Abreast.lift_bind _ fun pair => ?_)
    exact Abreast.lift_bind _ fun _ => Abreast.lift_bind _ fun _ => .lift _
  · exact OnlyGives.bind fun _ => OnlyGives.bind fun _ => OnlyGives.bind fun _ => OnlyGives.bind fun _ => .ok hk

theorem methodsOf_filter {k : ErrorKind} {doc : DIDDoc} {l : List Str} {vms : List VerificationMethod} (h : methodsOf k doc l = .ok vms) :
    methodsOf k doc (l.filter has) = .ok (vms.filter fun vm => has vm.id) := by
  induction l generalizing vms with
  | nil => cases h; rfl
  | cons x r ih =>
    unfold methodsOf at h
    cases hx : doc.verificationMethod.find? (fun vm => vm.id == x) with
    | none => rw [hx] at h; cases h
    | some vm =>
      rw [hx] at h
      cases hr : methodsOf k doc r with
      | error e => rw [hr] at h; cases h
      | ok vs =>
        rw [hr] at h; cases h
        have hid := List.find?_some hx
        simp only [beq_iff_eq] at hid
        by_cases hp : has x = true
        · rw [List.filter_cons_of_pos hp, List.filter_cons_of_pos (by rw [hid]; exact hp)]
          unfold methodsOf
          rw [hx, ih hr]
          rfl
        · rw [List.filter_cons_of_neg hp, List.filter_cons_of_neg (by rw [hid]; exact hp)]
          exact ih hr

theorem find_filter {l : List α} {p q : α → Bool} {a : α} (h : l.find? p = some a) (hq : q a = true) : (l.filter q).find? p = some a := by
  induction l with
  | nil => cases h
  | cons x r ih =>
    by_cases hx : p x = true
    · rw [List.find?_cons_of_pos hx] at h
      cases h
      rw [List.filter_cons_of_pos hq, List.find?_cons_of_pos hx]
    · rw [List.find?_cons_of_neg hx] at h
      by_cases hqx : q x = true
      · rw [List.filter_cons_of_pos hqx, List.find?_cons_of_neg hx]
        exact ih h
      · rw [List.filter_cons_of_neg hqx]
        exact ih h

theorem chooseSender_filter {l t : List VerificationMethod} {vm : VerificationMethod} (h : chooseSender l t = .ok vm) (hv : has vm.id = true) :
    chooseSender (l.filter fun vm => has vm.id) t = .ok vm := by
  unfold chooseSender at h ⊢
  cases hx : (l.filter (fun k => k.keyAlg.isSome)).find? (fun f => t.any (fun t => decide (t.keyAlg = f.keyAlg))) with
  | none => rw [hx] at h; cases h
  | some v =>
    rw [hx] at h; cases h
    rw [List.filter_filter]
    have : (fun a : VerificationMethod => a.keyAlg.isSome && has a.id) = fun a => has a.id && a.keyAlg.isSome := by
      funext a; exact Bool.and_comm _ _
    rw [this, ← List.filter_filter, find_filter hx hv]
    rfl

theorem authcrypt_fewer {to from_ : Str} {msg : Bytes} {ea : AuthCryptAlg} {alg : AnonCryptAlg} {ps : Bool} (h : FewerSecrets E' E has) :
    Leads E E' (fun x => has x.2.1 = true) (authcrypt C to from_ msg ea alg ps) (authcrypt C to from_ msg ea alg ps) := by
  refine Leads.document (h.docs _) fun toDoc => Leads.document (h.docs _) fun doc => Leads.lift_bind _ fun fromKids _ => .find ?_
  cases hx : E.findSecrets fromKids with
  | error e => exact .never .error
  | ok found =>
    rw [h.found _ _ hx]
    show Leads E E' _ (if found.isEmpty then _ else _) (if (found.filter has).isEmpty then _ else _)
    split
    · exact .never .error
    cases hfk : methodsOf .malformed doc found with
    | error e => exact .never .error
    | ok fromKeys =>
      cases htk : agreementKids (didOrUrl to).2 toDoc with
      | error e => exact .never .error
      | ok toKids =>
        cases htm : methodsOf .malformed toDoc toKids with
        | error e => exact .never (by show OnlyGives E _ (Prog.lift (methodsOf .malformed toDoc toKids) >>= _); rw [htm]; exact .error)
        | ok toKeys =>
          cases hc : chooseSender fromKeys toKeys with
          | error e => exact .never (by
              show OnlyGives E _ (Prog.lift (methodsOf .malformed toDoc toKids) >>= _); rw [htm]
              show OnlyGives E _ (Prog.lift (chooseSender fromKeys toKeys) >>= _); rw [hc]; exact .error)
          | ok fromKey =>
            by_cases hk : has fromKey.id = true
            · have hmem : fromKey.id ∈ found := by
                rw [← methodsOf_ids hfk]
                exact List.mem_map.2 ⟨_, chooseSender_mem hc, rfl⟩
              rw [if_neg (by simpa using ⟨_, hmem, hk⟩), methodsOf_filter hfk]
              show Leads E E' _ (Prog.lift (methodsOf .malformed toDoc toKids) >>= _) (Prog.lift (methodsOf .malformed toDoc toKids) >>= _)
              rw [htm]
              show Leads E E' _ (Prog.lift (chooseSender fromKeys toKeys) >>= _) (Prog.lift (chooseSender (fromKeys.filter _) toKeys) >>= _)
              rw [hc, chooseSender_filter hc hk]
              refine Abreast.leadsEq ((Abreast.getSame (h.secret _ hk)).eq_bind fun secret => Abreast.lift_bind _ fun secret => ?_)
              split
              · split
                · refine Abreast.lift_bind _ fun _ => Abreast.lift_bind _ fun _ => (jweEncrypt_draws.abreast).eq_bind fun _ => ?_
                  split
                  · exact (jweEncrypt_draws.abreast).eq_bind fun _ => .lift _
                  · exact .lift _
                · exact .fail _
              · exact .fail _
            · refine .never ?_
              show OnlyGives E _ (Prog.lift (methodsOf .malformed toDoc toKids) >>= _); rw [htm]
              show OnlyGives E _ (Prog.lift (chooseSender fromKeys toKeys) >>= _); rw [hc]
              show OnlyGives E _ (DIDComm.getSecret fromKey.id >>= _)
              refine OnlyGives.bind fun secret => OnlyGives.bind fun secret => ?_
              split
              · split
                · refine OnlyGives.bind fun _ => OnlyGives.bind fun _ => OnlyGives.bind fun _ => ?_
                  split
                  · exact OnlyGives.bind fun _ => .ok hk
                  · exact .ok hk
                · exact .error
              · exact .error

theorem packEncrypted_fewer {m : Message} {to : Str} {from_ signBy : Option Str} {opts : PackEncryptedOptions} (h : FewerSecrets E' E has) :
    Leads E E' (fun x => (∀ k, x.2.fromKid = some k → has k = true) ∧ ∀ k, x.2.signByKid = some k → has k = true)
      (packEncrypted C m to from_ signBy opts) (packEncrypted C m to from_ signBy opts) := by
  have hdoc : ∀ d, AnswersBy SamePackDoc (E.resolve d) (E'.resolve d) := fun d => answersBy_of_eq samePackDoc_rfl (h.docs d)
  refine Leads.lift_bind _ fun _ _ =>
    Leads.bind (p := packInner C m signBy) (q := packInner C m signBy) (K := fun a => ∀ k, a.2 = some k → has k = true) ?_ (fun a ha => ?_) fun a ha => ?_
  · cases signBy with
    | none => exact ((packPlaintext_abreast fun _ => hdoc).eq_bind fun _ => .pure rfl).leadsEq
    | some s =>
      refine (packSigned_fewer h).bind (fun a ha => ?_) fun a ha => ?_
      · exact .ok _
      · exact OnlyGives.ok (a := (a.1, some a.2)) fun hx => ha (hx _ rfl)
  · refine Leads.bind (p := packCrypt C to from_ a.1 opts) (q := packCrypt C to from_ a.1 opts)
      (K := fun b => ∀ k, b.2.1 = some k → has k = true) ?_ (fun b hb => ?_) fun b hb => ?_
    · cases from_ with
      | none => exact ((anoncrypt_abreast (answersBy_of_eq (fun d => (samePackDoc_rfl d).agreement) (h.docs _))).eq_bind fun _ => .pure rfl).leadsEq
      | some f =>
        refine (authcrypt_fewer h).bind (fun a ha => ?_) fun a ha => ?_
        · exact .ok _
        · exact OnlyGives.ok (a := (a.1, some a.2.1, a.2.2)) fun hx => ha (hx _ rfl)
    · refine Abreast.leadsEq ((wrapIfNeeded_abreast fun _ => hdoc).eq_bind fun w => ?_)
      split <;> exact .pure rfl
    · refine OnlyGives.bind fun w => ?_
      split
      · exact OnlyGives.ok fun hx => hb hx.1
      · exact OnlyGives.ok fun hx => hb hx.1
  · refine OnlyGives.bind fun b => OnlyGives.bind fun w => ?_
    split
    · exact OnlyGives.ok fun hx => ha hx.2
    · exact OnlyGives.ok fun hx => ha hx.2

end DIDComm
