import Verif.Spec.Select
import Verif.Spec.Codec
import Verif.Proofs.Inv
import Verif.Props.Codec

/-! # The code's selection functions agree with the description -/

set_option autoImplicit false

namespace DIDComm

theorem didOrUrl_fst (s : Str) : (didOrUrl s).1 = didOf s := by
  unfold didOrUrl didOf
  induction s with
  | nil => rfl
  | cons b r ih =>
    by_cases hb : b = 0x23
    · subst hb; simp [splitOnce]
    · simp only [splitOnce, if_neg hb, List.takeWhile_cons, ne_eq, hb, not_false_eq_true, decide_true, if_true]
      cases h : splitOnce 0x23 r with
      | none => simp [h] at ih; simp [← ih]
      | some p => simp [h] at ih; simp [← ih]

theorem didOrUrl_snd (s : Str) : (didOrUrl s).2 = if HasFragment s then some s else none := by
  rcases C46_cases s with h | ⟨d, f, h, rfl⟩
  · rw [C46_no_fragment s h, if_neg h]
  · rw [C46_fragment d f h, if_pos (by simp)]

theorem didOrUrl_isSome (s : Str) : (didOrUrl s).2.isSome = true ↔ HasFragment s := by
  rw [didOrUrl_snd]; split <;> simp_all

theorem didOrUrl_isNone (s : Str) : (didOrUrl s).2.isNone = true ↔ ¬ HasFragment s := by
  rw [didOrUrl_snd]; split <;> simp_all

theorem agreementKids_ok {who : Str} {doc : DIDDoc} {kids : List Str} :
    agreementKids (didOrUrl who).2 doc = .ok kids ↔ kids = meantBy who doc.keyAgreement ∧ kids ≠ [] := by
  unfold agreementKids meantBy
  rw [didOrUrl_snd]
  split
  · rename_i h
    simp only [fail]
    have : (fun k => k == who) = (fun k : Str => decide (k = who)) := by funext k; by_cases hk : k = who <;> simp [hk]
    rw [this]
    split
    · rename_i he; constructor
      · intro h; cases h
      · rintro ⟨rfl, h⟩; exact absurd (List.isEmpty_iff.1 he) h
    · rename_i he; constructor
      · intro h; cases h; exact ⟨rfl, by simpa using he⟩
      · rintro ⟨rfl, h⟩; rfl
  · rename_i h
    have hft : doc.keyAgreement.filter (fun _ => true) = doc.keyAgreement := List.filter_eq_self.2 (fun _ _ => rfl)
    simp only [fail, hft]
    split
    · rename_i he; constructor
      · intro h; cases h
      · rintro ⟨rfl, h⟩; exact absurd (List.isEmpty_iff.1 he) h
    · rename_i he; constructor
      · intro h; cases h; exact ⟨rfl, by simpa using he⟩
      · rintro ⟨rfl, h⟩; rfl

theorem agreementKids_error {who : Str} {doc : DIDDoc} (h : meantBy who doc.keyAgreement = []) :
    agreementKids (didOrUrl who).2 doc = .error (.kind .didUrlNotFound) := by
  cases hk : agreementKids (didOrUrl who).2 doc with
  | ok kids => obtain ⟨rfl, h'⟩ := agreementKids_ok.1 hk; exact absurd h h'
  | error e =>
    unfold agreementKids at hk
    simp only [fail] at hk
    split at hk
    · cases hk; rfl
    · cases hk

theorem find_method (doc : DIDDoc) (kid : Str) :
    doc.verificationMethod.find? (fun vm => vm.id == kid) = methodOf doc kid := by
  unfold methodOf
  congr 1
  funext vm; by_cases h : vm.id = kid <;> simp [h]

theorem methodOf_id {doc : DIDDoc} {kid : Str} {vm : VerificationMethod} (h : methodOf doc kid = some vm) :
    vm.id = kid := by
  simpa using List.find?_some h

theorem methodsOf_ok {k : ErrorKind} {doc : DIDDoc} {kids : List Str} {vms : List VerificationMethod} :
    methodsOf k doc kids = .ok vms ↔ kids.map (methodOf doc) = vms.map some := by
  induction kids generalizing vms with
  | nil => cases vms <;> simp [methodsOf]
  | cons kid r ih =>
    simp only [methodsOf, res_bind_ok, okOr_eq_ok, find_method, ih, Except.ok.injEq, List.map_cons]
    constructor
    · rintro ⟨vm, h1, l, h2, rfl⟩; simp [h1, h2]
    · intro h
      cases vms with
      | nil => simp at h
      | cons vm l =>
        simp only [List.map_cons, List.cons.injEq] at h
        exact ⟨vm, h.1, l, h.2, rfl⟩

theorem methodsOf_error {k : ErrorKind} {doc : DIDDoc} {kids : List Str} (h : ∃ kid ∈ kids, methodOf doc kid = none) :
    methodsOf k doc kids = .error (.kind k) := by
  induction kids with
  | nil => obtain ⟨_, h, _⟩ := h; cases h
  | cons kid r ih =>
    simp only [methodsOf, find_method]
    cases hm : methodOf doc kid with
    | none => rfl
    | some vm =>
      have : ∃ k' ∈ r, methodOf doc k' = none := by
        obtain ⟨k', hk, hn⟩ := h
        rcases List.mem_cons.1 hk with rfl | hk
        · rw [hm] at hn; cases hn
        · exact ⟨k', hk, hn⟩
      rw [ih this]; rfl

theorem methods_ids {doc : DIDDoc} {kids : List Str} {vms : List VerificationMethod}
    (h : kids.map (methodOf doc) = vms.map some) (c : Option Curve) :
    (vms.filter (fun vm => decide (vm.keyAlg = c))).map VerificationMethod.id
      = kids.filter (fun k => decide ((methodOf doc k).bind VerificationMethod.keyAlg = c)) := by
  induction kids generalizing vms with
  | nil => cases vms <;> simp_all
  | cons kid r ih =>
    cases vms with
    | nil => simp at h
    | cons vm l =>
      simp only [List.map_cons, List.cons.injEq] at h
      have hid := methodOf_id h.1
      simp only [List.filter_cons, h.1, Option.bind_some]
      split <;> simp [ih h.2, hid]

theorem methods_findSome {doc : DIDDoc} {kids : List Str} {vms : List VerificationMethod}
    (h : kids.map (methodOf doc) = vms.map some) :
    vms.findSome? VerificationMethod.keyAlg = kids.findSome? (keyTypeOf doc) := by
  induction kids generalizing vms with
  | nil => cases vms <;> simp_all
  | cons kid r ih =>
    cases vms with
    | nil => simp at h
    | cons vm l =>
      simp only [List.map_cons, List.cons.injEq] at h
      simp only [List.findSome?_cons, keyTypeOf, h.1, Option.bind_some]
      rw [ih h.2]

theorem methods_mem {doc : DIDDoc} {kids : List Str} {vms : List VerificationMethod}
    (h : kids.map (methodOf doc) = vms.map some) {vm : VerificationMethod} (hv : vm ∈ vms) :
    vm.id ∈ kids ∧ methodOf doc vm.id = some vm := by
  have : some vm ∈ kids.map (methodOf doc) := by rw [h]; exact List.mem_map.2 ⟨vm, hv, rfl⟩
  obtain ⟨kid, hk, hm⟩ := List.mem_map.1 this
  cases methodOf_id hm
  exact ⟨hk, hm⟩

theorem keysOf_fst {C : Crypto} {c : Curve} {vms : List VerificationMethod} {l : List (Str × C.Key)}
    (h : keysOf C c vms = .ok l) : l.map Prod.fst = vms.map VerificationMethod.id := by
  induction vms generalizing l with
  | nil => cases h; rfl
  | cons vm r ih =>
    simp only [keysOf, res_bind_ok, Except.ok.injEq] at h
    obtain ⟨k, _, l', h, rfl⟩ := h
    simp [ih h]

theorem keysOf_mem {C : Crypto} {c : Curve} {vms : List VerificationMethod} {l : List (Str × C.Key)}
    (h : keysOf C c vms = .ok l) {p : Str × C.Key} (hp : p ∈ l) : ∃ vm ∈ vms, vm.id = p.1 ∧ vm.as C c = .ok p.2 := by
  induction vms generalizing l with
  | nil => cases h; cases hp
  | cons vm r ih =>
    simp only [keysOf, res_bind_ok, Except.ok.injEq] at h
    obtain ⟨k, h1, l', h, rfl⟩ := h
    rcases List.mem_cons.1 hp with rfl | hp
    · exact ⟨vm, by simp, rfl, h1⟩
    · obtain ⟨v, hv, h2⟩ := ih h hp
      exact ⟨v, by simp [hv], h2⟩

theorem validatePackEncrypted_ok {m : Message} {to : Str} {from_ signBy : Option Str} :
    m.validatePackEncrypted to from_ signBy = .ok () ↔
      LooksLikeDid to ∧ (∀ f, from_ = some f → LooksLikeDid f) ∧ (∀ s, signBy = some s → LooksLikeDid s) ∧
      (∀ l, m.to = some l → didOf to ∈ l) ∧
      (∀ f sf, from_ = some f → m.from_ = some sf → didOf f = sf) := by
  unfold Message.validatePackEncrypted
  simp only [didOrUrl_fst, ← C46_is_did, fail]
  by_cases h1 : isDid to = false
  · simp [h1]
  rw [if_neg h1]
  by_cases h2 : from_.any (fun f => !isDid f) = true
  · rw [if_pos h2]
    cases from_ with
    | none => simp at h2
    | some f => simp at h2; simp [h2]
  rw [if_neg h2]
  by_cases h3 : signBy.any (fun f => !isDid f) = true
  · rw [if_pos h3]
    cases signBy with
    | none => simp at h3
    | some f => simp at h3; simp [h3]
  rw [if_neg h3]
  by_cases h4 : m.to.any (fun l => !l.contains (didOf to)) = true
  · rw [if_pos h4]
    cases hto : m.to with
    | none => simp [hto] at h4
    | some f => simp [hto] at h4; simp [h4]
  rw [if_neg h4]
  have h1' : isDid to = true := by simpa using h1
  have h2' : ∀ f, from_ = some f → isDid f = true := by rintro f rfl; simpa using h2
  have h3' : ∀ f, signBy = some f → isDid f = true := by rintro f rfl; simpa using h3
  have h4' : ∀ l, m.to = some l → didOf to ∈ l := by intro l hl; simpa [hl] using h4
  cases from_ with
  | none => simp [h1']; exact ⟨h3', h4'⟩
  | some f =>
    cases hs : m.from_ with
    | none => simp [h1', h2' f rfl]; exact ⟨h3', h4'⟩
    | some sf =>
      simp only [Option.some.injEq, forall_eq', h1', h2' f rfl, true_and]
      by_cases h : didOf f = sf
      · rw [if_neg (by simpa using h)]; simp [h]; exact ⟨h3', h4'⟩
      · rw [if_pos h]; simp [h]

theorem validatePackEncrypted_error {m : Message} {to : Str} {from_ signBy : Option Str}
    (h : m.validatePackEncrypted to from_ signBy ≠ .ok ()) :
    m.validatePackEncrypted to from_ signBy = .error (.kind .illegalArgument) := by
  unfold Message.validatePackEncrypted at h ⊢
  simp only [fail] at h ⊢
  repeat' split
  all_goals first | rfl | skip
  all_goals simp_all

end DIDComm
