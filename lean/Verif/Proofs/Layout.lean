import Verif.Proofs.ReadingTypes
import Verif.Proofs.Typed
import Verif.Spec.Layout

/-! # Decoders do not see the order of members -/

set_option autoImplicit false

namespace DIDComm

variable {f64 : Str → Option Str}

/-! ## Options -/

/-- Both absent, or both present and related. -/
def BothOr {α β : Type} (R : α → β → Prop) (o : Option α) (o' : Option β) : Prop :=
  (o = none ∧ o' = none) ∨ ∃ x y, o = some x ∧ o' = some y ∧ R x y

theorem BothOr.trans {α : Type} {R : α → α → Prop} (hR : ∀ {a b c}, R a b → R b c → R a c) {o o' o'' : Option α}
    (h : BothOr R o o') (h' : BothOr R o' o'') : BothOr R o o'' := by
  rcases h with ⟨e1, e2⟩ | ⟨x, y, e1, e2, h⟩ <;> rcases h' with ⟨e3, e4⟩ | ⟨z, w, e3, e4, h'⟩ <;> rw [e2] at e3
  · exact .inl ⟨e1, e4⟩
  · cases e3
  · cases e3
  · cases e3; exact .inr ⟨x, w, e1, e4, hR h h'⟩

theorem BothOr.of_eq {α : Type} {R : α → α → Prop} (hR : ∀ a, R a a) {o o' : Option α} (h : o = o') : BothOr R o o' := by
  subst h
  cases o with
  | none => exact .inl ⟨rfl, rfl⟩
  | some a => exact .inr ⟨a, a, rfl, rfl, hR a⟩

/-! ## JSON values -/

/-- The members of an object as pairs. -/
def memberPairs (f64 : Str → Option Str) (n : Nat) : List (StrTok × Tree) → Option (List (Str × Value))
  | [] => some []
  | (k, t) :: r => do
    let k ← k.val
    let v ← toValue f64 n t
    let l ← memberPairs f64 n r
    some ((k, v) :: l)

theorem toMembers_pairs (n : Nat) : ∀ (m : List (StrTok × Tree)) (acc : List (Str × Value)),
    toMembers f64 n m acc = (memberPairs f64 n m).map (fun l => l.foldl (fun a p => btInsert p.1 p.2 a) acc)
  | [], acc => by simp [toMembers, memberPairs]
  | (k, t) :: r, acc => by
    simp only [toMembers, memberPairs]
    cases k.val with
    | none => rfl
    | some k =>
      cases toValue f64 n t with
      | none => rfl
      | some v =>
        simp only [Option.bind_eq_bind, Option.bind_some, toMembers_pairs n r]
        cases memberPairs f64 n r <;> rfl

theorem memberPairs_perm {n : Nat} {m m' : List (StrTok × Tree)} (h : m.Perm m') :
    BothOr List.Perm (memberPairs f64 n m) (memberPairs f64 n m') := by
  induction h with
  | nil => exact .inr ⟨[], [], rfl, rfl, .nil⟩
  | cons p _ ih =>
    obtain ⟨k, t⟩ := p
    simp only [memberPairs]
    cases k.val with
    | none => exact .inl ⟨rfl, rfl⟩
    | some k =>
      cases toValue f64 n t with
      | none => exact .inl ⟨rfl, rfl⟩
      | some v =>
        rcases ih with ⟨e, e'⟩ | ⟨x, y, e, e', hp⟩ <;> rw [e, e']
        · exact .inl ⟨rfl, rfl⟩
        · exact .inr ⟨_, _, rfl, rfl, hp.cons _⟩
  | swap p q l =>
    obtain ⟨k, t⟩ := p
    obtain ⟨k', t'⟩ := q
    simp only [memberPairs]
    cases k.val <;> cases k'.val <;> cases toValue f64 n t <;> cases toValue f64 n t' <;> cases memberPairs f64 n l
    all_goals first
      | exact .inl ⟨rfl, rfl⟩
      | exact .inr ⟨_, _, rfl, rfl, .swap _ _ _⟩
  | trans _ _ ih1 ih2 => exact BothOr.trans (fun h h' => h.trans h') ih1 ih2

theorem memberPairs_names {n : Nat} : ∀ {m : List (StrTok × Tree)} {l : List (Str × Value)}, memberPairs f64 n m = some l →
    (m.map fun p => p.1.val) = l.map fun p => some p.1
  | [], l, h => by cases h; rfl
  | (k, t) :: r, l, h => by
    simp only [memberPairs, Option.bind_eq_bind, Option.bind_eq_some_iff] at h
    obtain ⟨k', hk, v, -, r', hr, e⟩ := h
    cases e
    simp [hk, memberPairs_names hr]

theorem nodup_of_some {α : Type} {l : List (Str × α)} (h : (l.map fun p => some p.1).Nodup) : (l.map Prod.fst).Nodup := by
  have : (l.map fun p => some p.1) = (l.map Prod.fst).map some := by simp
  rw [this] at h
  exact (List.pairwise_map.1 h).imp fun hne e => hne (congrArg some e)

theorem lastOf_of_nodup {α : Type} {l : List (Str × α)} (h : (l.map Prod.fst).Nodup) {k : Str} {v : α} :
    LastOf l k v ↔ (k, v) ∈ l := by
  constructor
  · rintro ⟨a, b, rfl, -⟩; simp
  · intro hm
    obtain ⟨a, b, rfl⟩ := List.append_of_mem hm
    refine ⟨a, b, rfl, ?_⟩
    rw [List.map_append, List.map_cons, List.nodup_append] at h
    exact (List.nodup_cons.1 h.2.1).1

/-- Inserting pairs with different keys in any order gives the same sorted list. -/
theorem foldl_btInsert_perm {α : Type} {l l' : List (Str × α)} (h : l.Perm l') (hd : (l.map Prod.fst).Nodup) :
    l.foldl (fun a p => btInsert p.1 p.2 a) [] = l'.foldl (fun a p => btInsert p.1 p.2 a) [] := by
  have hd' : (l'.map Prod.fst).Nodup := (h.map _).nodup_iff.1 hd
  have h1 := bt_fold l [] List.Pairwise.nil
  have h2 := bt_fold l' [] List.Pairwise.nil
  refine sorted_ext h1.1 h2.1 fun k v => ?_
  rw [h1.2, h2.2, lastOf_of_nodup hd, lastOf_of_nodup hd', h.mem_iff]
  simp

mutual
theorem toValue_alike {t t' : Tree} : Alike t t' → ∀ n, toValue f64 n t = toValue f64 n t'
  | .null => fun _ => rfl
  | .bool _ => fun _ => rfl
  | .num _ => fun _ => rfl
  | .str _ => fun _ => rfl
  | .arr h => fun n => by simp only [toValue, toValues_alike h]
  | .obj (m' := m') hd h hp => fun n => by
    simp only [toValue, toMembers_pairs, memberPairs_alike h]
    split
    · rfl
    · rcases memberPairs_perm (f64 := f64) (n := n - 1) hp with ⟨e, e'⟩ | ⟨x, y, e, e', hx⟩
      · rw [e, e']
      · rw [e, e']
        simp only [Option.map_some]
        rw [foldl_btInsert_perm hx (nodup_of_some (memberPairs_names e ▸ hd))]
theorem toValues_alike {l l' : List Tree} : AlikeAll l l' → ∀ n, toValues f64 n l = toValues f64 n l'
  | .nil => fun _ => rfl
  | .cons h hr => fun n => by simp only [toValues, toValue_alike h, toValues_alike hr]
theorem memberPairs_alike {m m' : List (StrTok × Tree)} : AlikeMembers m m' → ∀ n, memberPairs f64 n m = memberPairs f64 n m'
  | .nil => fun _ => rfl
  | .cons hk h hr => fun n => by simp only [memberPairs, hk, toValue_alike h, memberPairs_alike hr]
end

/-! ## Members -/

/-- Members with the same names whose contents are alike, one by one. -/
inductive AlikeFields : List (Str × Tree) → List (Str × Tree) → Prop
  | nil : AlikeFields [] []
  | cons {k : Str} {t t' : Tree} {m m' : List (Str × Tree)} (h : Alike t t') (hr : AlikeFields m m') :
      AlikeFields ((k, t) :: m) ((k, t') :: m')

/-- Members alike, in any order. -/
def SameFields (m m'' : List (Str × Tree)) : Prop := ∃ m', AlikeFields m m' ∧ (m'.map Prod.fst).Nodup ∧ m'.Perm m''

theorem AlikeFields.names {m m' : List (Str × Tree)} (h : AlikeFields m m') : m.map Prod.fst = m'.map Prod.fst := by
  induction h with
  | nil => rfl
  | cons _ _ ih => simp [ih]

theorem AlikeFields.mem {m m' : List (Str × Tree)} (h : AlikeFields m m') {k : Str} {t : Tree} (hm : (k, t) ∈ m) :
    ∃ t', (k, t') ∈ m' ∧ Alike t t' := by
  induction h with
  | nil => cases hm
  | cons ha _ ih =>
    rcases List.mem_cons.1 hm with e | hm
    · cases e; exact ⟨_, .head _, ha⟩
    · obtain ⟨t', h1, h2⟩ := ih hm
      exact ⟨t', .tail _ h1, h2⟩

theorem decKeys_perm {m m' : List (StrTok × Tree)} (h : m.Perm m') : BothOr List.Perm (decKeys m) (decKeys m') := by
  induction h with
  | nil => exact .inr ⟨[], [], rfl, rfl, .nil⟩
  | cons p _ ih =>
    obtain ⟨k, t⟩ := p
    simp only [decKeys]
    cases k.val with
    | none => exact .inl ⟨rfl, rfl⟩
    | some k =>
      rcases ih with ⟨e, e'⟩ | ⟨x, y, e, e', hp⟩ <;> rw [e, e']
      · exact .inl ⟨rfl, rfl⟩
      · exact .inr ⟨_, _, rfl, rfl, hp.cons _⟩
  | swap p q l =>
    obtain ⟨k, t⟩ := p
    obtain ⟨k', t'⟩ := q
    simp only [decKeys]
    cases k.val <;> cases k'.val <;> cases decKeys l
    all_goals first
      | exact .inl ⟨rfl, rfl⟩
      | exact .inr ⟨_, _, rfl, rfl, .swap _ _ _⟩
  | trans _ _ ih1 ih2 => exact BothOr.trans (fun h h' => h.trans h') ih1 ih2

theorem decKeys_alike {m m' : List (StrTok × Tree)} (h : AlikeMembers m m') : BothOr AlikeFields (decKeys m) (decKeys m') := by
  match h with
  | .nil => exact .inr ⟨[], [], rfl, rfl, .nil⟩
  | .cons (k := k) (k' := k') hk ha hr =>
    have ih := decKeys_alike hr
    simp only [decKeys, hk]
    cases k'.val with
    | none => exact .inl ⟨rfl, rfl⟩
    | some k =>
      rcases ih with ⟨e, e'⟩ | ⟨x, y, e, e', hp⟩ <;> rw [e, e']
      · exact .inl ⟨rfl, rfl⟩
      · exact .inr ⟨_, _, rfl, rfl, hp.cons ha⟩

theorem named_names {l : List (StrTok × Tree)} {m : List (Str × Tree)} (h : Named l m) :
    (l.map fun p => p.1.val) = m.map fun p => some p.1 := by
  have := congrArg (List.map Prod.fst) h
  simpa [List.map_map, Function.comp_def] using this

theorem decKeys_same {m m' m'' : List (StrTok × Tree)} (hd : (m'.map fun p => p.1.val).Nodup) (h : AlikeMembers m m')
    (hp : m'.Perm m'') : BothOr SameFields (decKeys m) (decKeys m'') := by
  rcases decKeys_alike h with ⟨e1, e2⟩ | ⟨x, y, e1, e2, hx⟩ <;> rcases decKeys_perm hp with ⟨e3, e4⟩ | ⟨z, w, e3, e4, hz⟩ <;> rw [e2] at e3
  · exact .inl ⟨e1, e4⟩
  · cases e3
  · cases e3
  · cases e3
    refine .inr ⟨x, w, e1, e4, y, hx, ?_, hz⟩
    exact nodup_of_some (named_names ((decKeys_iff _ _).1 e2) ▸ hd)

theorem asMap_alike {t t' : Tree} (h : Alike t t') (n : Nat) : BothOr SameFields (asMap n t) (asMap n t') := by
  cases h with
  | obj hd h hp =>
    simp only [asMap]
    split
    · exact .inl ⟨rfl, rfl⟩
    · exact decKeys_same hd h hp
  | _ => exact .inl ⟨rfl, rfl⟩

theorem AlikeAll.zip {names : List Str} {l l' : List Tree} (h : AlikeAll l l') : AlikeFields (names.zip l) (names.zip l') := by
  match h, names with
  | .nil, names => simp only [List.zip_nil_right]; exact .nil
  | .cons h hr, [] => exact .nil
  | .cons h hr, k :: names => exact .cons h hr.zip

theorem AlikeAll.length_eq {l l' : List Tree} (h : AlikeAll l l') : l.length = l'.length := by
  match h with
  | .nil => rfl
  | .cons h hr => simp [hr.length_eq]

theorem asStruct_alike {names : List Str} (hn : names.Nodup) {t t' : Tree} (h : Alike t t') (n : Nat) :
    BothOr SameFields (asStruct names n t) (asStruct names n t') := by
  cases h with
  | obj hd h hp =>
    simp only [asStruct]
    split
    · exact .inl ⟨rfl, rfl⟩
    · exact decKeys_same hd h hp
  | arr h =>
    simp only [asStruct]
    split
    · exact .inl ⟨rfl, rfl⟩
    · rw [h.length_eq]
      split
      · rename_i hl
        refine .inr ⟨_, _, rfl, rfl, _, h.zip, ?_, .refl _⟩
        rw [List.map_fst_zip (by omega)]
        exact hn
      · exact .inl ⟨rfl, rfl⟩
  | _ => exact .inl ⟨rfl, rfl⟩

theorem once_of_nodup {m : List (Str × Tree)} (h : (m.map Prod.fst).Nodup) {k : Str} {t : Tree} (hm : (k, t) ∈ m) : Once m k t := by
  obtain ⟨a, b, rfl⟩ := List.append_of_mem hm
  rw [List.map_append, List.map_cons, List.nodup_append] at h
  exact ⟨a, b, rfl, fun ha => h.2.2 _ ha _ (.head _) rfl, (List.nodup_cons.1 h.2.1).1⟩

theorem field_same {m m'' : List (Str × Tree)} (h : SameFields m m'') (k : Str) :
    (field m k = some none ∧ field m'' k = some none) ∨
    ∃ t t', field m k = some (some t) ∧ field m'' k = some (some t') ∧ Alike t t' := by
  obtain ⟨m', h1, hd, hp⟩ := h
  have hd0 : (m.map Prod.fst).Nodup := h1.names ▸ hd
  have hd2 : (m''.map Prod.fst).Nodup := (hp.map _).nodup_iff.1 hd
  by_cases hk : k ∈ m.map Prod.fst
  · obtain ⟨⟨k', t⟩, hm, e⟩ := List.mem_map.1 hk
    cases e
    obtain ⟨t', hm', ha⟩ := h1.mem hm
    exact .inr ⟨t, t', field_some.2 (once_of_nodup hd0 hm), field_some.2 (once_of_nodup hd2 (hp.mem_iff.1 hm')), ha⟩
  · refine .inl ⟨field_none.2 hk, field_none.2 ?_⟩
    intro hk'
    rw [h1.names] at hk
    exact hk ((hp.map _).mem_iff.2 hk')

/-- The decoder reads contents that are alike alike. -/
def Blind {α : Type} (d : Tree → Option α) : Prop := ∀ {t t' : Tree}, Alike t t' → d t = d t'

theorem reqField_same {α : Type} {m m' : List (Str × Tree)} (h : SameFields m m') {d : Tree → Option α} (hd : Blind d) (k : Str) :
    reqField m k d = reqField m' k d := by
  unfold reqField
  rcases field_same h k with ⟨e, e'⟩ | ⟨t, t', e, e', ha⟩ <;> rw [e, e']
  exact hd ha

theorem dOpt_blind {α : Type} {d : Tree → Option α} (hd : Blind d) : Blind (dOpt d) := by
  intro t t' h
  have := hd h
  cases h <;> simp only [dOpt, this]

theorem optField_same {α : Type} {m m' : List (Str × Tree)} (h : SameFields m m') {d : Tree → Option α} (hd : Blind d) (k : Str) :
    optField m k d = optField m' k d := by
  unfold optField
  rcases field_same h k with ⟨e, e'⟩ | ⟨t, t', e, e', ha⟩ <;> rw [e, e']
  exact dOpt_blind hd ha

/-! ## Decoders -/

theorem dBorrow_blind : Blind dBorrow := by intro t t' h; cases h <;> rfl
theorem dStr_blind : Blind dStr := by intro t t' h; cases h <;> rfl
theorem dU64_blind : Blind dU64 := by intro t t' h; cases h <;> rfl
theorem toValue_blind (n : Nat) : Blind (toValue f64 n) := fun h => toValue_alike h n

theorem decAll_alike {α : Type} {d : Tree → Option α} (hd : Blind d) {l l' : List Tree} (h : AlikeAll l l') :
    decAll d l = decAll d l' := by
  match h with
  | .nil => rfl
  | .cons h hr => simp only [decAll, hd h, decAll_alike hd hr]

theorem dVec_blind {α : Type} {d : Nat → Tree → Option α} (hd : ∀ n, Blind (d n)) (n : Nat) : Blind (dVec d n) := by
  intro t t' h
  cases h with
  | arr h => simp only [dVec, decAll_alike (hd _) h]
  | _ => rfl

theorem dKidHeader_blind (n : Nat) : Blind (dKidHeader n) := by
  intro t t' h
  unfold dKidHeader
  rcases asStruct_alike (names := [b!"kid"]) (by decide) h n with ⟨e, e'⟩ | ⟨m, m', e, e', hm⟩ <;> rw [e, e']
  exact reqField_same hm dBorrow_blind _

theorem dJweRecipient_blind (n : Nat) : Blind (dJweRecipient n) := by
  intro t t' h
  unfold dJweRecipient
  rcases asStruct_alike (names := [b!"header", b!"encrypted_key"]) (by decide) h n with ⟨e, e'⟩ | ⟨m, m', e, e', hm⟩ <;> rw [e, e']
  simp only [Option.bind_eq_bind, Option.bind_some, reqField_same hm (dKidHeader_blind _), reqField_same hm dBorrow_blind]

theorem dJwe_blind (n : Nat) : Blind (dJwe n) := by
  intro t t' h
  unfold dJwe
  rcases asStruct_alike (names := [b!"protected", b!"recipients", b!"iv", b!"ciphertext", b!"tag"]) (by decide) h n with
    ⟨e, e'⟩ | ⟨m, m', e, e', hm⟩ <;> rw [e, e']
  simp only [Option.bind_eq_bind, Option.bind_some, reqField_same hm (dVec_blind dJweRecipient_blind _), reqField_same hm dBorrow_blind]

theorem dJwsSig_blind (n : Nat) : Blind (dJwsSig n) := by
  intro t t' h
  unfold dJwsSig
  rcases asStruct_alike (names := [b!"header", b!"protected", b!"signature"]) (by decide) h n with
    ⟨e, e'⟩ | ⟨m, m', e, e', hm⟩ <;> rw [e, e']
  simp only [Option.bind_eq_bind, Option.bind_some, reqField_same hm (dKidHeader_blind _), reqField_same hm dBorrow_blind]

theorem dJws_blind (n : Nat) : Blind (dJws n) := by
  intro t t' h
  unfold dJws
  rcases asStruct_alike (names := [b!"signatures", b!"payload"]) (by decide) h n with
    ⟨e, e'⟩ | ⟨m, m', e, e', hm⟩ <;> rw [e, e']
  simp only [Option.bind_eq_bind, Option.bind_some, reqField_same hm (dVec_blind dJwsSig_blind _), reqField_same hm dBorrow_blind]

theorem dDataBase64_same {m m' : List (Str × Tree)} (h : SameFields m m') : dDataBase64 m = dDataBase64 m' := by
  simp only [dDataBase64, reqField_same h dStr_blind, optField_same h dStr_blind]

theorem dDataJson_same {m m' : List (Str × Tree)} (h : SameFields m m') (n : Nat) : dDataJson f64 n m = dDataJson f64 n m' := by
  simp only [dDataJson, reqField_same h (toValue_blind n), optField_same h dStr_blind]

theorem dDataLinks_same {m m' : List (Str × Tree)} (h : SameFields m m') (n : Nat) : dDataLinks n m = dDataLinks n m' := by
  simp only [dDataLinks, reqField_same h (dVec_blind (fun _ => dStr_blind) n), reqField_same h dStr_blind, optField_same h dStr_blind]

theorem dAttachmentData_blind (n : Nat) : Blind (dAttachmentData f64 n) := by
  intro t t' h
  unfold dAttachmentData
  rw [toValue_alike h]
  rcases asMap_alike h n with ⟨e, e'⟩ | ⟨m, m', e, e', hm⟩ <;> rw [e, e']
  simp only [Option.bind_eq_bind, Option.bind_some, dDataBase64_same hm, dDataJson_same hm, dDataLinks_same hm]

theorem dAttachment_blind (n : Nat) : Blind (dAttachment f64 n) := by
  intro t t' h
  unfold dAttachment
  rcases asStruct_alike (names := [b!"data", b!"id", b!"description", b!"filename", b!"media_type", b!"format",
    b!"lastmod_time", b!"byte_count"]) (by decide) h n with ⟨e, e'⟩ | ⟨m, m', e, e', hm⟩ <;> rw [e, e']
  simp only [Option.bind_eq_bind, Option.bind_some, reqField_same hm (dAttachmentData_blind _), optField_same hm dStr_blind,
    optField_same hm dU64_blind]

/-- The values of the members that are no standard headers. -/
def extraPairs (f64 : Str → Option Str) (n : Nat) : List (Str × Tree) → Option (List (Str × Value))
  | [] => some []
  | (k, t) :: r =>
    if reservedHeaders.contains k then extraPairs f64 n r
    else do
      let v ← toValue f64 n t
      let l ← extraPairs f64 n r
      some ((k, v) :: l)

theorem extraPairs_alike {n : Nat} {m m' : List (Str × Tree)} (h : AlikeFields m m') : extraPairs f64 n m = extraPairs f64 n m' := by
  induction h with
  | nil => rfl
  | cons h _ ih => simp only [extraPairs, ih, toValue_alike h]

theorem extraPairs_perm {n : Nat} {m m' : List (Str × Tree)} (h : m.Perm m') :
    BothOr List.Perm (extraPairs f64 n m) (extraPairs f64 n m') := by
  induction h with
  | nil => exact .inr ⟨[], [], rfl, rfl, .nil⟩
  | cons p _ ih =>
    obtain ⟨k, t⟩ := p
    simp only [extraPairs]
    split
    · exact ih
    · cases toValue f64 n t with
      | none => exact .inl ⟨rfl, rfl⟩
      | some v =>
        rcases ih with ⟨e, e'⟩ | ⟨x, y, e, e', hp⟩ <;> rw [e, e']
        · exact .inl ⟨rfl, rfl⟩
        · exact .inr ⟨_, _, rfl, rfl, hp.cons _⟩
  | swap p q l =>
    obtain ⟨k, t⟩ := p
    obtain ⟨k', t'⟩ := q
    simp only [extraPairs]
    split <;> split <;> cases toValue f64 n t <;> cases toValue f64 n t' <;> cases extraPairs f64 n l
    all_goals first
      | exact .inl ⟨rfl, rfl⟩
      | exact .inr ⟨_, _, rfl, rfl, .refl _⟩
      | exact .inr ⟨_, _, rfl, rfl, .swap _ _ _⟩
  | trans _ _ ih1 ih2 => exact BothOr.trans (fun h h' => h.trans h') ih1 ih2

theorem dExtra_pairs (n : Nat) : ∀ (m : List (Str × Tree)) (acc : List (Str × Value)), (m.map Prod.fst).Nodup →
    (∀ k ∈ m.map Prod.fst, k ∉ acc.map Prod.fst) → dExtra f64 n m acc = (extraPairs f64 n m).map (acc ++ ·)
  | [], acc, _, _ => by simp [dExtra, extraPairs]
  | (k, t) :: r, acc, hn, hd => by
    simp only [List.map_cons, List.nodup_cons] at hn
    simp only [dExtra, extraPairs]
    split
    · exact dExtra_pairs n r acc hn.2 fun k' h => hd k' (.tail _ h)
    · cases toValue f64 n t with
      | none => rfl
      | some v =>
        simp only [Option.bind_eq_bind, Option.bind_some]
        rw [hmInsert_new k v acc (hd k (.head _)), dExtra_pairs n r _ hn.2]
        · cases extraPairs f64 n r <;> simp
        · intro k' h h'
          simp only [List.map_append, List.map_cons, List.map_nil, List.mem_append, List.mem_singleton] at h'
          rcases h' with h' | rfl
          · exact hd k' (.tail _ h) h'
          · exact hn.1 h

theorem dExtra_same {m m'' : List (Str × Tree)} (h : SameFields m m'') (n : Nat) :
    BothOr List.Perm (dExtra f64 n m []) (dExtra f64 n m'' []) := by
  obtain ⟨m', h1, hd, hp⟩ := h
  rw [dExtra_pairs n m [] (h1.names ▸ hd) (by simp), dExtra_pairs n m'' [] ((hp.map _).nodup_iff.1 hd) (by simp),
    extraPairs_alike h1]
  rcases extraPairs_perm (f64 := f64) (n := n) hp with ⟨e, e'⟩ | ⟨x, y, e, e', hx⟩ <;> rw [e, e']
  · exact .inl ⟨rfl, rfl⟩
  · exact .inr ⟨_, _, rfl, rfl, by simpa using hx⟩

theorem dTyp_same {m m' : List (Str × Tree)} (h : SameFields m m') (k : Str) :
    (field m k).bind dTyp = (field m' k).bind dTyp := by
  rcases field_same h k with ⟨e, e'⟩ | ⟨t, t', e, e', ha⟩ <;> rw [e, e']
  exact dStr_blind ha

theorem dMessage_alike {t t' : Tree} (h : Alike t t') (n : Nat) : BothOr SameMessage (dMessage f64 n t) (dMessage f64 n t') := by
  unfold dMessage
  rcases asMap_alike h n with ⟨e, e'⟩ | ⟨m, m', e, e', hm⟩ <;> rw [e, e']
  · exact .inl ⟨rfl, rfl⟩
  have ht : ∀ {β : Type} (f : Str → Option β), ((field m b!"typ").bind fun x => (dTyp x).bind f) = (field m' b!"typ").bind fun x => (dTyp x).bind f := by
    intro β f
    rw [← Option.bind_assoc, ← Option.bind_assoc, dTyp_same hm]
  simp only [Option.bind_eq_bind, Option.bind_some, ht, reqField_same hm dStr_blind, reqField_same hm (toValue_blind _),
    optField_same hm dStr_blind, optField_same hm dU64_blind, optField_same hm (dVec_blind (fun _ => dStr_blind) _),
    optField_same hm (dVec_blind dAttachment_blind _)]
  have step : ∀ {α : Type} (o : Option α) (f g : α → Option Message), (∀ a, BothOr SameMessage (f a) (g a)) →
      BothOr SameMessage (o.bind f) (o.bind g) := by
    intro α o f g hfg
    cases o with
    | none => exact .inl ⟨rfl, rfl⟩
    | some a => exact hfg a
  iterate 13 refine step _ _ _ fun _ => ?_
  rcases dExtra_same (f64 := f64) hm (n - 1) with ⟨e, e'⟩ | ⟨x, y, e, e', hx⟩ <;> rw [e, e']
  · exact .inl ⟨rfl, rfl⟩
  · exact .inr ⟨_, _, rfl, rfl, y, hx, rfl⟩

end DIDComm
