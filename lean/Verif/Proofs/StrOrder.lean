import Verif.Spec.Values
import Verif.Spec.Kids

/-! # The bytewise order of strings; sorting -/

set_option autoImplicit false

namespace DIDComm

theorem strLe_refl (a : Str) : strLe a a = true := by
  induction a with
  | nil => rfl
  | cons x r ih => simp [strLe, ih]

theorem strLe_total (a b : Str) : strLe a b = true ∨ strLe b a = true := by
  induction a generalizing b with
  | nil => exact .inl rfl
  | cons x r ih =>
    cases b with
    | nil => exact .inr rfl
    | cons y t =>
      simp only [strLe]
      by_cases h1 : x < y
      · simp [h1]
      · by_cases h2 : y < x
        · simp [h2]
        · simpa [h1, h2] using ih t

theorem strLe_antisymm {a b : Str} (h1 : strLe a b = true) (h2 : strLe b a = true) : a = b := by
  induction a generalizing b with
  | nil => cases b with
    | nil => rfl
    | cons y t => simp [strLe] at h2
  | cons x r ih =>
    cases b with
    | nil => simp [strLe] at h1
    | cons y t =>
      simp only [strLe] at h1 h2
      by_cases h3 : x < y
      · have h4 : ¬ y < x := UInt8.not_lt.2 (UInt8.le_of_lt h3)
        simp [h3, h4] at h2
      · by_cases h4 : y < x
        · simp [h3, h4] at h1
        · simp only [h3, h4, if_false] at h1 h2
          have hxy : x = y := UInt8.le_antisymm (UInt8.not_lt.1 h4) (UInt8.not_lt.1 h3)
          rw [hxy, ih h1 h2]

theorem strLe_trans {a b c : Str} (h1 : strLe a b = true) (h2 : strLe b c = true) : strLe a c = true := by
  induction a generalizing b c with
  | nil => rfl
  | cons x r ih =>
    cases b with
    | nil => simp [strLe] at h1
    | cons y t =>
      cases c with
      | nil => simp [strLe] at h2
      | cons z u =>
        simp only [strLe] at h1 h2 ⊢
        by_cases hxy : x < y
        · by_cases hyz : y < z
          · simp [UInt8.lt_trans hxy hyz]
          · by_cases hzy : z < y
            · simp [hzy, hyz] at h2
            · have : y = z := UInt8.le_antisymm (UInt8.not_lt.1 hzy) (UInt8.not_lt.1 hyz)
              subst this; simp [hxy]
        · by_cases hyx : y < x
          · simp [hxy, hyx] at h1
          · have : x = y := UInt8.le_antisymm (UInt8.not_lt.1 hyx) (UInt8.not_lt.1 hxy)
            subst this
            simp only [hxy, if_false] at h1
            by_cases hyz : x < z
            · simp [hyz]
            · by_cases hzy : z < x
              · simp [hzy, hyz] at h2
              · simp only [hyz, hzy, if_false] at h2 ⊢
                exact ih h1 h2

/-- The order of the model is the one of the library. -/
theorem strLe_iff (a b : Str) : strLe a b = true ↔ a ≤ b := by
  induction a generalizing b with
  | nil => simp [strLe]
  | cons x r ih =>
    cases b with
    | nil => simp [strLe]
    | cons y s =>
      rw [List.cons_le_cons_iff, ← ih s, strLe]
      by_cases h : x < y
      · simp [h]
      · by_cases h' : y < x
        · simp only [h, if_false, h', if_true, false_or, Bool.false_eq_true, false_iff]
          rintro ⟨rfl, -⟩; exact h h'
        · have : x = y := UInt8.le_antisymm (UInt8.not_lt.1 h') (UInt8.not_lt.1 h)
          subst this
          simp

theorem strLt_iff {a b : Str} : strLt a b ↔ strLe a b = true ∧ a ≠ b := by
  unfold strLt
  constructor
  · intro h
    refine ⟨(strLe_iff a b).2 (List.le_of_lt h), ?_⟩
    rintro rfl
    exact List.lt_irrefl _ h
  · rintro ⟨h, hn⟩
    refine Decidable.byContradiction fun h' => hn (strLe_antisymm h ((strLe_iff b a).2 (List.not_lt.1 h')))

theorem strLt.le {a b : Str} (h : strLt a b) : strLe a b = true := (strLt_iff.1 h).1

theorem strLt.ne {a b : Str} (h : strLt a b) : a ≠ b := (strLt_iff.1 h).2

theorem strLt_trans {a b c : Str} (h1 : strLt a b) (h2 : strLt b c) : strLt a c := by
  refine strLt_iff.2 ⟨strLe_trans h1.le h2.le, ?_⟩
  rintro rfl
  exact h1.ne (strLe_antisymm h1.le h2.le)

theorem strLt_not_le {a b : Str} (h : strLt a b) : strLe b a = false := by
  cases hb : strLe b a with
  | false => rfl
  | true => exact absurd (strLe_antisymm h.le hb) h.ne

theorem strLt_of_not_le {a b : Str} (h : strLe a b = false) : strLt b a := by
  rcases strLe_total a b with h1 | h1
  · rw [h1] at h; cases h
  · refine strLt_iff.2 ⟨h1, ?_⟩
    rintro rfl
    rw [strLe_refl] at h; cases h

/-- Inserting beyond the end. -/
theorem btInsert_last {α : Type} (k : Str) (v : α) (m : List (Str × α)) (h : ∀ p ∈ m, strLt p.1 k) :
    btInsert k v m = m ++ [(k, v)] := by
  induction m with
  | nil => rfl
  | cons p m ih =>
    obtain ⟨k', v'⟩ := p
    have hk := h (k', v') (by simp)
    have h1 : k ≠ k' := fun e => hk.ne e.symm
    have h2 := strLt_not_le hk
    simp only at h2
    simp [btInsert, h1, h2, ih (fun p hp => h p (by simp [hp]))]

theorem mem_btInsert {α : Type} {k : Str} {v : α} {m : List (Str × α)} {p : Str × α}
    (h : p ∈ btInsert k v m) : p = (k, v) ∨ p ∈ m := by
  induction m with
  | nil => simpa [btInsert] using h
  | cons q m ih =>
    obtain ⟨k', v'⟩ := q
    simp only [btInsert] at h
    split at h
    · rcases List.mem_cons.1 h with h | h
      · exact .inl h
      · exact .inr (by simp [h])
    · split at h
      · rcases List.mem_cons.1 h with h | h
        · exact .inl h
        · exact .inr h
      · rcases List.mem_cons.1 h with h | h
        · exact .inr (by simp [h])
        · rcases ih h with h | h
          · exact .inl h
          · exact .inr (by simp [h])

theorem btInsert_sorted {α : Type} (k : Str) (v : α) (m : List (Str × α)) (h : SortedKeys m) :
    SortedKeys (btInsert k v m) := by
  induction m with
  | nil => simp [btInsert, SortedKeys]
  | cons p m ih =>
    obtain ⟨k', v'⟩ := p
    unfold SortedKeys at h ih ⊢
    rw [List.pairwise_cons] at h
    simp only [btInsert]
    split
    · rename_i hk
      subst hk
      exact List.pairwise_cons.2 h
    · rename_i hk
      split
      · rename_i hle
        have hlt : strLt k k' := strLt_iff.2 ⟨hle, hk⟩
        refine List.pairwise_cons.2 ⟨?_, List.pairwise_cons.2 h⟩
        intro q hq
        rcases List.mem_cons.1 hq with rfl | hq
        · exact hlt
        · exact strLt_trans hlt (h.1 q hq)
      · rename_i hle
        have hlt : strLt k' k := strLt_of_not_le (by simpa using hle)
        refine List.pairwise_cons.2 ⟨?_, ih h.2⟩
        intro q hq
        rcases mem_btInsert hq with rfl | hq
        · exact hlt
        · exact h.1 q hq

/-! ## Sorting -/

theorem insertSorted_perm (x : Str) (l : List Str) : (insertSorted x l).Perm (x :: l) := by
  induction l with
  | nil => exact .refl _
  | cons y l ih =>
    simp only [insertSorted]
    split
    · exact .refl _
    · exact (ih.cons y).trans (.swap x y l)

theorem sortStrs_perm (l : List Str) : (sortStrs l).Perm l := by
  induction l with
  | nil => exact .refl _
  | cons x l ih => exact (insertSorted_perm x _).trans (ih.cons x)

theorem insertSorted_sorted (x : Str) (l : List Str) (h : l.Pairwise (fun a b => strLe a b = true)) :
    (insertSorted x l).Pairwise (fun a b => strLe a b = true) := by
  induction l with
  | nil => simp [insertSorted]
  | cons y l ih =>
    rw [List.pairwise_cons] at h
    simp only [insertSorted]
    split
    · rename_i hle
      refine List.pairwise_cons.2 ⟨?_, List.pairwise_cons.2 h⟩
      intro z hz
      rcases List.mem_cons.1 hz with rfl | hz
      · exact hle
      · exact strLe_trans hle (h.1 z hz)
    · rename_i hle
      have hyx : strLe y x = true := (strLe_total x y).resolve_left (by simpa using hle)
      refine List.pairwise_cons.2 ⟨?_, ih h.2⟩
      intro z hz
      rcases List.mem_cons.1 ((insertSorted_perm x l).mem_iff.1 hz) with rfl | hz
      · exact hyx
      · exact h.1 z hz

theorem sortStrs_sorted (l : List Str) : (sortStrs l).Pairwise (fun a b => strLe a b = true) := by
  induction l with
  | nil => exact .nil
  | cons x l ih => exact insertSorted_sorted x _ ih

theorem sorted_perm_eq {l m : List Str} (hp : l.Perm m) (hl : l.Pairwise (fun a b => strLe a b = true))
    (hm : m.Pairwise (fun a b => strLe a b = true)) : l = m :=
  hp.eq_of_pairwise (fun _ _ _ _ h1 h2 => strLe_antisymm h1 h2) hl hm

theorem sortStrs_of_perm {l m : List Str} (hp : l.Perm m) : sortStrs l = sortStrs m :=
  sorted_perm_eq (((sortStrs_perm l).trans hp).trans (sortStrs_perm m).symm) (sortStrs_sorted l) (sortStrs_sorted m)

theorem intercalate_eq (c : UInt8) (l : List Str) : List.intercalate [c] l = joinWith c l := by
  induction l with
  | nil => rfl
  | cons a r ih =>
    cases r with
    | nil => simp [joinWith]
    | cons b r => simp [joinWith, ← ih]

theorem joinedKids_eq (kids : List Str) : joinedKids kids = joinWith 0x2E (sortStrs kids) := by
  have e : (fun a b : Str => decide (a ≤ b)) = strLe := by
    funext a b
    by_cases h : a ≤ b
    · rw [(strLe_iff a b).2 h]; simpa using h
    · cases hb : strLe a b with
      | false => simpa using h
      | true => exact absurd ((strLe_iff a b).1 hb) h
  unfold joinedKids
  rw [intercalate_eq, e]
  congr 1
  exact sorted_perm_eq ((List.mergeSort_perm kids strLe).trans (sortStrs_perm kids).symm)
    (List.pairwise_mergeSort (le := strLe) (fun _ _ _ h1 h2 => strLe_trans h1 h2)
      (fun a b => by rw [Bool.or_eq_true]; exact strLe_total a b) kids)
    (sortStrs_sorted kids)

end DIDComm
