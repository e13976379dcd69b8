import Verif.Proofs.JsonDecode

/-!
# The parser needs no more fuel than it is given, and what it reads is no longer than the text
-/

set_option autoImplicit false

namespace DIDComm

/-- Bytes of a string token. -/
def StrTok.size (t : StrTok) : Nat := (t.val.getD []).length

mutual
/-- Bytes of all strings in a tree. -/
def Tree.size : Tree → Nat
  | .str t => t.size
  | .arr l => Tree.sizeL l
  | .obj m => Tree.sizeM m
  | _ => 0
def Tree.sizeL : List Tree → Nat
  | [] => 0
  | t :: r => t.size + Tree.sizeL r
def Tree.sizeM : List (StrTok × Tree) → Nat
  | [] => 0
  | (k, t) :: r => k.size + t.size + Tree.sizeM r
end

theorem skipWs_length (s : Str) : (skipWs s).length ≤ s.length := by
  induction s with
  | nil => simp [skipWs]
  | cons b r ih =>
    unfold skipWs
    split
    · simp only [List.length_cons]; omega
    · exact Nat.le_refl _

theorem skipWs_cons {s r : Str} {b : UInt8} (h : skipWs s = b :: r) : r.length + 1 ≤ s.length := by
  have := skipWs_length s
  rw [h] at this
  simpa using this

theorem spanDigits_length (s : Str) : (spanDigits s).2.length ≤ s.length := by
  induction s with
  | nil => simp [spanDigits]
  | cons b r ih =>
    unfold spanDigits
    split
    · simp only [List.length_cons]; omega
    · exact Nat.le_refl _

theorem parseIdent_spec (c s : Str) : parseIdent c s ≠ .error .fuel ∧
    ∀ r, parseIdent c s = .ok r → r.length ≤ s.length := by
  induction c generalizing s with
  | nil => exact ⟨by simp [parseIdent], by intro r h; cases h; exact Nat.le_refl _⟩
  | cons c cs ih =>
    cases s with
    | nil => exact ⟨by simp [parseIdent], by intro r h; cases h⟩
    | cons b r =>
      unfold parseIdent
      split
      · refine ⟨(ih r).1, fun x hx => ?_⟩
        have := (ih r).2 x hx
        simp only [List.length_cons]; omega
      · exact ⟨by simp, by intro r h; cases h⟩

theorem digits1_spec (s : Str) : digits1 s ≠ .error .fuel ∧ ∀ d r, digits1 s = .ok (d, r) → r.length ≤ s.length := by
  unfold digits1
  split
  · exact ⟨by simp, by intro d r h; cases h⟩
  · rename_i b t
    split
    · refine ⟨by simp, fun d r h => ?_⟩
      have := spanDigits_length (b :: t)
      simp only [Except.ok.injEq] at h
      rw [h] at this
      exact this
    · exact ⟨by simp, by intro d r h; cases h⟩

theorem except_bind_ne_fuel {α β : Type} {x : Except JErr α} {f : α → Except JErr β} (hx : x ≠ .error .fuel)
    (hf : ∀ a, x = .ok a → f a ≠ .error .fuel) : (x >>= f) ≠ .error .fuel := by
  cases x with
  | error e => exact fun h => hx (by cases h; rfl)
  | ok a => exact hf a rfl

theorem parseFrac_spec (s : Str) : parseFrac s ≠ .error .fuel ∧ ∀ d r, parseFrac s = .ok (d, r) → r.length ≤ s.length := by
  unfold parseFrac
  split
  · rename_i b t
    split
    · refine ⟨except_bind_ne_fuel (digits1_spec t).1 (fun a _ => by simp), fun d r h => ?_⟩
      obtain ⟨⟨d', r'⟩, h1, h2⟩ := except_bind_ok.1 h
      cases h2
      have := (digits1_spec t).2 _ _ h1
      simp only [List.length_cons]; omega
    · exact ⟨by simp, by intro d r h; cases h; exact Nat.le_refl _⟩
  · exact ⟨by simp, by intro d r h; cases h; exact Nat.le_refl _⟩

theorem parseExp_spec (s : Str) : parseExp s ≠ .error .fuel ∧ ∀ d r, parseExp s = .ok (d, r) → r.length ≤ s.length := by
  unfold parseExp
  split
  · rename_i b t
    split
    · split
      · rename_i c t1
        split
        · refine ⟨except_bind_ne_fuel (digits1_spec t1).1 (fun a _ => by simp), fun d r h => ?_⟩
          obtain ⟨⟨d', r'⟩, h1, h2⟩ := except_bind_ok.1 h
          cases h2
          have := (digits1_spec t1).2 _ _ h1
          simp only [List.length_cons]; omega
        · refine ⟨except_bind_ne_fuel (digits1_spec _).1 (fun a _ => by simp), fun d r h => ?_⟩
          obtain ⟨⟨d', r'⟩, h1, h2⟩ := except_bind_ok.1 h
          cases h2
          have := (digits1_spec _).2 _ _ h1
          simp only [List.length_cons] at *; omega
      · exact ⟨by simp, by intro d r h; cases h⟩
    · exact ⟨by simp, by intro d r h; cases h; exact Nat.le_refl _⟩
  · exact ⟨by simp, by intro d r h; cases h; exact Nat.le_refl _⟩

theorem parseIntPart_spec (s : Str) : parseIntPart s ≠ .error .fuel ∧
    ∀ d r, parseIntPart s = .ok (d, r) → r.length + 1 ≤ s.length := by
  unfold parseIntPart
  split
  · exact ⟨by simp, by intro d r h; cases h⟩
  · rename_i b t
    split
    · split
      · split
        · exact ⟨by simp, by intro d r h; cases h⟩
        · exact ⟨by simp, by intro d r h; cases h; simp⟩
      · exact ⟨by simp, by intro d r h; cases h; simp⟩
    · split
      · rename_i hd
        refine ⟨by simp, fun d r h => ?_⟩
        simp only [spanDigits, hd, if_true, Except.ok.injEq, Prod.mk.injEq] at h
        have := spanDigits_length t
        rw [h.2] at this
        simp only [List.length_cons]; omega
      · exact ⟨by simp, by intro d r h; cases h⟩

theorem parseNum_spec (neg : Bool) (s : Str) : parseNum neg s ≠ .error .fuel ∧
    ∀ d r, parseNum neg s = .ok (d, r) → r.length + 1 ≤ s.length := by
  unfold parseNum
  constructor
  · refine except_bind_ne_fuel (parseIntPart_spec s).1 (fun a _ => ?_)
    refine except_bind_ne_fuel (parseFrac_spec _).1 (fun b _ => ?_)
    refine except_bind_ne_fuel (parseExp_spec _).1 (fun c _ => by simp)
  · intro d r h
    obtain ⟨⟨d1, r1⟩, h1, h⟩ := except_bind_ok.1 h
    obtain ⟨⟨d2, r2⟩, h2, h⟩ := except_bind_ok.1 h
    obtain ⟨⟨d3, r3⟩, h3, h⟩ := except_bind_ok.1 h
    cases h
    have := (parseIntPart_spec _).2 _ _ h1
    have := (parseFrac_spec _).2 _ _ h2
    have := (parseExp_spec _).2 _ _ h3
    simp only at *; omega

/-- What an item of a string literal takes in the text, at least. -/
def StrItem.weight : StrItem → Nat
  | .byte _ => 1
  | .unit _ => 6

def itemsWeight : List StrItem → Nat
  | [] => 0
  | i :: r => i.weight + itemsWeight r

theorem lexStr_spec (s : Str) : lexStr s ≠ .error .fuel ∧
    ∀ e is r, lexStr s = .ok ((e, is), r) → itemsWeight is + r.length + 1 ≤ s.length := by
  suffices H : ∀ n (s : Str), s.length ≤ n → lexStr s ≠ .error .fuel ∧
      ∀ e is r, lexStr s = .ok ((e, is), r) → itemsWeight is + r.length + 1 ≤ s.length from H _ s (Nat.le_refl _)
  intro n
  induction n with
  | zero =>
    intro s hs
    cases s with
    | nil => exact ⟨by simp [lexStr], by intro e is r h; simp [lexStr] at h⟩
    | cons b r => simp at hs
  | succ n ih =>
    intro s hs
    rw [lexStr.eq_def]
    split
    · exact ⟨by simp, by intro e is r h; cases h⟩
    · rename_i b t
      simp only [List.length_cons] at hs
      split
      · exact ⟨by simp, by intro e is r h; cases h; simp [itemsWeight]⟩
      · split
        · split
          · exact ⟨by simp, by intro e is r h; cases h⟩
          · rename_i c t1
            simp only [List.length_cons] at hs
            split
            · split
              · rename_i h1 h2 h3 h4 t2
                simp only [List.length_cons] at hs
                split
                · exact ⟨by simp, by intro e is r h; cases h⟩
                · have ih := ih t2 (by omega)
                  refine ⟨except_bind_ne_fuel ih.1 (fun a _ => by simp), fun e is r h => ?_⟩
                  obtain ⟨⟨⟨e', is'⟩, r'⟩, g, h⟩ := except_bind_ok.1 h
                  cases h
                  have := ih.2 _ _ _ g
                  simp only [itemsWeight, StrItem.weight, List.length_cons]; omega
              · exact ⟨by simp, by intro e is r h; cases h⟩
            · split
              · exact ⟨by simp, by intro e is r h; cases h⟩
              · have ih := ih t1 (by omega)
                refine ⟨except_bind_ne_fuel ih.1 (fun a _ => by simp), fun e is r h => ?_⟩
                obtain ⟨⟨⟨e', is'⟩, r'⟩, g, h⟩ := except_bind_ok.1 h
                cases h
                have := ih.2 _ _ _ g
                simp only [itemsWeight, StrItem.weight, List.length_cons]; omega
        · split
          · exact ⟨by simp, by intro e is r h; cases h⟩
          · have ih := ih t (by omega)
            refine ⟨except_bind_ne_fuel ih.1 (fun a _ => by simp), fun e is r h => ?_⟩
            obtain ⟨⟨⟨e', is'⟩, r'⟩, g, h⟩ := except_bind_ok.1 h
            cases h
            have := ih.2 _ _ _ g
            simp only [itemsWeight, StrItem.weight, List.length_cons]; omega

theorem encodeUtf8_length (c : Nat) : (encodeUtf8 c).length ≤ 4 := by
  unfold encodeUtf8
  split
  · simp
  split
  · simp
  split <;> simp

theorem assemble_weight (is : List StrItem) : ∀ b, assemble is = some b → b.length ≤ itemsWeight is := by
  suffices H : ∀ n (is : List StrItem), is.length ≤ n → ∀ b, assemble is = some b → b.length ≤ itemsWeight is from
    H _ is (Nat.le_refl _)
  intro n
  induction n with
  | zero =>
    intro is hs b h
    cases is with
    | nil => simp only [assemble, Option.some.injEq] at h; subst h; simp [itemsWeight]
    | cons => simp at hs
  | succ n ih =>
    intro is hs b h
    rw [assemble.eq_def] at h
    split at h
    · cases h; simp [itemsWeight]
    · rename_i x r
      simp only [List.length_cons] at hs
      simp only [Option.map_eq_some_iff] at h
      obtain ⟨y, h, rfl⟩ := h
      have := ih r (by omega) _ h
      simp only [List.length_cons, itemsWeight, StrItem.weight]; omega
    · rename_i u r
      simp only [List.length_cons] at hs
      split at h
      · cases h
      · split at h
        · split at h
          · rename_i v r'
            simp only [List.length_cons] at hs
            split at h
            · simp only [Option.map_eq_some_iff] at h
              obtain ⟨y, h, rfl⟩ := h
              have := ih r' (by omega) _ h
              have := encodeUtf8_length (65536 + (u - 55296) * 1024 + (v - 56320))
              simp only [List.length_append, itemsWeight, StrItem.weight]; omega
            · cases h
          · cases h
        · simp only [Option.map_eq_some_iff] at h
          obtain ⟨y, h, rfl⟩ := h
          have := ih r (by omega) _ h
          have := encodeUtf8_length u
          simp only [List.length_append, itemsWeight, StrItem.weight]; omega

theorem strTok_size (e : Bool) (is : List StrItem) : (strTok e is).size ≤ itemsWeight is := by
  unfold strTok StrTok.size
  simp only
  split
  · rename_i s h
    split
    · exact assemble_weight is s h
    · simp
  · simp

theorem parseStr_spec (s : Str) : parseStr s ≠ .error .fuel ∧
    ∀ t r, parseStr s = .ok (t, r) → t.size + r.length + 1 ≤ s.length := by
  unfold parseStr
  refine ⟨except_bind_ne_fuel (lexStr_spec s).1 (fun a _ => by simp), fun t r h => ?_⟩
  obtain ⟨⟨⟨e', is'⟩, r'⟩, g, h⟩ := except_bind_ok.1 h
  cases h
  have := (lexStr_spec s).2 _ _ _ g
  have := strTok_size e' is'
  simp only at *; omega

/-- Strings read plus text left over do not exceed the text. -/
theorem parse_size (f : Nat) :
    (∀ s t r, parseVal f s = .ok (t, r) → t.size + r.length + 1 ≤ s.length) ∧
    (∀ s l r, parseElems f s = .ok (l, r) → Tree.sizeL l + r.length + 1 ≤ s.length) ∧
    (∀ s m r, parseMembers f s = .ok (m, r) → Tree.sizeM m + r.length + 1 ≤ s.length) := by
  induction f with
  | zero => exact ⟨fun s t r h => (by cases h), fun s t r h => (by cases h), fun s t r h => (by cases h)⟩
  | succ f ih =>
    obtain ⟨ih1, ih2, ih3⟩ := ih
    refine ⟨fun s t r h => ?_, fun s l r h => ?_, fun s m r h => ?_⟩
    · unfold parseVal at h
      split at h
      · cases h
      rename_i b s' hs
      have hs := skipWs_cons hs
      have ident : ∀ c (t' : Tree), t'.size = 0 → (do let r ← parseIdent c s'; .ok (t', r) : Except JErr (Tree × Str)) = .ok (t, r) →
          t.size + r.length + 1 ≤ s.length := by
        intro c t' h0 h
        obtain ⟨r', g, h⟩ := except_bind_ok.1 h
        cases h
        have := (parseIdent_spec c s').2 _ g
        omega
      split at h
      · exact ident _ _ (by simp [Tree.size]) h
      split at h
      · exact ident _ _ (by simp [Tree.size]) h
      split at h
      · exact ident _ _ (by simp [Tree.size]) h
      split at h
      · obtain ⟨⟨n, r'⟩, g, h⟩ := except_bind_ok.1 h
        cases h
        have := (parseNum_spec _ _).2 _ _ g
        simp only [Tree.size] at *; omega
      split at h
      · obtain ⟨⟨n, r'⟩, g, h⟩ := except_bind_ok.1 h
        cases h
        have := (parseNum_spec _ _).2 _ _ g
        simp only [Tree.size, List.length_cons] at *; omega
      split at h
      · obtain ⟨⟨n, r'⟩, g, h⟩ := except_bind_ok.1 h
        cases h
        have := (parseStr_spec _).2 _ _ g
        simp only [Tree.size] at *; omega
      split at h
      · split at h
        · cases h
        rename_i c r1 hs1
        have hs1 := skipWs_cons hs1
        split at h
        · cases h; simp only [Tree.size, Tree.sizeL]; omega
        · obtain ⟨⟨n, r'⟩, g, h⟩ := except_bind_ok.1 h
          cases h
          have := ih2 _ _ _ g
          simp only [Tree.size, List.length_cons] at *; omega
      split at h
      · split at h
        · cases h
        rename_i c r1 hs1
        have hs1 := skipWs_cons hs1
        split at h
        · cases h; simp only [Tree.size, Tree.sizeM]; omega
        · obtain ⟨⟨n, r'⟩, g, h⟩ := except_bind_ok.1 h
          cases h
          have := ih3 _ _ _ g
          simp only [Tree.size, List.length_cons] at *; omega
      · cases h
    · unfold parseElems at h
      obtain ⟨⟨v, r0⟩, g, h⟩ := except_bind_ok.1 h
      have := ih1 _ _ _ g
      simp only at h
      split at h
      · cases h
      rename_i b r1 hs
      have hs := skipWs_cons hs
      split at h
      · cases h; simp only [Tree.sizeL] at *; omega
      split at h
      · split at h
        · cases h
        rename_i c r2 hs2
        have hs2 := skipWs_cons hs2
        split at h
        · cases h
        · obtain ⟨⟨n, r'⟩, g2, h⟩ := except_bind_ok.1 h
          cases h
          have := ih2 _ _ _ g2
          simp only [Tree.sizeL, List.length_cons] at *; omega
      · cases h
    · unfold parseMembers at h
      split at h
      · cases h
      rename_i q r0 hs
      have hs := skipWs_cons hs
      split at h
      · obtain ⟨⟨k, r1⟩, g, h⟩ := except_bind_ok.1 h
        have := (parseStr_spec _).2 _ _ g
        simp only at h
        split at h
        · cases h
        rename_i c r2 hs2
        have hs2 := skipWs_cons hs2
        split at h
        · obtain ⟨⟨v, r3⟩, g2, h⟩ := except_bind_ok.1 h
          have := ih1 _ _ _ g2
          simp only at h
          split at h
          · cases h
          rename_i b r4 hs4
          have hs4 := skipWs_cons hs4
          split at h
          · cases h; simp only [Tree.sizeM] at *; omega
          split at h
          · obtain ⟨⟨n, r'⟩, g3, h⟩ := except_bind_ok.1 h
            cases h
            have := ih3 _ _ _ g3
            simp only [Tree.sizeM, List.length_cons] at *; omega
          · cases h
        · cases h
      · cases h

/-- The fuel suffices. -/
theorem parse_fuel (f : Nat) :
    (∀ s : Str, 2 * s.length + 1 ≤ f → parseVal f s ≠ .error .fuel) ∧
    (∀ s : Str, 2 * s.length + 2 ≤ f → parseElems f s ≠ .error .fuel) ∧
    (∀ s : Str, 2 * s.length + 1 ≤ f → parseMembers f s ≠ .error .fuel) := by
  induction f with
  | zero => exact ⟨fun s h => (by omega), fun s h => (by omega), fun s h => (by omega)⟩
  | succ f ih =>
    obtain ⟨ih1, ih2, ih3⟩ := ih
    refine ⟨fun s h => ?_, fun s h => ?_, fun s h => ?_⟩
    · unfold parseVal
      split
      · simp
      rename_i b s' hs
      have hs := skipWs_cons hs
      have ident : ∀ c (t' : Tree), (do let r ← parseIdent c s'; .ok (t', r) : Except JErr (Tree × Str)) ≠ .error .fuel :=
        fun c t' => except_bind_ne_fuel (parseIdent_spec _ _).1 (fun a _ => by simp)
      split
      · exact ident _ _
      split
      · exact ident _ _
      split
      · exact ident _ _
      split
      · exact except_bind_ne_fuel (parseNum_spec _ _).1 (fun a _ => by simp)
      split
      · exact except_bind_ne_fuel (parseNum_spec _ _).1 (fun a _ => by simp)
      split
      · exact except_bind_ne_fuel (parseStr_spec _).1 (fun a _ => by simp)
      split
      · split
        · simp
        rename_i c r1 hs1
        have hs1 := skipWs_cons hs1
        split
        · simp
        · exact except_bind_ne_fuel (ih2 _ (by simp only [List.length_cons]; omega)) (fun a _ => by simp)
      split
      · split
        · simp
        rename_i c r1 hs1
        have hs1 := skipWs_cons hs1
        split
        · simp
        · exact except_bind_ne_fuel (ih3 _ (by simp only [List.length_cons]; omega)) (fun a _ => by simp)
      · simp
    · unfold parseElems
      refine except_bind_ne_fuel (ih1 _ (by omega)) (fun a ha => ?_)
      obtain ⟨v, r0⟩ := a
      have := (parse_size f).1 _ _ _ ha
      simp only
      split
      · simp
      rename_i b r1 hs
      have hs := skipWs_cons hs
      split
      · simp
      split
      · split
        · simp
        rename_i c r2 hs2
        have hs2 := skipWs_cons hs2
        split
        · simp
        · exact except_bind_ne_fuel (ih2 _ (by simp only [List.length_cons]; omega)) (fun a _ => by simp)
      · simp
    · unfold parseMembers
      split
      · simp
      rename_i q r0 hs
      have hs := skipWs_cons hs
      split
      · refine except_bind_ne_fuel (parseStr_spec _).1 (fun a ha => ?_)
        obtain ⟨k, r1⟩ := a
        have := (parseStr_spec _).2 _ _ ha
        simp only
        split
        · simp
        rename_i c r2 hs2
        have hs2 := skipWs_cons hs2
        split
        · refine except_bind_ne_fuel (ih1 _ (by omega)) (fun a ha => ?_)
          obtain ⟨v, r3⟩ := a
          have := (parse_size f).1 _ _ _ ha
          simp only
          split
          · simp
          rename_i b r4 hs4
          have hs4 := skipWs_cons hs4
          split
          · simp
          split
          · exact except_bind_ne_fuel (ih3 _ (by omega)) (fun a _ => by simp)
          · simp
        · simp
      · simp

theorem parseJson_fuel (s : Str) : parseJson s ≠ .error .fuel := by
  unfold parseJson
  refine except_bind_ne_fuel ((parse_fuel _).1 s (by omega)) (fun a _ => ?_)
  obtain ⟨t, r⟩ := a
  simp only
  split <;> simp

theorem parseJson_size {s : Str} {t : Tree} (h : parseJson s = .ok t) : t.size < s.length := by
  unfold parseJson at h
  obtain ⟨⟨t', r⟩, g, h⟩ := except_bind_ok.1 h
  have := (parse_size _).1 _ _ _ g
  simp only at h
  split at h
  · cases h; omega
  · cases h

/-- Reading a text ends with a value or an error of some kind. -/
theorem fromJson_tame {α : Type} (d : Nat → Tree → Option α) {_ : Early d} (s : Str) :
    (∃ a, fromJson d s = .ok a) ∨ ∃ k, fromJson d s = .error (.kind k) := by
  unfold fromJson
  have := parseJson_fuel s
  split
  · exact .inr ⟨_, rfl⟩
  · exact .inr ⟨_, rfl⟩
  · contradiction
  · rename_i t _
    cases d depthLimit t with
    | none => exact .inr ⟨_, rfl⟩
    | some a => exact .inl ⟨a, rfl⟩

theorem fromJson_ok {α : Type} {d : Nat → Tree → Option α} {_ : Early d} {s : Str} {a : α} (h : fromJson d s = .ok a) :
    ∃ t, parseJson s = .ok t ∧ d depthLimit t = some a := by
  unfold fromJson at h
  split at h
  · cases h
  · cases h
  · cases h
  · rename_i t ht
    refine ⟨t, ht, ?_⟩
    cases hd : d depthLimit t with
    | none => rw [hd] at h; cases h
    | some b => rw [hd] at h; cases h; rfl

end DIDComm
