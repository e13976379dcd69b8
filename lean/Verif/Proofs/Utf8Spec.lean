import Verif.Spec.Utf8
import Verif.Proofs.Utf8

/-! # `validUtf8` accepts exactly the encodings of character sequences -/

set_option autoImplicit false

namespace DIDComm

theorem charOf {n : Nat} (h : n.isValidChar) : ∃ c : Char, c.val.toNat = n :=
  ⟨Char.ofNat n, by
    unfold Char.ofNat
    rw [dif_pos h]
    rfl⟩

theorem char_valid (c : Char) : c.val.toNat < 0xd800 ∨ (0xdfff < c.val.toNat ∧ c.val.toNat < 0x110000) := by
  have := c.valid
  simpa [UInt32.isValidChar, Nat.isValidChar] using this

/-- The model's encoder agrees with the library's. -/
theorem encodeUtf8_char (c : Char) : encodeUtf8 c.val.toNat = String.utf8EncodeChar c := by
  have hv := char_valid c
  unfold encodeUtf8 String.utf8EncodeChar
  generalize c.val.toNat = n at hv
  simp only
  by_cases h1 : n < 0x80
  · rw [if_pos h1, if_pos (show n ≤ 0x7f by omega)]
  rw [if_neg h1, if_neg (show ¬ n ≤ 0x7f by omega)]
  by_cases h2 : n < 0x800
  · rw [if_pos h2, if_pos (show n ≤ 0x7ff by omega)]
    rw [show n / 64 % 32 + 192 = 192 + n / 64 by omega, show n % 64 + 128 = 128 + n % 64 by omega]
  rw [if_neg h2, if_neg (show ¬ n ≤ 0x7ff by omega)]
  by_cases h3 : n < 0x10000
  · rw [if_pos h3, if_pos (show n ≤ 0xffff by omega)]
    rw [show n / 4096 % 16 + 224 = 224 + n / 4096 by omega, show n / 64 % 64 + 128 = 128 + n / 64 % 64 by omega,
      show n % 64 + 128 = 128 + n % 64 by omega]
  rw [if_neg h3, if_neg (show ¬ n ≤ 0xffff by omega)]
  rw [show n / 262144 % 8 + 240 = 240 + n / 262144 by omega, show n / 4096 % 64 + 128 = 128 + n / 4096 % 64 by omega,
    show n / 64 % 64 + 128 = 128 + n / 64 % 64 by omega, show n % 64 + 128 = 128 + n % 64 by omega]

theorem inRange_iff (lo hi b : UInt8) : inRange lo hi b = true ↔ lo.toNat ≤ b.toNat ∧ b.toNat ≤ hi.toNat := by
  simp [inRange, UInt8.le_iff_toNat_le]

theorem u8_ofNat {n : Nat} (h : n < 256) : (UInt8.ofNat n).toNat = n := by simp [Nat.mod_eq_of_lt h]

theorem u8_eq {a : UInt8} {n : Nat} (h : n = a.toNat) : UInt8.ofNat n = a := by
  subst h; simp

theorem u8_lt (a b : UInt8) : a < b ↔ a.toNat < b.toNat := UInt8.lt_iff_toNat_lt

theorem validUtf8_two {a b : UInt8} {r : Bytes} (h1 : ¬ a < 0x80) (h2 : inRange 0xC2 0xDF a = true) :
    validUtf8 (a :: b :: r) = (inRange 0x80 0xBF b && validUtf8 r) := by
  rw [validUtf8.eq_def]; simp only []; rw [if_neg h1, if_pos h2]

theorem validUtf8_three {a b c : UInt8} {r : Bytes} (h1 : ¬ a < 0x80) (h2 : ¬ inRange 0xC2 0xDF a = true)
    (h3 : inRange 0xE0 0xEF a = true) : validUtf8 (a :: b :: c :: r) =
      (inRange (if a = 0xE0 then 0xA0 else 0x80) (if a = 0xED then 0x9F else 0xBF) b && inRange 0x80 0xBF c && validUtf8 r) := by
  rw [validUtf8.eq_def]; simp only []; rw [if_neg h1, if_neg h2, if_pos h3]

theorem validUtf8_four {a b c d : UInt8} {r : Bytes} (h1 : ¬ a < 0x80) (h2 : ¬ inRange 0xC2 0xDF a = true)
    (h3 : ¬ inRange 0xE0 0xEF a = true) (h4 : inRange 0xF0 0xF4 a = true) : validUtf8 (a :: b :: c :: d :: r) =
      (inRange (if a = 0xF0 then 0x90 else 0x80) (if a = 0xF4 then 0x8F else 0xBF) b && inRange 0x80 0xBF c
        && inRange 0x80 0xBF d && validUtf8 r) := by
  rw [validUtf8.eq_def]; simp only []; rw [if_neg h1, if_neg h2, if_neg h3, if_pos h4]

/-- The encoding of a character is valid. -/
theorem validUtf8_char (c : Char) (r : Bytes) : validUtf8 (String.utf8EncodeChar c ++ r) = validUtf8 r := by
  have hv := char_valid c
  rw [← encodeUtf8_char]
  generalize c.val.toNat = n at hv
  unfold encodeUtf8
  split
  · rename_i h
    rw [List.singleton_append, validUtf8_cons]
    rw [u8_lt, u8_ofNat (by omega)]; exact h
  rename_i h1
  split
  · rename_i h2
    rw [List.cons_append, List.singleton_append, validUtf8_two]
    · rw [(inRange_iff _ _ _).2, Bool.true_and]
      rw [u8_ofNat (by omega)]; simp; omega
    · rw [u8_lt, u8_ofNat (by omega)]; simp; omega
    · rw [inRange_iff, u8_ofNat (by omega)]; simp; omega
  rename_i h2
  split
  · rename_i h3
    rw [List.cons_append, List.cons_append, List.singleton_append, validUtf8_three]
    · rw [(inRange_iff _ _ _).2, (inRange_iff 0x80 0xBF _).2, Bool.true_and, Bool.true_and]
      · rw [u8_ofNat (by omega)]; simp; omega
      · rw [u8_ofNat (by omega)]
        have e0 : (UInt8.ofNat (0xE0 + n / 4096) = 0xE0) ↔ n / 4096 = 0 := by
          rw [← UInt8.toNat_inj, u8_ofNat (by omega)]; simp
        have e1 : (UInt8.ofNat (0xE0 + n / 4096) = 0xED) ↔ n / 4096 = 13 := by
          rw [← UInt8.toNat_inj, u8_ofNat (by omega)]; simp; omega
        simp only [e0, e1]
        split <;> split <;> simp <;> omega
    · rw [u8_lt, u8_ofNat (by omega)]; simp; omega
    · rw [inRange_iff, u8_ofNat (by omega)]; simp; omega
    · rw [inRange_iff, u8_ofNat (by omega)]; simp; omega
  · rename_i h3
    rw [List.cons_append, List.cons_append, List.cons_append, List.singleton_append, validUtf8_four]
    · rw [(inRange_iff _ _ _).2, (inRange_iff 0x80 0xBF _).2, (inRange_iff 0x80 0xBF _).2, Bool.true_and, Bool.true_and, Bool.true_and]
      · rw [u8_ofNat (by omega)]; simp; omega
      · rw [u8_ofNat (by omega)]; simp; omega
      · rw [u8_ofNat (by omega)]
        have e0 : (UInt8.ofNat (0xF0 + n / 262144) = 0xF0) ↔ n / 262144 = 0 := by
          rw [← UInt8.toNat_inj, u8_ofNat (by omega)]; simp
        have e1 : (UInt8.ofNat (0xF0 + n / 262144) = 0xF4) ↔ n / 262144 = 4 := by
          rw [← UInt8.toNat_inj, u8_ofNat (by omega)]; simp; omega
        simp only [e0, e1]
        split <;> split <;> simp <;> omega
    · rw [u8_lt, u8_ofNat (by omega)]; simp; omega
    · rw [inRange_iff, u8_ofNat (by omega)]; simp; omega
    · rw [inRange_iff, u8_ofNat (by omega)]; simp; omega
    · rw [inRange_iff, u8_ofNat (by omega)]; simp; omega

theorem utf8_cons (c : Char) (cs : List Char) : utf8 (c :: cs) = String.utf8EncodeChar c ++ utf8 cs := rfl

theorem utf8_append (a b : List Char) : utf8 (a ++ b) = utf8 a ++ utf8 b := by simp [utf8]

theorem validUtf8_utf8_append (cs : List Char) (r : Bytes) : validUtf8 (utf8 cs ++ r) = validUtf8 r := by
  induction cs with
  | nil => rfl
  | cons c cs ih => rw [utf8_cons, List.append_assoc, validUtf8_char, ih]

theorem IsUtf8.cons {s : Bytes} (c : Char) (h : IsUtf8 s) {t : Bytes} (ht : t = String.utf8EncodeChar c ++ s) : IsUtf8 t := by
  obtain ⟨cs, rfl⟩ := h
  exact ⟨c :: cs, by rw [utf8_cons, ht]⟩

/-- A sequence with the bytes of the encoding of the code point `n`. -/
theorem IsUtf8.code {s t : Bytes} (n : Nat) (hn : n.isValidChar) (h : IsUtf8 s) (ht : t = encodeUtf8 n ++ s) : IsUtf8 t := by
  obtain ⟨c, rfl⟩ := charOf hn
  exact h.cons c (by rw [ht, encodeUtf8_char])

/-- `from_utf8` succeeds exactly on the encodings of character sequences. -/
theorem validUtf8_iff (s : Bytes) : validUtf8 s = true ↔ IsUtf8 s := by
  constructor
  · fun_induction validUtf8 s with
    | case1 => intro; exact ⟨[], rfl⟩
    | case2 a r h ih =>
      intro hv
      rw [u8_lt] at h
      simp at h
      refine (ih hv).code a.toNat (by simp [Nat.isValidChar]; omega) ?_
      unfold encodeUtf8
      rw [if_pos h]; simp
    | case3 a h1 h2 b r ih =>
      intro hv
      rw [Bool.and_eq_true] at hv
      rw [inRange_iff] at h2
      have h3 := (inRange_iff _ _ _).1 hv.1
      simp at h2 h3
      refine (ih hv.2).code ((a.toNat - 0xC0) * 64 + (b.toNat - 0x80)) (by simp [Nat.isValidChar]; omega) ?_
      unfold encodeUtf8
      rw [if_neg (by omega), if_pos (by omega)]
      rw [u8_eq (a := a) (by omega), u8_eq (a := b) (by omega)]
      rfl
    | case4 => intro hv; cases hv
    | case5 a h1 h2 h3 b c r ih =>
      intro hv
      rw [Bool.and_eq_true, Bool.and_eq_true] at hv
      rw [inRange_iff] at h3
      have h4 := (inRange_iff _ _ _).1 hv.1.1
      have h5 := (inRange_iff _ _ _).1 hv.1.2
      have e0 : a = 0xE0 ↔ a.toNat = 0xE0 := by rw [← UInt8.toNat_inj]; simp
      have e1 : a = 0xED ↔ a.toNat = 0xED := by rw [← UInt8.toNat_inj]; simp
      simp only [e0, e1] at h4
      have h6 : (if a.toNat = 0xE0 then 0xA0 else 0x80) ≤ b.toNat ∧ b.toNat ≤ (if a.toNat = 0xED then 0x9F else 0xBF) := by
        obtain ⟨x, y⟩ := h4
        constructor
        · split at x <;> simp at x <;> simp_all
        · split at y <;> simp at y <;> simp_all
      simp at h3 h5
      have h7 : 0x80 ≤ b.toNat ∧ b.toNat ≤ 0xBF ∧ (a.toNat = 0xE0 → 0xA0 ≤ b.toNat) ∧ (a.toNat = 0xED → b.toNat ≤ 0x9F) := by
        obtain ⟨x, y⟩ := h6
        split at x <;> split at y <;> omega
      refine (ih hv.2).code ((a.toNat - 0xE0) * 4096 + (b.toNat - 0x80) * 64 + (c.toNat - 0x80))
        (by simp [Nat.isValidChar]; omega) ?_
      unfold encodeUtf8
      rw [if_neg (by omega), if_neg (by omega), if_pos (by omega)]
      rw [u8_eq (a := a) (by omega), u8_eq (a := b) (by omega), u8_eq (a := c) (by omega)]
      rfl
    | case6 => intro hv; cases hv
    | case7 a h1 h2 h3 h4 b c d r ih =>
      intro hv
      rw [Bool.and_eq_true, Bool.and_eq_true, Bool.and_eq_true] at hv
      rw [inRange_iff] at h4
      have h5 := (inRange_iff _ _ _).1 hv.1.1.1
      have h6 := (inRange_iff _ _ _).1 hv.1.1.2
      have h7 := (inRange_iff _ _ _).1 hv.1.2
      have e0 : a = 0xF0 ↔ a.toNat = 0xF0 := by rw [← UInt8.toNat_inj]; simp
      have e1 : a = 0xF4 ↔ a.toNat = 0xF4 := by rw [← UInt8.toNat_inj]; simp
      simp only [e0, e1] at h5
      have h8 : (if a.toNat = 0xF0 then 0x90 else 0x80) ≤ b.toNat ∧ b.toNat ≤ (if a.toNat = 0xF4 then 0x8F else 0xBF) := by
        obtain ⟨x, y⟩ := h5
        constructor
        · split at x <;> simp at x <;> simp_all
        · split at y <;> simp at y <;> simp_all
      simp at h4 h6 h7
      have h9 : 0x80 ≤ b.toNat ∧ b.toNat ≤ 0xBF ∧ (a.toNat = 0xF0 → 0x90 ≤ b.toNat) ∧ (a.toNat = 0xF4 → b.toNat ≤ 0x8F) := by
        obtain ⟨x, y⟩ := h8
        split at x <;> split at y <;> omega
      refine (ih hv.2).code ((a.toNat - 0xF0) * 262144 + (b.toNat - 0x80) * 4096 + (c.toNat - 0x80) * 64 + (d.toNat - 0x80))
        (by simp [Nat.isValidChar]; omega) ?_
      unfold encodeUtf8
      rw [if_neg (by omega), if_neg (by omega), if_neg (by omega)]
      rw [u8_eq (a := a) (by omega), u8_eq (a := b) (by omega), u8_eq (a := c) (by omega), u8_eq (a := d) (by omega)]
      rfl
    | case8 => intro hv; cases hv
    | case9 => intro hv; cases hv
  · rintro ⟨cs, rfl⟩
    have := validUtf8_utf8_append cs []
    rw [List.append_nil] at this
    rw [this]; rfl

end DIDComm
