import Verif.Proofs.Reading
import Verif.Proofs.Early

/-!
# C56: how integers are printed

`Decimal` (`Verif.Spec.Reading`) says which number digits denote, and `IntText` (`Verif.Spec.Grammar`) that there is no leading zero.
-/

set_option autoImplicit false

namespace DIDComm

/-- C56: an integer is printed as the digits that denote it, without leading zeros; a negative one after a minus sign.
There is only one such text. -/
theorem C56_integers (n : Nat) :
    (∃ ds, (Value.num (.pos n)).print = ds ∧ (Value.num (.neg n)).print = b!"-" ++ ds ∧ IntText ds ∧ Decimal ds n) ∧
    ∀ ds, IntText ds → Decimal ds n → (Value.num (.pos n)).print = ds := by
  have hd : ∀ b ∈ decimal n, Digit b := fun b hb => (isDigit_iff b).1 (decimal_digits n b hb)
  have hi : IntText (decimal n) := by
    refine ⟨⟨decimal_ne_nil n, hd⟩, fun h => ?_⟩
    obtain ⟨b, r, e, -, h0⟩ := decimal_head n
    rw [e] at h ⊢
    simp only [List.head?_cons, Option.some.injEq] at h
    rw [h, (h0 h).2]
  have hv : Decimal (decimal n) n := (decimal_iff hd n).2 (digitsVal_decimal n)
  have uniq : ∀ (a : Str) (k : Nat), Decimal a k → ∀ (b : Str), Decimal b k → IntText a → IntText b → a = b := by
    -- without a leading zero, all digits but the last denote a positive number
    have pos : ∀ (s : Str) (x : UInt8), IntText (s ++ [x]) → s ≠ [] → IntText s ∧ 0 < digitsVal s := by
      intro s x h hs
      obtain ⟨c, r, rfl⟩ := List.exists_cons_of_ne_nil hs
      have hc : c ≠ 0x30 := fun e => by
        have := h.2 (by simp [e])
        simp at this
      have hdig : ∀ b ∈ c :: r, Digit b := fun b hb => h.1.2 b (List.mem_append_left _ hb)
      refine ⟨⟨⟨hs, hdig⟩, fun e => absurd (by simpa using e) hc⟩, ?_⟩
      rw [show (c :: r) = [c] ++ r from rfl]
      refine Nat.lt_of_lt_of_le ?_ (digitsVal_prefix (List.prefix_append [c] r))
      have h1 : 48 ≤ c.toNat := UInt8.le_iff_toNat_le.1 (hdig c (by simp)).1
      have h2 : c.toNat ≠ 48 := fun e => hc (UInt8.toNat_inj.1 e)
      simp only [digitsVal, List.foldl_cons, List.foldl_nil]
      omega
    intro a k ha
    induction ha with
    | nil => intro b _ h; exact absurd rfl h.1.1
    | @snoc s m d hs hlt ih =>
      intro b hb h h'
      generalize hk : 10 * m + d = k' at hb
      cases hb with
      | nil => exact absurd rfl h'.1.1
      | @snoc s' m' d' hs' hlt' =>
        have e1 : m = m' := by omega
        have e2 : d = d' := by omega
        subst e1; subst e2
        by_cases n1 : s = []
        · by_cases n2 : s' = []
          · rw [n1, n2]
          · have := (pos _ _ h' n2).2
            rw [decimal_val hs', ← decimal_val hs, n1] at this
            simp [digitsVal] at this
        · by_cases n2 : s' = []
          · have := (pos _ _ h n1).2
            rw [decimal_val hs, ← decimal_val hs', n2] at this
            simp [digitsVal] at this
          · rw [ih s' hs' (pos _ _ h n1).1 (pos _ _ h' n2).1]
  refine ⟨⟨decimal n, by simp [Value.print, printNum], by simp [Value.print, printNum], hi, hv⟩, fun ds h1 h2 => ?_⟩
  rw [show (Value.num (.pos n)).print = decimal n by simp [Value.print, printNum]]
  exact uniq _ _ hv _ h2 hi h1

example : (Value.num (.pos 1605)).print = b!"1605" ∧ (Value.num (.neg 20)).print = b!"-20" ∧ (Value.num (.pos 0)).print = b!"0" := by
  decide +kernel

/-- Digits with a leading zero denote a number too, but are no printed text. -/
example : Decimal b!"07" 7 ∧ ¬ IntText b!"07" :=
  ⟨.snoc (.snoc .nil (d := 0) (by decide)) (d := 7) (by decide), fun h => by have := h.2 rfl; simp at this⟩

end DIDComm
