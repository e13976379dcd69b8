import Verif.Model.Keys

/-! # base58 and varint lemmas -/

set_option autoImplicit false

namespace DIDComm

theorem toBaseAux_acc (base f n : Nat) (acc : List Nat) :
    toBaseAux base f n acc = toBaseAux base f n [] ++ acc := by
  induction f generalizing n acc with
  | zero => rfl
  | succ f ih =>
    simp only [toBaseAux]
    split
    · rfl
    · rw [ih, ih (n / base) [n % base]]; simp

theorem toBaseAux_fuel (base : Nat) (hb : 2 ≤ base) (f n : Nat) (hf : n ≤ f) :
    toBaseAux base f n [] = toBase base n := by
  unfold toBase
  induction n using Nat.strongRecOn generalizing f with
  | ind n ih =>
    cases f with
    | zero => have : n = 0 := by omega
              subst this; rfl
    | succ f =>
      cases n with
      | zero => simp [toBaseAux]
      | succ n =>
        simp only [toBaseAux]
        have hlt : (n + 1) / base < n + 1 := Nat.div_lt_self (by omega) (by omega)
        simp only [Nat.add_one_ne_zero, if_false]
        rw [toBaseAux_acc, toBaseAux_acc base n]
        rw [ih _ hlt f (by omega), ← ih _ hlt n (by omega)]

theorem toBase_zero (base : Nat) : toBase base 0 = [] := rfl

theorem toBase_step (base : Nat) (hb : 2 ≤ base) (n : Nat) (hn : n ≠ 0) :
    toBase base n = toBase base (n / base) ++ [n % base] := by
  obtain ⟨m, rfl⟩ := Nat.exists_eq_succ_of_ne_zero hn
  have hlt : (m + 1) / base < m + 1 := Nat.div_lt_self (by omega) (by omega)
  conv => lhs; unfold toBase
  simp only [Nat.succ_eq_add_one, toBaseAux, Nat.add_one_ne_zero, if_false]
  rw [toBaseAux_acc, toBaseAux_fuel base hb m _ (by omega)]

theorem fromBase_append (base : Nat) (a b : List Nat) :
    fromBase base (a ++ b) = b.foldl (fun a d => a * base + d) (fromBase base a) := by
  simp [fromBase, List.foldl_append]

theorem fromBase_toBase (base : Nat) (hb : 2 ≤ base) (n : Nat) : fromBase base (toBase base n) = n := by
  induction n using Nat.strongRecOn with
  | ind n ih =>
    by_cases hn : n = 0
    · subst hn; rfl
    · rw [toBase_step base hb n hn, fromBase_append, ih _ (Nat.div_lt_self (by omega) (by omega))]
      simp only [List.foldl_cons, List.foldl_nil]
      rw [Nat.mul_comm]; exact Nat.div_add_mod n base

theorem toBase_lt (base : Nat) (hb : 2 ≤ base) (n : Nat) : ∀ d ∈ toBase base n, d < base := by
  induction n using Nat.strongRecOn with
  | ind n ih =>
    by_cases hn : n = 0
    · subst hn; intro d hd; cases hd
    · rw [toBase_step base hb n hn]
      intro d hd
      rcases List.mem_append.1 hd with h | h
      · exact ih _ (Nat.div_lt_self (by omega) (by omega)) d h
      · simp only [List.mem_singleton] at h; subst h; exact Nat.mod_lt _ (by omega)

theorem toBase_head (base : Nat) (hb : 2 ≤ base) (n : Nat) : (toBase base n).head? ≠ some 0 := by
  induction n using Nat.strongRecOn with
  | ind n ih =>
    by_cases hn : n = 0
    · subst hn; simp [toBase_zero]
    · rw [toBase_step base hb n hn]
      have ih := ih _ (Nat.div_lt_self (by omega : 0 < n) (by omega : 1 < base))
      by_cases hq : n / base = 0
      · rw [hq, toBase_zero]
        simp only [List.nil_append, List.head?_cons, ne_eq, Option.some.injEq]
        intro h0
        have := Nat.div_add_mod n base
        rw [hq, h0] at this; simp at this; omega
      · have : toBase base (n / base) ≠ [] := by
          rw [toBase_step base hb _ hq]; simp
        rw [List.head?_append]; cases hx : toBase base (n / base) with
        | nil => exact absurd hx this
        | cons a l => rw [hx] at ih; simpa using ih

theorem fromBase_eq_zero (base : Nat) (hb : 2 ≤ base) (ds : List Nat) (hh : ds.head? ≠ some 0)
    (h : fromBase base ds = 0) : ds = [] := by
  cases ds with
  | nil => rfl
  | cons d ds =>
    exfalso
    have hd : d ≠ 0 := by simpa using hh
    have hmono : ∀ (l : List Nat) (a : Nat), a ≠ 0 → l.foldl (fun a d => a * base + d) a ≠ 0 := by
      intro l
      induction l with
      | nil => intro a ha; exact ha
      | cons x l ih =>
        intro a ha
        simp only [List.foldl_cons]
        apply ih
        have : 0 < a * base := Nat.mul_pos (by omega) (by omega)
        omega
    unfold fromBase at h
    simp only [List.foldl_cons, Nat.zero_mul, Nat.zero_add] at h
    exact hmono ds d hd h

theorem toBase_fromBase (base : Nat) (hb : 2 ≤ base) (ds : List Nat) (hd : ∀ d ∈ ds, d < base)
    (hh : ds.head? ≠ some 0) : toBase base (fromBase base ds) = ds := by
  induction h : ds.length generalizing ds with
  | zero => have := List.length_eq_zero_iff.1 h; subst this; rfl
  | succ n ih =>
    have hne : ds ≠ [] := by intro e; subst e; simp at h
    have hz : fromBase base ds ≠ 0 := fun e => hne (fromBase_eq_zero base hb ds hh e)
    rw [toBase_step base hb _ hz]
    have hsplit : ds = ds.dropLast ++ [ds.getLast hne] := (List.dropLast_concat_getLast hne).symm
    have hlast : ds.getLast hne < base := hd _ (List.getLast_mem hne)
    have hf : fromBase base ds = fromBase base ds.dropLast * base + ds.getLast hne := by
      conv => lhs; rw [hsplit]
      rw [fromBase_append]; rfl
    rw [hf]
    have h1 : (fromBase base ds.dropLast * base + ds.getLast hne) / base = fromBase base ds.dropLast := by
      rw [Nat.mul_comm, Nat.mul_add_div (by omega)]
      rw [Nat.div_eq_of_lt hlast]; omega
    have h2 : (fromBase base ds.dropLast * base + ds.getLast hne) % base = ds.getLast hne := by
      rw [Nat.mul_comm, Nat.mul_add_mod]; exact Nat.mod_eq_of_lt hlast
    rw [h1, h2]
    have hlen : ds.dropLast.length = n := by simp [h]
    rw [ih ds.dropLast (fun d hx => hd d (List.dropLast_subset _ hx)) ?_ hlen]
    · exact List.dropLast_concat_getLast hne
    · cases hds : ds with
      | nil => simp
      | cons x l =>
        cases l with
        | nil => simp
        | cons y l => subst hds; simpa using hh

/-- Splitting off leading occurrences. -/
theorem leading_split {α : Type} [DecidableEq α] (x : α) (l : List α) :
    l = List.replicate (leading x l) x ++ l.drop (leading x l) ∧ (l.drop (leading x l)).head? ≠ some x := by
  induction l with
  | nil => simp [leading]
  | cons y l ih =>
    simp only [leading]
    split
    · rename_i h
      subst h
      rw [List.replicate_succ, List.cons_append, List.drop_succ_cons]
      exact ⟨by rw [← ih.1], ih.2⟩
    · rename_i h
      simp [h]

theorem leading_replicate {α : Type} [DecidableEq α] (x : α) (n : Nat) (l : List α) (h : l.head? ≠ some x) :
    leading x (List.replicate n x ++ l) = n := by
  induction n with
  | zero =>
    cases l with
    | nil => rfl
    | cons y l =>
      have : y ≠ x := by simpa using h
      simp [leading, this]
  | succ n ih => simp [List.replicate_succ, leading, ih]

theorem b58Val_sym : ∀ n, n < 58 → b58Val (b58Sym n) = some n := by decide +kernel
theorem b58Sym_ne : ∀ n, n < 58 → n ≠ 0 → b58Sym n ≠ 0x31 := by decide +kernel

theorem b58Vals_append (a b : Str) : b58Vals (a ++ b) =
    (b58Vals a).bind fun x => (b58Vals b).map (x ++ ·) := by
  induction a with
  | nil => simp [b58Vals]
  | cons c a ih =>
    simp only [List.cons_append, b58Vals, ih]
    cases b58Val c <;> cases b58Vals a <;> cases b58Vals b <;> simp

theorem b58Vals_map (ds : List Nat) (h : ∀ d ∈ ds, d < 58) : b58Vals (ds.map b58Sym) = some ds := by
  induction ds with
  | nil => rfl
  | cons d ds ih =>
    simp [b58Vals, b58Val_sym d (h d (by simp)), ih (fun d hd => h d (by simp [hd]))]

theorem b58Vals_ones (n : Nat) : b58Vals (List.replicate n 0x31) = some (List.replicate n 0) := by
  induction n with
  | zero => rfl
  | succ n ih =>
    have : b58Val 0x31 = some 0 := by decide
    simp [List.replicate_succ, b58Vals, this, ih]

theorem fromBase_zeros (base n : Nat) (l : List Nat) : fromBase base (List.replicate n 0 ++ l) = fromBase base l := by
  induction n with
  | zero => rfl
  | succ n ih =>
    rw [List.replicate_succ, List.cons_append]
    rw [← ih]
    simp [fromBase]

theorem b58_decode_encode (b : Bytes) : b58Decode (b58Encode b) = some b := by
  have hs := leading_split (0 : UInt8) b
  generalize hz : leading (0 : UInt8) b = z at hs
  generalize hr : b.drop z = r at hs
  obtain ⟨hb, hhead⟩ := hs
  have hN : fromBase 256 (b.map UInt8.toNat) = fromBase 256 (r.map UInt8.toNat) := by
    rw [hb, List.map_append, List.map_replicate]
    exact fromBase_zeros 256 z _
  unfold b58Decode b58Encode
  rw [hz, hN]
  generalize hn : fromBase 256 (r.map UInt8.toNat) = N
  have hlt := toBase_lt 58 (by omega) N
  have hh := toBase_head 58 (by omega) N
  have hlead : leading 0x31 (List.replicate z 0x31 ++ (toBase 58 N).map b58Sym) = z := by
    apply leading_replicate
    cases hd : toBase 58 N with
    | nil => simp
    | cons d ds =>
      rw [hd] at hh hlt
      simp only [List.map_cons, List.head?_cons, ne_eq, Option.some.injEq]
      exact b58Sym_ne d (hlt d (by simp)) (by simpa using hh)
  rw [hlead, b58Vals_append, b58Vals_ones, b58Vals_map _ hlt]
  simp only [Option.bind_some, Option.map_some, Option.bind_eq_bind, Option.some.injEq]
  rw [fromBase_zeros, fromBase_toBase 58 (by omega), ← hn, toBase_fromBase 256 (by omega)]
  · rw [List.map_map]
    have : (UInt8.ofNat ∘ UInt8.toNat) = id := by funext x; simp
    rw [this, List.map_id]
    exact hb.symm
  · intro d hd
    obtain ⟨x, -, rfl⟩ := List.mem_map.1 hd
    exact x.toNat_lt
  · cases r with
    | nil => simp
    | cons x r =>
      simp only [List.head?_cons, ne_eq, Option.some.injEq] at hhead
      simp only [List.map_cons, List.head?_cons, ne_eq, Option.some.injEq]
      intro h0
      apply hhead
      exact UInt8.toNat_inj.1 (by simpa using h0)

theorem b58Val_range : ∀ c : UInt8, ∀ n, b58Val c = some n → n < 58 ∧ b58Sym n = c := by
  have h : ∀ i : Fin 256, ∀ n, b58Val (UInt8.ofNat i.1) = some n → n < 58 ∧ b58Sym n = UInt8.ofNat i.1 := by
    have : ∀ i : Fin 256, (match b58Val (UInt8.ofNat i.1) with
      | some n => decide (n < 58 ∧ b58Sym n = UInt8.ofNat i.1) | none => true) = true := by decide +kernel
    intro i n hn
    have := this i
    rw [hn] at this
    exact of_decide_eq_true this
  intro c n hn
  have := h ⟨c.toNat, c.toNat_lt⟩ n
  simp only [UInt8.ofNat_toNat] at this
  exact this hn

theorem b58Vals_some : ∀ {s : Str} {ds : List Nat}, b58Vals s = some ds → (∀ d ∈ ds, d < 58) ∧ ds.map b58Sym = s
  | [], ds, h => by cases h; simp
  | c :: s, ds, h => by
    simp only [b58Vals, Option.bind_eq_bind, Option.bind_eq_some_iff, Option.some.injEq] at h
    obtain ⟨v, hv, l, hl, rfl⟩ := h
    obtain ⟨h1, h2⟩ := b58Val_range c v hv
    obtain ⟨h3, h4⟩ := b58Vals_some hl
    refine ⟨?_, by simp [h2, h4]⟩
    intro d hd
    rcases List.mem_cons.1 hd with rfl | hd
    · exact h1
    · exact h3 d hd

/-- Decoding base58 loses nothing. -/
theorem b58_encode_decode {s : Str} {b : Bytes} (h : b58Decode s = some b) : b58Encode b = s := by
  unfold b58Decode at h
  simp only [Option.bind_eq_bind, Option.bind_eq_some_iff, Option.some.injEq] at h
  obtain ⟨ds, hds, rfl⟩ := h
  have hs := leading_split (0x31 : UInt8) s
  generalize hz : leading (0x31 : UInt8) s = z at hs
  generalize hr : s.drop z = r at hs
  obtain ⟨hsr, hhead⟩ := hs
  rw [hsr, b58Vals_append, b58Vals_ones] at hds
  simp only [Option.bind_some, Option.map_eq_some_iff] at hds
  obtain ⟨er, her, rfl⟩ := hds
  obtain ⟨hlt, hmap⟩ := b58Vals_some her
  have hh : er.head? ≠ some 0 := by
    cases er with
    | nil => simp
    | cons d er =>
      simp only [List.head?_cons, ne_eq, Option.some.injEq]
      rintro rfl
      apply hhead
      rw [← hmap]
      rfl
  rw [fromBase_zeros]
  have hN := toBase_fromBase 58 (by omega) er hlt hh
  generalize hn : fromBase 58 er = N at hN
  have h256 := toBase_lt 256 (by omega) N
  have hh256 := toBase_head 256 (by omega) N
  have hid : ((toBase 256 N).map UInt8.ofNat).map UInt8.toNat = toBase 256 N := by
    rw [List.map_map]
    conv => rhs; rw [← List.map_id (toBase 256 N)]
    apply List.map_congr_left
    intro d hd
    simp only [Function.comp_apply, UInt8.toNat_ofNat', id]
    exact Nat.mod_eq_of_lt (h256 d hd)
  unfold b58Encode
  rw [List.map_append, hid, List.map_replicate]
  have hlead : leading (0 : UInt8) (List.replicate z 0 ++ (toBase 256 N).map UInt8.ofNat) = z := by
    apply leading_replicate
    cases hd : toBase 256 N with
    | nil => simp
    | cons d l =>
      rw [hd] at hh256 h256
      simp only [List.map_cons, List.head?_cons, ne_eq, Option.some.injEq]
      intro e
      have h1 : d < 256 := h256 d (by simp)
      have h2 : d % 256 = 0 := by simpa using congrArg UInt8.toNat e
      rw [Nat.mod_eq_of_lt h1] at h2
      subst h2
      simp at hh256
  rw [hlead, show (0 : UInt8).toNat = 0 from rfl, fromBase_zeros, fromBase_toBase 256 (by omega), hN, hmap]
  exact hsr.symm

end DIDComm
