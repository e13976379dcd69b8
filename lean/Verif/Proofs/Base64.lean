import Verif.Model.Base64

/-! # Lemmas about base64 -/

set_option autoImplicit false

namespace DIDComm.B64

theorem dec6_enc6 : ∀ n, n < 64 → dec6 (enc6 n) = some n := by decide +kernel

theorem dec6_some {c : UInt8} {n : Nat} (h : dec6 c = some n) : n < 64 ∧ enc6 n = c := by
  have key : ∀ c : Fin 256, ∀ n, dec6 (UInt8.ofNat c.val) = some n → n < 64 ∧ enc6 n = UInt8.ofNat c.val := by
    have : ∀ c : Fin 256, (match dec6 (UInt8.ofNat c.val) with
        | some n => decide (n < 64) && decide (enc6 n = UInt8.ofNat c.val)
        | none => true) = true := by decide +kernel
    intro c n hn
    have := this c
    rw [hn] at this
    simpa using this
  have hc : c = UInt8.ofNat (⟨c.toNat, c.toNat_lt⟩ : Fin 256).val := by simp
  rw [hc] at h ⊢
  exact key _ _ h

theorem enc6_ne_pad : ∀ n, n < 64 → enc6 n ≠ 61 := by decide +kernel

theorem dec6_pad : dec6 61 = none := by decide

/-- The symbols of the alphabet. -/
def isSym (c : UInt8) : Bool := (dec6 c).isSome

theorem isSym_enc6 {n : Nat} (h : n < 64) : isSym (enc6 n) = true := by simp [isSym, dec6_enc6 n h]

theorem ofNat_eq {n : Nat} {a : UInt8} (h : n = a.toNat) : UInt8.ofNat n = a := by
  subst h; simp

theorem decode_encode (b : Bytes) : decode (encode b) = some b := by
  fun_induction encode b with
  | case1 => rfl
  | case2 a n =>
    have := a.toNat_lt
    simp only [decode, dec2]
    rw [dec6_enc6 _ (by omega), dec6_enc6 _ (by omega)]
    simp only [Option.bind_eq_bind, Option.bind_some]
    rw [if_pos (by omega), ofNat_eq (a := a) (by omega)]
  | case3 a b n =>
    have := a.toNat_lt
    have := b.toNat_lt
    simp only [decode, dec3]
    rw [if_neg (enc6_ne_pad _ (by omega))]
    rw [dec6_enc6 _ (by omega), dec6_enc6 _ (by omega), dec6_enc6 _ (by omega)]
    simp only [Option.bind_eq_bind, Option.bind_some]
    rw [if_pos (by omega), ofNat_eq (a := a) (by omega), ofNat_eq (a := b) (by omega)]
  | case4 a b c r n ih =>
    have := a.toNat_lt
    have := b.toNat_lt
    have := c.toNat_lt
    simp only [decode, dec4]
    rw [if_neg (by intro h; exact enc6_ne_pad _ (by omega) h.2)]
    rw [dec6_enc6 _ (by omega), dec6_enc6 _ (by omega), dec6_enc6 _ (by omega), dec6_enc6 _ (by omega)]
    simp only [Option.bind_eq_bind, Option.bind_some, ih]
    rw [ofNat_eq (a := a) (by omega), ofNat_eq (a := b) (by omega), ofNat_eq (a := c) (by omega)]
    rfl

theorem encode_sym (b : Bytes) : ∀ c ∈ encode b, isSym c = true := by
  fun_induction encode b with
  | case1 => simp
  | case2 a n =>
    have := a.toNat_lt
    intro c hc
    simp only [List.mem_cons, List.not_mem_nil, or_false] at hc
    rcases hc with rfl | rfl <;> exact isSym_enc6 (by omega)
  | case3 a b n =>
    have := a.toNat_lt
    have := b.toNat_lt
    intro c hc
    simp only [List.mem_cons, List.not_mem_nil, or_false] at hc
    rcases hc with rfl | rfl | rfl <;> exact isSym_enc6 (by omega)
  | case4 a b c r n ih =>
    have := a.toNat_lt
    have := b.toNat_lt
    have := c.toNat_lt
    intro c hc
    simp only [List.mem_cons] at hc
    rcases hc with rfl | rfl | rfl | rfl | h
    · exact isSym_enc6 (by omega)
    · exact isSym_enc6 (by omega)
    · exact isSym_enc6 (by omega)
    · exact isSym_enc6 (by omega)
    · exact ih _ h

theorem dec2_some {a b : UInt8} {x : Bytes} (h : dec2 a b = some x) : encode x = [a, b] ∧ x.length = 1 := by
  simp only [dec2, Option.bind_eq_bind, Option.bind_eq_some_iff] at h
  obtain ⟨n, hn, m, hm, h⟩ := h
  obtain ⟨hn1, rfl⟩ := dec6_some hn
  obtain ⟨hm1, rfl⟩ := dec6_some hm
  split at h
  · cases h
    refine ⟨?_, rfl⟩
    have : (UInt8.ofNat ((n * 64 + m) / 16)).toNat = (n * 64 + m) / 16 := by
      simp only [UInt8.toNat_ofNat']; omega
    simp only [encode, this]
    congr 2 <;> congr 1 <;> omega
  · cases h

theorem dec3_some {a b c : UInt8} {x : Bytes} (h : dec3 a b c = some x) :
    encode x = [a, b, c] ∧ x.length = 2 := by
  simp only [dec3, Option.bind_eq_bind, Option.bind_eq_some_iff] at h
  obtain ⟨n, hn, m, hm, k, hk, h⟩ := h
  obtain ⟨hn1, rfl⟩ := dec6_some hn
  obtain ⟨hm1, rfl⟩ := dec6_some hm
  obtain ⟨hk1, rfl⟩ := dec6_some hk
  split at h
  · cases h
    refine ⟨?_, rfl⟩
    have h1 : (UInt8.ofNat (((n * 64 + m) * 64 + k) / 1024)).toNat = ((n * 64 + m) * 64 + k) / 1024 := by
      simp only [UInt8.toNat_ofNat']; omega
    have h2 : (UInt8.ofNat (((n * 64 + m) * 64 + k) / 4 % 256)).toNat = ((n * 64 + m) * 64 + k) / 4 % 256 := by
      simp only [UInt8.toNat_ofNat']; omega
    simp only [encode, h1, h2]
    congr 1
    · congr 1; omega
    · congr 1
      · congr 1; omega
      · congr 2; omega
  · cases h

theorem dec4_some {a b c d : UInt8} {x : Bytes} (h : dec4 a b c d = some x) (r : Bytes) :
    encode (x ++ r) = a :: b :: c :: d :: encode r ∧ x.length = 3 := by
  simp only [dec4, Option.bind_eq_bind, Option.bind_eq_some_iff] at h
  obtain ⟨n, hn, m, hm, k, hk, l, hl, h⟩ := h
  obtain ⟨hn1, rfl⟩ := dec6_some hn
  obtain ⟨hm1, rfl⟩ := dec6_some hm
  obtain ⟨hk1, rfl⟩ := dec6_some hk
  obtain ⟨hl1, rfl⟩ := dec6_some hl
  cases h
  refine ⟨?_, rfl⟩
  have h1 : (UInt8.ofNat ((((n * 64 + m) * 64 + k) * 64 + l) / 65536)).toNat
      = (((n * 64 + m) * 64 + k) * 64 + l) / 65536 := by
    simp only [UInt8.toNat_ofNat']; omega
  have h2 : (UInt8.ofNat ((((n * 64 + m) * 64 + k) * 64 + l) / 256 % 256)).toNat
      = (((n * 64 + m) * 64 + k) * 64 + l) / 256 % 256 := by
    simp only [UInt8.toNat_ofNat']; omega
  have h3 : (UInt8.ofNat ((((n * 64 + m) * 64 + k) * 64 + l) % 256)).toNat
      = (((n * 64 + m) * 64 + k) * 64 + l) % 256 := by
    simp only [UInt8.toNat_ofNat']; omega
  simp only [List.cons_append, List.nil_append, encode, h1, h2, h3]
  congr 1
  · congr 1; omega
  · congr 1
    · congr 1; omega
    · congr 1
      · congr 1; omega
      · congr 1
        congr 1; omega

/-- What the decoder accepts: the canonical encoding, possibly followed by `=`. -/
theorem decode_some {s : Str} {b : Bytes} (h : decode s = some b) :
    ∃ pad, s = encode b ++ pad ∧ (pad = [] ∨ pad = [61] ∨ pad = [61, 61]) := by
  fun_induction decode s generalizing b with
  | case1 => cases h; exact ⟨[], rfl, .inl rfl⟩
  | case2 => cases h
  | case3 a c => exact ⟨[], by rw [(dec2_some h).1]; rfl, .inl rfl⟩
  | case4 a c => exact ⟨[61], by rw [(dec2_some h).1]; rfl, .inr (.inl rfl)⟩
  | case5 a c d hd => exact ⟨[], by rw [(dec3_some h).1]; rfl, .inl rfl⟩
  | case6 a c d r hr =>
    obtain ⟨rfl, rfl⟩ := hr
    exact ⟨[61, 61], by rw [(dec2_some h).1]; rfl, .inr (.inr rfl)⟩
  | case7 a c e d r hr he =>
    obtain ⟨rfl, rfl⟩ := hr
    exact ⟨[61], by rw [(dec3_some h).1]; rfl, .inr (.inl rfl)⟩
  | case8 a c d e r hr ih =>
    simp only [Option.bind_eq_bind, Option.bind_eq_some_iff, Option.some.injEq] at h
    obtain ⟨x, hx, y, hy, rfl⟩ := h
    obtain ⟨pad, hp, hpad⟩ := ih hy
    exact ⟨pad, by rw [(dec4_some hx y).1, hp]; rfl, hpad⟩

/-- How much padding goes with a number of bytes. -/
theorem decode_pad_some {s : Str} {b : Bytes} (h : decode s = some b) :
    s = encode b ∨ (s = encode b ++ [61] ∧ b.length % 3 ≠ 0) ∨ (s = encode b ++ [61, 61] ∧ b.length % 3 = 1) := by
  fun_induction decode s generalizing b with
  | case1 => cases h; exact .inl rfl
  | case2 => cases h
  | case3 a c => exact .inl (dec2_some h).1.symm
  | case4 a c => exact .inr (.inl ⟨by rw [(dec2_some h).1]; rfl, by rw [(dec2_some h).2]; decide⟩)
  | case5 a c d hd => exact .inl (dec3_some h).1.symm
  | case6 a c d r hr =>
    obtain ⟨rfl, rfl⟩ := hr
    exact .inr (.inr ⟨by rw [(dec2_some h).1]; rfl, by rw [(dec2_some h).2]⟩)
  | case7 a c e d r hr he =>
    obtain ⟨rfl, rfl⟩ := hr
    exact .inr (.inl ⟨by rw [(dec3_some h).1]; rfl, by rw [(dec3_some h).2]; decide⟩)
  | case8 a c d e r hr ih =>
    simp only [Option.bind_eq_bind, Option.bind_eq_some_iff, Option.some.injEq] at h
    obtain ⟨x, hx, y, hy, rfl⟩ := h
    have h3 := (dec4_some hx y).2
    rcases ih hy with hp | ⟨hp, hl⟩ | ⟨hp, hl⟩
    · exact .inl (by rw [(dec4_some hx y).1, hp])
    · exact .inr (.inl ⟨by rw [(dec4_some hx y).1, hp]; rfl, by rw [List.length_append]; omega⟩)
    · exact .inr (.inr ⟨by rw [(dec4_some hx y).1, hp]; rfl, by rw [List.length_append]; omega⟩)

theorem decode_encode_pad (b : Bytes) (h : b.length % 3 ≠ 0) :
    decode (encode b ++ [61]) = some b ∧ (b.length % 3 = 1 → decode (encode b ++ [61, 61]) = some b) := by
  fun_induction encode b with
  | case1 => exact absurd rfl h
  | case2 a n =>
    have e := decode_encode [a]
    simp only [encode, decode] at e
    exact ⟨by simp only [List.cons_append, List.nil_append, decode, if_true]; exact e,
      fun _ => by simp only [List.cons_append, List.nil_append, decode, and_self, if_true]; exact e⟩
  | case3 a b n =>
    have := a.toNat_lt
    have := b.toNat_lt
    have e := decode_encode [a, b]
    simp only [encode, decode] at e
    refine ⟨by simp only [List.cons_append, List.nil_append, decode, and_self, if_true]; exact e, fun h => ?_⟩
    simp at h
  | case4 a b c r n ih =>
    have := a.toNat_lt
    have := b.toNat_lt
    have := c.toNat_lt
    have h' : r.length % 3 ≠ 0 := by simp only [List.length_cons] at h; omega
    have step : ∀ pad, decode (encode r ++ pad) = some r →
        decode (enc6 (n / 262144) :: enc6 (n / 4096 % 64) :: enc6 (n / 64 % 64) :: enc6 (n % 64) :: (encode r ++ pad)) =
          some (a :: b :: c :: r) := by
      intro pad hp
      simp only [decode, dec4]
      rw [if_neg (by intro h; exact enc6_ne_pad _ (by omega) h.2)]
      rw [dec6_enc6 _ (by omega), dec6_enc6 _ (by omega), dec6_enc6 _ (by omega), dec6_enc6 _ (by omega)]
      simp only [Option.bind_eq_bind, Option.bind_some, hp]
      rw [ofNat_eq (a := a) (by omega), ofNat_eq (a := b) (by omega), ofNat_eq (a := c) (by omega)]
      rfl
    refine ⟨step _ (ih h').1, fun h1 => step _ ((ih h').2 ?_)⟩
    simp only [List.length_cons] at h1; omega

theorem encode_length (b : Bytes) : b.length ≤ (encode b).length := by
  fun_induction encode b with
  | case1 => simp
  | case2 => simp
  | case3 => simp
  | case4 a b c r n ih => simp only [List.length_cons]; omega

theorem decode_length {s : Str} {b : Bytes} (h : decode s = some b) : b.length ≤ s.length := by
  obtain ⟨pad, rfl, -⟩ := decode_some h
  have := encode_length b
  simp only [List.length_append]; omega

theorem encode_injective {a b : Bytes} (h : encode a = encode b) : a = b := by
  have := decode_encode a
  rw [h, decode_encode] at this
  exact (Option.some.inj this).symm

end DIDComm.B64
