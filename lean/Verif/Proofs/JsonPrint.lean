import Verif.Spec.Values
import Verif.Proofs.Runs

/-! # Parsing what the printer wrote -/

set_option autoImplicit false

namespace DIDComm

theorem UInt8.forall_of_fin {p : UInt8 → Prop} (h : ∀ i : Fin 256, p (UInt8.ofNat i.val)) (b : UInt8) : p b := by
  have := h ⟨b.toNat, b.toNat_lt⟩
  simpa using this

/-! ## Strings -/

/-- The token pieces the lexer reads back for one byte. -/
def itemOf (b : UInt8) : StrItem :=
  if b < 0x20 ∧ b ≠ 0x08 ∧ b ≠ 0x09 ∧ b ≠ 0x0A ∧ b ≠ 0x0C ∧ b ≠ 0x0D then .unit b.toNat else .byte b

/-- Whether a byte is written with an escape. -/
def escaped (b : UInt8) : Bool := b = 0x22 || b = 0x5C || b < 0x20

/-- Whether a string is written with an escape. -/
def needsEsc (s : Str) : Bool := s.any escaped

theorem hex4_ctl : ∀ n, n < 32 → hex4 0x30 0x30 (hexDigit (n / 16)) (hexDigit (n % 16)) = some n := by
  decide +kernel

theorem lexStr_simple {c x : UInt8} {t : Str} (hc : c ≠ 0x75) (hx : simpleEsc c = some x) :
    lexStr (0x5C :: c :: t) = (lexStr t).map fun p => ((true, .byte x :: p.1.2), p.2) := by
  rw [lexStr.eq_def]
  simp only [hc, hx, if_false, if_true]
  rw [if_neg (by decide)]
  cases lexStr t <;> rfl

theorem lexStr_unit {a b c d : UInt8} {u : Nat} {t : Str} (hx : hex4 a b c d = some u) :
    lexStr (0x5C :: 0x75 :: a :: b :: c :: d :: t)
      = (lexStr t).map fun p => ((true, .unit u :: p.1.2), p.2) := by
  rw [lexStr.eq_def]
  simp only [hx, if_true]
  rw [if_neg (by decide)]
  cases lexStr t <;> rfl

theorem lexStr_plain {c : UInt8} {t : Str} (h1 : c ≠ 0x22) (h2 : c ≠ 0x5C) (h3 : ¬ c < 0x20) :
    lexStr (c :: t) = (lexStr t).map fun p => ((p.1.1, .byte c :: p.1.2), p.2) := by
  rw [lexStr.eq_def]
  simp only [h1, h2, h3, if_false]
  cases lexStr t <;> rfl

theorem lexStr_quote (t : Str) : lexStr (0x22 :: t) = .ok ((false, []), t) := by
  rw [lexStr.eq_def]; rfl

theorem lexStr_escByte (b : UInt8) (t : Str) {e : Bool} {is : List StrItem} {rest : Str}
    (h : lexStr t = .ok ((e, is), rest)) :
    lexStr (escByte b ++ t) = .ok ((escaped b || e, itemOf b :: is), rest) := by
  unfold escByte
  split
  · subst b; simp only [List.cons_append, List.nil_append]; rw [lexStr_simple (x := 0x22) (by decide) rfl, h]; rfl
  split
  · subst b; simp only [List.cons_append, List.nil_append]; rw [lexStr_simple (x := 0x5C) (by decide) rfl, h]; rfl
  split
  · subst b; simp only [List.cons_append, List.nil_append]; rw [lexStr_simple (x := 0x08) (by decide) rfl, h]; rfl
  split
  · subst b; simp only [List.cons_append, List.nil_append]; rw [lexStr_simple (x := 0x09) (by decide) rfl, h]; rfl
  split
  · subst b; simp only [List.cons_append, List.nil_append]; rw [lexStr_simple (x := 0x0A) (by decide) rfl, h]; rfl
  split
  · subst b; simp only [List.cons_append, List.nil_append]; rw [lexStr_simple (x := 0x0C) (by decide) rfl, h]; rfl
  split
  · subst b; simp only [List.cons_append, List.nil_append]; rw [lexStr_simple (x := 0x0D) (by decide) rfl, h]; rfl
  split
  · rename_i h1 h2 h3 h4 h5 h6 h7 h8
    have hb : b.toNat < 32 := h8
    simp only [List.cons_append, List.nil_append]
    rw [lexStr_unit (hex4_ctl _ hb), h]
    simp [Except.map, escaped, itemOf, h8, h3, h4, h5, h6, h7]
  · rename_i h1 h2 h3 h4 h5 h6 h7 h8
    simp only [List.cons_append, List.nil_append]
    rw [lexStr_plain h1 h2 h8, h]
    simp [Except.map, escaped, itemOf, h8, h1, h2]

theorem lexStr_escStr (s rest : Str) :
    lexStr (escStr s ++ 0x22 :: rest) = .ok ((needsEsc s, s.map itemOf), rest) := by
  induction s with
  | nil => exact lexStr_quote rest
  | cons b r ih =>
    rw [escStr, List.append_assoc, lexStr_escByte b _ ih]
    rfl

theorem assemble_unit {u : Nat} (h : u < 0xD800) (r : List StrItem) :
    assemble (.unit u :: r) = (assemble r).map (encodeUtf8 u ++ ·) := by
  rw [assemble.eq_def]
  simp only
  rw [if_neg (by omega), if_neg (by omega)]

theorem assemble_items (s : Str) : assemble (s.map itemOf) = some s := by
  induction s with
  | nil => rfl
  | cons b r ih =>
    rw [List.map_cons]
    by_cases h : b < 0x20 ∧ b ≠ 0x08 ∧ b ≠ 0x09 ∧ b ≠ 0x0A ∧ b ≠ 0x0C ∧ b ≠ 0x0D
    · have hb : b.toNat < 32 := h.1
      have hi : itemOf b = .unit b.toNat := if_pos h
      rw [hi, assemble_unit (by omega), ih]
      simp only [Option.map_some, encodeUtf8]
      rw [if_pos (by omega)]
      simp
    · have hi : itemOf b = .byte b := if_neg h
      rw [hi, assemble, ih]; rfl

/-- The token of a printed string. -/
def strTokOf (s : Str) : StrTok := ⟨needsEsc s, if validUtf8 s then some s else none⟩

theorem parseStr_escStr (s rest : Str) : parseStr (escStr s ++ 0x22 :: rest) = .ok (strTokOf s, rest) := by
  unfold parseStr
  rw [lexStr_escStr]
  simp only [bind, Except.bind, strTok, assemble_items, strTokOf]

/-! ## Numbers -/

theorem digit_facts : ∀ n, n < 10 → isDigit (UInt8.ofNat (48 + n)) = true ∧ (UInt8.ofNat (48 + n)).toNat = 48 + n := by
  decide +kernel

theorem decimalAux_digits (f n : Nat) : ∀ b ∈ decimalAux f n, isDigit b = true := by
  induction f generalizing n with
  | zero => simp [decimalAux]
  | succ f ih =>
    rw [decimalAux]
    split
    · rename_i h
      intro b hb
      simp only [List.mem_singleton] at hb
      subst hb
      exact (digit_facts n h).1
    · intro b hb
      simp only [List.mem_append, List.mem_singleton] at hb
      rcases hb with hb | rfl
      · exact ih _ _ hb
      · exact (digit_facts _ (Nat.mod_lt _ (by omega))).1

theorem decimal_digits (n : Nat) : ∀ b ∈ decimal n, isDigit b = true := decimalAux_digits _ _

theorem decimalAux_ne_nil (f n : Nat) : decimalAux (f + 1) n ≠ [] := by
  rw [decimalAux]; split <;> simp

theorem decimal_ne_nil (n : Nat) : decimal n ≠ [] := decimalAux_ne_nil n n

theorem decimalAux_head (f n : Nat) (h : n < 10 ^ f) (h0 : n ≠ 0) :
    ∃ b r, decimalAux f n = b :: r ∧ b ≠ 0x30 := by
  induction f generalizing n with
  | zero => simp at h; omega
  | succ f ih =>
    rw [decimalAux]
    split
    · rename_i hn
      refine ⟨_, [], rfl, ?_⟩
      intro hb
      have := (digit_facts n hn).2
      rw [hb] at this
      have : n = 0 := by simpa using this
      exact h0 this
    · rename_i hn
      have h1 : n / 10 < 10 ^ f := by
        rw [Nat.div_lt_iff_lt_mul (by omega)]
        rw [Nat.pow_succ] at h; exact h
      obtain ⟨b, r, hb, hb0⟩ := ih (n / 10) h1 (by omega)
      exact ⟨b, r ++ _, by rw [hb]; rfl, hb0⟩

theorem lt_ten_pow (n : Nat) : n < 10 ^ (n + 1) := by
  induction n with
  | zero => simp
  | succ n ih => rw [Nat.pow_succ]; omega

theorem decimal_head (n : Nat) : ∃ b r, decimal n = b :: r ∧ isDigit b = true ∧ (b = 0x30 → n = 0 ∧ r = []) := by
  by_cases h0 : n = 0
  · subst h0; exact ⟨0x30, [], rfl, rfl, fun _ => ⟨rfl, rfl⟩⟩
  · obtain ⟨b, r, hb, hb0⟩ := decimalAux_head (n + 1) n (lt_ten_pow n) h0
    refine ⟨b, r, hb, ?_, fun h => absurd h hb0⟩
    exact decimal_digits n b (by rw [decimal, hb]; simp)

/-- Text after a number: end of input, or something that cannot continue it. -/
def Delim : Str → Prop
  | [] => True
  | b :: _ => isDigit b = false ∧ b ≠ 0x2E ∧ b ≠ 0x65 ∧ b ≠ 0x45

theorem spanDigits_append (d rest : Str) (hd : ∀ b ∈ d, isDigit b = true)
    (hr : ∀ b r, rest = b :: r → isDigit b = false) : spanDigits (d ++ rest) = (d, rest) := by
  induction d with
  | nil =>
    cases rest with
    | nil => rfl
    | cons b r => simp [spanDigits, hr b r rfl]
  | cons b d ih =>
    simp only [List.cons_append, spanDigits]
    rw [if_pos (hd b (by simp)), ih (fun b hb => hd b (by simp [hb]))]

theorem Delim.notDigit {rest : Str} (h : Delim rest) : ∀ b r, rest = b :: r → isDigit b = false := by
  rintro b r rfl; exact h.1

theorem parseIntPart_decimal (n : Nat) (rest : Str) (hr : ∀ b r, rest = b :: r → isDigit b = false) :
    parseIntPart (decimal n ++ rest) = .ok (decimal n, rest) := by
  obtain ⟨b, r, hb, hd, h0⟩ := decimal_head n
  have hspan := spanDigits_append (decimal n) rest (decimal_digits n) hr
  rw [hb] at hspan ⊢
  simp only [List.cons_append] at hspan ⊢
  rw [parseIntPart.eq_def]
  simp only
  by_cases hb0 : b = 0x30
  · obtain ⟨-, rfl⟩ := h0 hb0
    rw [if_pos hb0]
    cases rest with
    | nil => rfl
    | cons c rest => simp [hr c rest rfl]
  · rw [if_neg hb0, if_pos hd, hspan]

theorem parseFrac_delim {rest : Str} (h : Delim rest) : parseFrac rest = .ok ([], rest) := by
  cases rest with
  | nil => rfl
  | cons b r => simp [parseFrac, h.2.1]

theorem parseExp_delim {rest : Str} (h : Delim rest) : parseExp rest = .ok ([], rest) := by
  cases rest with
  | nil => rfl
  | cons b r => simp [parseExp, h.2.2.1, h.2.2.2]

theorem parseNum_decimal (neg : Bool) (n : Nat) (rest : Str) (h : Delim rest) :
    parseNum neg (decimal n ++ rest) = .ok (⟨neg, decimal n, []⟩, rest) := by
  unfold parseNum
  rw [parseIntPart_decimal n rest h.notDigit]
  simp only [bind, Except.bind, parseFrac_delim h, parseExp_delim h, List.append_nil]

theorem spanDigits_spec (s : Str) : s = (spanDigits s).1 ++ (spanDigits s).2 ∧
    (∀ b ∈ (spanDigits s).1, isDigit b = true) ∧ (∀ b r, (spanDigits s).2 = b :: r → isDigit b = false) := by
  induction s with
  | nil => simp [spanDigits]
  | cons b r ih =>
    rw [spanDigits]
    split
    · rename_i h
      refine ⟨by simpa using ih.1, ?_, ih.2.2⟩
      intro c hc
      simp only [List.mem_cons] at hc
      rcases hc with rfl | hc
      · exact h
      · exact ih.2.1 c hc
    · rename_i h
      refine ⟨rfl, by simp, ?_⟩
      rintro c t hc
      cases hc
      simpa using h

theorem spanDigits_ext {s d r rest : Str} (h : spanDigits s = (d, r)) (hr : Delim rest) :
    spanDigits (s ++ rest) = (d, r ++ rest) := by
  have hs := spanDigits_spec s
  rw [h] at hs
  obtain ⟨h1, h2, h3⟩ := hs
  simp only at h1 h2 h3
  rw [h1, List.append_assoc]
  apply spanDigits_append _ _ h2
  intro b t hb
  cases r with
  | nil => exact hr.notDigit b t (by simpa using hb)
  | cons c r => simp only [List.cons_append, List.cons.injEq] at hb; rw [← hb.1]; exact h3 c r rfl

theorem digits1_ext {s d r rest : Str} (h : digits1 s = .ok (d, r)) (hr : Delim rest) :
    digits1 (s ++ rest) = .ok (d, r ++ rest) := by
  cases s with
  | nil => simp [digits1] at h
  | cons b s =>
    simp only [digits1, List.cons_append] at h ⊢
    split at h
    · rename_i hb
      rw [if_pos hb]
      simp only [Except.ok.injEq] at h
      have := spanDigits_ext h hr
      simp only [List.cons_append] at this
      rw [this]
    · cases h

theorem parseIntPart_ext {s d r rest : Str} (h : parseIntPart s = .ok (d, r)) (hr : Delim rest) :
    parseIntPart (s ++ rest) = .ok (d, r ++ rest) := by
  cases s with
  | nil => simp [parseIntPart] at h
  | cons b s =>
    simp only [parseIntPart, List.cons_append] at h ⊢
    split at h
    · rename_i hb
      rw [if_pos hb]
      cases s with
      | nil =>
        simp only [Except.ok.injEq, Prod.mk.injEq] at h
        obtain ⟨rfl, rfl⟩ := h
        simp only [List.nil_append]
        cases rest with
        | nil => rfl
        | cons c rest => simp [hr.1]
      | cons c s =>
        simp only [List.cons_append] at h ⊢
        split at h
        · cases h
        · rename_i hc
          simp only [Except.ok.injEq, Prod.mk.injEq] at h
          obtain ⟨rfl, rfl⟩ := h
          rw [if_neg hc]; rfl
    · rename_i hb
      rw [if_neg hb]
      split at h
      · rename_i hd
        rw [if_pos hd]
        simp only [Except.ok.injEq] at h
        have := spanDigits_ext h hr
        simp only [List.cons_append] at this
        rw [this]
      · cases h

theorem parseFrac_ext {s d r rest : Str} (h : parseFrac s = .ok (d, r)) (hr : Delim rest) :
    parseFrac (s ++ rest) = .ok (d, r ++ rest) := by
  cases s with
  | nil =>
    simp only [parseFrac, Except.ok.injEq, Prod.mk.injEq] at h
    obtain ⟨rfl, rfl⟩ := h
    exact parseFrac_delim hr
  | cons b s =>
    simp only [parseFrac, List.cons_append] at h ⊢
    split at h
    · rename_i hb
      rw [if_pos hb]
      obtain ⟨⟨d', r'⟩, h1, h2⟩ := except_bind_ok.1 h
      simp only [Except.ok.injEq, Prod.mk.injEq] at h2
      obtain ⟨rfl, rfl⟩ := h2
      rw [digits1_ext h1 hr]
      rfl
    · rename_i hb
      rw [if_neg hb]
      simp only [Except.ok.injEq, Prod.mk.injEq] at h
      obtain ⟨rfl, rfl⟩ := h
      rfl

theorem parseExp_ext {s d r rest : Str} (h : parseExp s = .ok (d, r)) (hr : Delim rest) :
    parseExp (s ++ rest) = .ok (d, r ++ rest) := by
  cases s with
  | nil =>
    simp only [parseExp, Except.ok.injEq, Prod.mk.injEq] at h
    obtain ⟨rfl, rfl⟩ := h
    exact parseExp_delim hr
  | cons b s =>
    simp only [parseExp, List.cons_append] at h ⊢
    split at h
    · rename_i hb
      rw [if_pos hb]
      cases s with
      | nil => cases h
      | cons c s =>
        simp only [List.cons_append] at h ⊢
        split at h
        · rename_i hc
          rw [if_pos hc]
          obtain ⟨⟨d', r'⟩, h1, h2⟩ := except_bind_ok.1 h
          simp only [Except.ok.injEq, Prod.mk.injEq] at h2
          obtain ⟨rfl, rfl⟩ := h2
          rw [digits1_ext h1 hr]
          rfl
        · rename_i hc
          rw [if_neg hc]
          obtain ⟨⟨d', r'⟩, h1, h2⟩ := except_bind_ok.1 h
          simp only [Except.ok.injEq, Prod.mk.injEq] at h2
          obtain ⟨rfl, rfl⟩ := h2
          have := digits1_ext h1 hr
          simp only [List.cons_append] at this
          rw [this]
          rfl
    · rename_i hb
      rw [if_neg hb]
      simp only [Except.ok.injEq, Prod.mk.injEq] at h
      obtain ⟨rfl, rfl⟩ := h
      rfl

theorem parseNum_ext {neg : Bool} {s r rest : Str} {tok : NumTok} (h : parseNum neg s = .ok (tok, r))
    (hr : Delim rest) : parseNum neg (s ++ rest) = .ok (tok, r ++ rest) := by
  unfold parseNum at h ⊢
  obtain ⟨⟨i, r1⟩, h1, h⟩ := except_bind_ok.1 h
  obtain ⟨⟨f, r2⟩, h2, h⟩ := except_bind_ok.1 h
  obtain ⟨⟨e, r3⟩, h3, h⟩ := except_bind_ok.1 h
  simp only [Except.ok.injEq, Prod.mk.injEq] at h
  obtain ⟨rfl, rfl⟩ := h
  rw [parseIntPart_ext h1 hr]
  simp only [bind, Except.bind]
  rw [parseFrac_ext h2 hr]
  simp only
  rw [parseExp_ext h3 hr]

/-! ## Values -/

/-- The token of a number (`none` for a float whose text is not one). -/
def numTok : Num → Option NumTok
  | .pos n => some ⟨false, decimal n, []⟩
  | .neg n => some ⟨true, decimal n, []⟩
  | .flt t => fltTok t

/-- The number has a token. -/
def Num.Ok (n : Num) : Prop := (numTok n).isSome

mutual
/-- All numbers in a value have a token. -/
def Value.NumsOk : Value → Prop
  | .null => True
  | .bool _ => True
  | .num n => n.Ok
  | .str _ => True
  | .arr l => Value.NumsOkL l
  | .obj m => Value.NumsOkM m
/-- See `Value.NumsOk`. -/
def Value.NumsOkL : List Value → Prop
  | [] => True
  | v :: r => v.NumsOk ∧ Value.NumsOkL r
/-- See `Value.NumsOk`. -/
def Value.NumsOkM : List (Str × Value) → Prop
  | [] => True
  | (_, v) :: r => v.NumsOk ∧ Value.NumsOkM r
end

mutual
/-- The tree that parsing the printed value gives. -/
def Value.tree : Value → Tree
  | .null => .null
  | .bool b => .bool b
  | .num n => .num ((numTok n).getD ⟨false, [], []⟩)
  | .str s => .str (strTokOf s)
  | .arr l => .arr (Value.trees l)
  | .obj m => .obj (Value.treeMembers m)
/-- See `Value.tree`. -/
def Value.trees : List Value → List Tree
  | [] => []
  | v :: r => v.tree :: Value.trees r
/-- See `Value.tree`. -/
def Value.treeMembers : List (Str × Value) → List (StrTok × Tree)
  | [] => []
  | (k, v) :: r => (strTokOf k, v.tree) :: Value.treeMembers r
end

/-- Not white space. -/
def NotWs (s : Str) : Prop := ∃ b r, s = b :: r ∧ isWs b = false

theorem skipWs_of_notWs {s : Str} (h : NotWs s) : skipWs s = s := by
  obtain ⟨b, r, rfl, hb⟩ := h
  simp [skipWs, hb]

theorem digit_class : ∀ b : UInt8, isDigit b = true →
    isWs b = false ∧ b ≠ 0x6E ∧ b ≠ 0x74 ∧ b ≠ 0x66 ∧ b ≠ 0x2D ∧ b ≠ 0x5D ∧ b ≠ 0x7D := by
  apply UInt8.forall_of_fin
  decide +kernel

theorem fltTok_some {t : Str} {tok : NumTok} (h : fltTok t = some tok) :
    (∃ r, t = 0x2D :: r ∧ parseNum true r = .ok (tok, [])) ∨
    (∃ b r, t = b :: r ∧ isDigit b = true ∧ parseNum false (b :: r) = .ok (tok, [])) := by
  unfold fltTok at h
  split at h
  · cases h
  · rename_i b r
    split at h
    · rename_i tok' heq
      split at h
      · cases h
      · cases h
        by_cases hb : b = 0x2D
        · rw [if_pos hb] at heq; subst hb; exact .inl ⟨r, rfl, heq⟩
        · rw [if_neg hb] at heq
          refine .inr ⟨b, r, rfl, ?_, heq⟩
          unfold parseNum at heq
          obtain ⟨x, h1, -⟩ := except_bind_ok.1 heq
          simp only [parseIntPart] at h1
          split at h1
          · rename_i hb; rw [hb]; rfl
          · split at h1
            · assumption
            · cases h1
    · cases h

/-- What a printed value starts with. -/
theorem Value.print_head (v : Value) (hv : v.NumsOk) :
    ∃ b r, v.print = b :: r ∧ isWs b = false ∧ b ≠ 0x5D ∧ b ≠ 0x7D := by
  cases v with
  | null => exact ⟨_, _, rfl, rfl, by decide, by decide⟩
  | bool b => cases b <;> exact ⟨_, _, rfl, rfl, by decide, by decide⟩
  | num n =>
    cases n with
    | pos n =>
      obtain ⟨b, r, hb, hd, -⟩ := decimal_head n
      have := digit_class b hd
      exact ⟨b, r, hb, this.1, this.2.2.2.2.2.1, this.2.2.2.2.2.2⟩
    | neg n => exact ⟨_, _, rfl, rfl, by decide, by decide⟩
    | flt t =>
      simp only [Value.NumsOk, Num.Ok, numTok, Option.isSome_iff_exists] at hv
      obtain ⟨tok, hv⟩ := hv
      rcases fltTok_some hv with ⟨r, rfl, -⟩ | ⟨b, r, rfl, hb, -⟩
      · exact ⟨_, _, rfl, rfl, by decide, by decide⟩
      · have := digit_class b hb
        exact ⟨b, r, rfl, this.1, this.2.2.2.2.2.1, this.2.2.2.2.2.2⟩
  | str s => exact ⟨_, _, rfl, rfl, by decide, by decide⟩
  | arr l => cases l <;> exact ⟨_, _, rfl, rfl, by decide, by decide⟩
  | obj m =>
    cases m with
    | nil => exact ⟨_, _, rfl, rfl, by decide, by decide⟩
    | cons p m => obtain ⟨k, v⟩ := p; exact ⟨_, _, rfl, rfl, by decide, by decide⟩

theorem parseVal_num_pos (f : Nat) (n : Nat) (rest : Str) (hr : Delim rest) :
    parseVal (f + 1) (decimal n ++ rest) = .ok (.num ⟨false, decimal n, []⟩, rest) := by
  obtain ⟨b, r, hb, hd, -⟩ := decimal_head n
  have hc := digit_class b hd
  have hp := parseNum_decimal false n rest hr
  rw [hb] at hp ⊢
  simp only [List.cons_append] at hp ⊢
  rw [parseVal]
  rw [skipWs_of_notWs ⟨b, _, rfl, hc.1⟩]
  simp only [hc.2.1, hc.2.2.1, hc.2.2.2.1, hc.2.2.2.2.1, if_false, hd, if_true, hp, bind, Except.bind]

theorem parseVal_num_neg (f : Nat) (n : Nat) (rest : Str) (hr : Delim rest) :
    parseVal (f + 1) (0x2D :: (decimal n ++ rest)) = .ok (.num ⟨true, decimal n, []⟩, rest) := by
  rw [parseVal]
  rw [skipWs_of_notWs ⟨_, _, rfl, rfl⟩]
  simp [parseNum_decimal true n rest hr, bind, Except.bind]

theorem parseVal_flt (f : Nat) (t : Str) (tok : NumTok) (ht : fltTok t = some tok) (rest : Str) (hr : Delim rest) :
    parseVal (f + 1) (t ++ rest) = .ok (.num tok, rest) := by
  rcases fltTok_some ht with ⟨r, rfl, hp⟩ | ⟨b, r, rfl, hd, hp⟩
  · have := parseNum_ext hp hr
    rw [parseVal, List.cons_append]
    rw [skipWs_of_notWs ⟨_, _, rfl, rfl⟩]
    simp [this, bind, Except.bind]
  · have hc := digit_class b hd
    have hp := parseNum_ext hp hr
    simp only [List.cons_append, List.nil_append] at hp ⊢
    rw [parseVal]
    rw [skipWs_of_notWs ⟨b, _, rfl, hc.1⟩]
    simp only [hc.2.1, hc.2.2.1, hc.2.2.2.1, hc.2.2.2.2.1, if_false, hd, if_true, hp, bind, Except.bind]

theorem parseVal_str (f : Nat) (s rest : Str) :
    parseVal (f + 1) (quoteStr s ++ rest) = .ok (.str (strTokOf s), rest) := by
  have := parseStr_escStr s rest
  rw [quoteStr, parseVal, List.cons_append]
  rw [skipWs_of_notWs ⟨_, _, rfl, rfl⟩]
  simp [isDigit, this, bind, Except.bind]

theorem delim_comma (s : Str) : Delim (0x2C :: s) := ⟨rfl, by decide, by decide, by decide⟩
theorem delim_rbracket (s : Str) : Delim (0x5D :: s) := ⟨rfl, by decide, by decide, by decide⟩
theorem delim_rbrace (s : Str) : Delim (0x7D :: s) := ⟨rfl, by decide, by decide, by decide⟩

theorem delim_printTail (l : List Value) (s : Str) : Delim (Value.printTail l ++ s) := by
  cases l with
  | nil => rw [Value.printTail]; exact delim_rbracket _
  | cons v l => rw [Value.printTail]; exact delim_comma _

theorem delim_printMembers (l : List (Str × Value)) (s : Str) : Delim (Value.printMembers l ++ s) := by
  cases l with
  | nil => rw [Value.printMembers]; exact delim_rbrace _
  | cons p l => obtain ⟨k, v⟩ := p; rw [Value.printMembers]; exact delim_comma _

theorem Value.print_pos (v : Value) (hv : v.NumsOk) : 1 ≤ v.print.length := by
  obtain ⟨b, r, h, -⟩ := Value.print_head v hv
  rw [h]; simp

theorem printTail_pos (l : List Value) : 1 ≤ (Value.printTail l).length := by
  cases l <;> simp [Value.printTail]

theorem printMembers_pos (l : List (Str × Value)) : 1 ≤ (Value.printMembers l).length := by
  cases l <;> simp [Value.printMembers]

theorem fuel_pos {v : Value} (hv : v.NumsOk) {f : Nat} (hf : v.print.length ≤ f) : ∃ g, f = g + 1 :=
  ⟨f - 1, by have := Value.print_pos v hv; omega⟩

mutual
theorem parseVal_print : ∀ (v : Value) (_ : v.NumsOk) (f : Nat) (_ : v.print.length ≤ f) (rest : Str)
    (_ : Delim rest), parseVal f (v.print ++ rest) = .ok (v.tree, rest)
  | .null, hv, f, hf, rest, hr => by
    obtain ⟨f, rfl⟩ := fuel_pos hv hf
    rw [Value.print, parseVal, List.cons_append]
    rw [skipWs_of_notWs ⟨_, _, rfl, rfl⟩]
    simp [parseIdent, bind, Except.bind, Value.tree]
  | .bool true, hv, f, hf, rest, hr => by
    obtain ⟨f, rfl⟩ := fuel_pos hv hf
    rw [Value.print, parseVal, List.cons_append]
    rw [skipWs_of_notWs ⟨_, _, rfl, rfl⟩]
    simp [parseIdent, bind, Except.bind, Value.tree]
  | .bool false, hv, f, hf, rest, hr => by
    obtain ⟨f, rfl⟩ := fuel_pos hv hf
    rw [Value.print, parseVal, List.cons_append]
    rw [skipWs_of_notWs ⟨_, _, rfl, rfl⟩]
    simp [parseIdent, bind, Except.bind, Value.tree]
  | .num (.pos n), hv, f, hf, rest, hr => by
    obtain ⟨f, rfl⟩ := fuel_pos hv hf
    rw [Value.print, printNum, parseVal_num_pos _ _ _ hr]; rfl
  | .num (.neg n), hv, f, hf, rest, hr => by
    obtain ⟨f, rfl⟩ := fuel_pos hv hf
    rw [Value.print, printNum, List.cons_append, parseVal_num_neg _ _ _ hr]; rfl
  | .num (.flt t), hv, f, hf, rest, hr => by
    obtain ⟨f, rfl⟩ := fuel_pos hv hf
    simp only [Value.NumsOk, Num.Ok, numTok, Option.isSome_iff_exists] at hv
    obtain ⟨tok, hv⟩ := hv
    rw [Value.print, printNum, parseVal_flt _ _ _ hv _ hr]
    simp [Value.tree, numTok, hv]
  | .str s, hv, f, hf, rest, hr => by
    obtain ⟨f, rfl⟩ := fuel_pos hv hf
    rw [Value.print, parseVal_str]; rfl
  | .arr [], hv, f, hf, rest, hr => by
    obtain ⟨f, rfl⟩ := fuel_pos hv hf
    rw [Value.print, parseVal, List.cons_append]
    rw [skipWs_of_notWs ⟨_, _, rfl, rfl⟩]
    simp [skipWs, isWs, isDigit, Value.tree, Value.trees]
  | .arr (v :: l), hv, f, hf, rest, hr => by
    obtain ⟨f, rfl⟩ := fuel_pos hv hf
    simp only [Value.NumsOk] at hv
    have ih := parseElems_print v l hv f (by
      simp only [Value.print, List.length_cons, List.length_append] at hf ⊢; omega) rest
    obtain ⟨b, r, hb, hw, h1, h2⟩ := Value.print_head v hv.1
    rw [Value.print, parseVal, List.cons_append]
    rw [skipWs_of_notWs ⟨_, _, rfl, rfl⟩]
    simp only [List.append_assoc] at ih ⊢
    rw [hb] at ih ⊢
    simp only [List.cons_append] at ih ⊢
    rw [skipWs_of_notWs ⟨_, _, rfl, hw⟩]
    simp [isDigit, h1, ih, bind, Except.bind, Value.tree]
  | .obj [], hv, f, hf, rest, hr => by
    obtain ⟨f, rfl⟩ := fuel_pos hv hf
    rw [Value.print, parseVal, List.cons_append]
    rw [skipWs_of_notWs ⟨_, _, rfl, rfl⟩]
    simp [skipWs, isWs, isDigit, Value.tree, Value.treeMembers]
  | .obj ((k, v) :: m), hv, f, hf, rest, hr => by
    obtain ⟨f, rfl⟩ := fuel_pos hv hf
    simp only [Value.NumsOk] at hv
    have ih := parseMembers_print k v m hv f (by
      simp only [Value.print, List.length_cons, List.length_append] at hf ⊢; omega) rest
    rw [Value.print, parseVal, List.cons_append]
    rw [skipWs_of_notWs ⟨_, _, rfl, rfl⟩]
    simp only [quoteStr, List.cons_append, List.append_assoc] at ih ⊢
    rw [skipWs_of_notWs ⟨_, _, rfl, rfl⟩]
    simp only [isDigit, ih, bind, Except.bind, Value.tree]
    rfl
  termination_by v => sizeOf v

theorem parseElems_print : ∀ (v : Value) (l : List Value) (_ : Value.NumsOkL (v :: l)) (f : Nat)
    (_ : (v.print ++ Value.printTail l).length ≤ f) (rest : Str),
    parseElems f (v.print ++ (Value.printTail l ++ rest)) = .ok (Value.trees (v :: l), rest)
  | v, [], hv, f, hf, rest => by
    simp only [List.length_append] at hf
    have h2 := printTail_pos []
    obtain ⟨f, rfl⟩ := fuel_pos hv.1 (f := f) (by omega)
    have ih := parseVal_print v hv.1 f (by omega) (Value.printTail [] ++ rest) (delim_printTail [] rest)
    rw [parseElems]
    simp only [ih, bind, Except.bind]
    rw [Value.printTail]
    simp only [List.cons_append, List.nil_append]
    rw [skipWs_of_notWs ⟨_, _, rfl, rfl⟩]
    simp [Value.trees]
  | v, w :: l, hv, f, hf, rest => by
    simp only [List.length_append] at hf
    have h2 := printTail_pos (w :: l)
    have h1 := Value.print_pos v hv.1
    obtain ⟨f, rfl⟩ := fuel_pos hv.1 (f := f) (by omega)
    have ih := parseVal_print v hv.1 f (by omega) (Value.printTail (w :: l) ++ rest) (delim_printTail (w :: l) rest)
    rw [parseElems]
    simp only [ih, bind, Except.bind]
    have ih2 := parseElems_print w l hv.2 f (by
      simp only [Value.printTail, List.length_cons, List.length_append] at hf ⊢; omega) rest
    obtain ⟨b, r, hb, hw, h1, h2⟩ := Value.print_head w hv.2.1
    rw [Value.printTail]
    simp only [List.cons_append, List.append_assoc]
    rw [skipWs_of_notWs ⟨_, _, rfl, rfl⟩]
    rw [hb] at ih2 ⊢
    simp only [List.cons_append] at ih2 ⊢
    rw [skipWs_of_notWs ⟨_, _, rfl, hw⟩]
    simp [h1, ih2, Value.trees]
  termination_by v l => sizeOf v + sizeOf l

theorem parseMembers_print : ∀ (k : Str) (v : Value) (l : List (Str × Value))
    (_ : Value.NumsOkM ((k, v) :: l))
    (f : Nat) (_ : (quoteStr k ++ 0x3A :: (v.print ++ Value.printMembers l)).length ≤ f) (rest : Str),
    parseMembers f (quoteStr k ++ 0x3A :: (v.print ++ (Value.printMembers l ++ rest)))
      = .ok (Value.treeMembers ((k, v) :: l), rest)
  | k, v, [], hv, f, hf, rest => by
    simp only [List.length_append, List.length_cons] at hf
    have h1 := Value.print_pos v hv.1
    obtain ⟨f, rfl⟩ := fuel_pos hv.1 (f := f) (by omega)
    have ih := parseVal_print v hv.1 f (by omega) (Value.printMembers [] ++ rest) (delim_printMembers [] rest)
    have hs := parseStr_escStr k (0x3A :: (v.print ++ (Value.printMembers [] ++ rest)))
    rw [parseMembers, quoteStr]
    rw [List.cons_append, skipWs_of_notWs ⟨_, _, rfl, rfl⟩]
    simp only [List.append_assoc, List.cons_append, List.nil_append, if_true, hs, bind, Except.bind]
    rw [skipWs_of_notWs ⟨_, _, rfl, rfl⟩]
    simp only [if_true, ih]
    rw [Value.printMembers]
    simp only [List.cons_append, List.nil_append]
    rw [skipWs_of_notWs ⟨_, _, rfl, rfl⟩]
    simp [Value.treeMembers]
  | k, v, (k2, w) :: l, hv, f, hf, rest => by
    simp only [List.length_append, List.length_cons] at hf
    have h1 := Value.print_pos v hv.1
    obtain ⟨f, rfl⟩ := fuel_pos hv.1 (f := f) (by omega)
    have ih := parseVal_print v hv.1 f (by omega) (Value.printMembers ((k2, w) :: l) ++ rest)
      (delim_printMembers ((k2, w) :: l) rest)
    have hs := parseStr_escStr k (0x3A :: (v.print ++ (Value.printMembers ((k2, w) :: l) ++ rest)))
    rw [parseMembers, quoteStr]
    rw [List.cons_append, skipWs_of_notWs ⟨_, _, rfl, rfl⟩]
    simp only [List.append_assoc, List.cons_append, List.nil_append, if_true, hs, bind, Except.bind]
    rw [skipWs_of_notWs ⟨_, _, rfl, rfl⟩]
    simp only [if_true, ih]
    have ih2 := parseMembers_print k2 w l hv.2 f (by
      simp only [Value.printMembers, List.length_cons, List.length_append] at hf ⊢; omega) rest
    rw [Value.printMembers]
    simp only [List.cons_append, List.append_assoc]
    rw [skipWs_of_notWs ⟨_, _, rfl, rfl⟩]
    simp [ih2, Value.treeMembers]
  termination_by k v l => sizeOf v + sizeOf l
end

/-- Parsing printed JSON gives back its structure. -/
theorem parseJson_print (v : Value) (hv : v.NumsOk) : parseJson v.print = .ok v.tree := by
  unfold parseJson
  have := parseVal_print v hv (2 * v.print.length + 2) (by omega) [] trivial
  rw [List.append_nil] at this
  rw [this]
  rfl

end DIDComm
