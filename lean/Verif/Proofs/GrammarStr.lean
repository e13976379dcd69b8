import Verif.Spec.Grammar
import Verif.Proofs.Utf8Spec
import Verif.Proofs.JsonPrint

/-! # The lexer of strings against the grammar -/

set_option autoImplicit false

namespace DIDComm

/-! ## Escapes -/

theorem hexVal_iff (b : UInt8) (n : Nat) : hexVal b = some n ↔ HexDigit b n := by
  unfold hexVal HexDigit
  simp only
  split
  · simp only [Option.some.injEq]; omega
  · split
    · simp only [Option.some.injEq]; omega
    · split
      · simp only [Option.some.injEq]; omega
      · simp only [reduceCtorEq, false_iff]; omega

theorem hex4_iff (a b c d : UInt8) (u : Nat) : hex4 a b c d = some u ↔ UnitEsc [0x5C, 0x75, a, b, c, d] u := by
  unfold hex4 UnitEsc
  simp only [Option.bind_eq_bind, Option.bind_eq_some_iff, hexVal_iff, Option.some.injEq]
  constructor
  · rintro ⟨x, h1, y, h2, z, h3, w, h4, rfl⟩
    exact ⟨a, b, c, d, x, y, z, w, rfl, h1, h2, h3, h4, by omega⟩
  · rintro ⟨a', b', c', d', x, y, z, w, he, h1, h2, h3, h4, rfl⟩
    simp only [List.cons.injEq, true_and, and_true] at he
    obtain ⟨rfl, rfl, rfl, rfl⟩ := he
    exact ⟨x, h1, y, h2, z, h3, w, h4, by omega⟩

theorem UnitEsc.form {e : Str} {u : Nat} (h : UnitEsc e u) :
    ∃ a b c d, e = [0x5C, 0x75, a, b, c, d] ∧ hex4 a b c d = some u := by
  have h' := h
  obtain ⟨a, b, c, d, _, _, _, _, rfl, -⟩ := h
  exact ⟨a, b, c, d, rfl, (hex4_iff ..).2 h'⟩

theorem simpleEsc_iff (b x : UInt8) : simpleEsc b = some x ↔ ∃ c, ShortEsc b c ∧ x = UInt8.ofNat c.val.toNat := by
  constructor
  · unfold simpleEsc
    intro h
    repeat' (split at h; · rename_i e; subst e; cases h; exact ⟨_, by constructor, by decide⟩)
    cases h
  · rintro ⟨c, hc, rfl⟩
    cases hc <;> decide

theorem ShortEsc.ascii {b : UInt8} {c : Char} (h : ShortEsc b c) : c.val.toNat < 0x80 ∧ b ≠ 0x75 := by
  cases h <;> decide

/-! ## The lexer -/

/-- The pieces of a text between quotes. -/
inductive Lex : Str → Bool → List StrItem → Prop
  | nil : Lex [] false []
  | plain {t : Str} {e : Bool} {is : List StrItem} (b : UInt8) (h1 : b ≠ 0x22) (h2 : b ≠ 0x5C) (h3 : 0x20 ≤ b) (h : Lex t e is) :
      Lex (b :: t) e (.byte b :: is)
  | short {t : Str} {e : Bool} {is : List StrItem} {b : UInt8} {c : Char} (hb : ShortEsc b c) (h : Lex t e is) :
      Lex (0x5C :: b :: t) true (.byte (UInt8.ofNat c.val.toNat) :: is)
  | unit {t e : Str} {u : Nat} {f : Bool} {is : List StrItem} (he : UnitEsc e u) (h : Lex t f is) : Lex (e ++ t) true (.unit u :: is)

theorem lexStr_of_lex {u : Str} {e : Bool} {is : List StrItem} (h : Lex u e is) (rest : Str) :
    lexStr (u ++ 0x22 :: rest) = .ok ((e, is), rest) := by
  induction h with
  | nil => exact lexStr_quote rest
  | plain b h1 h2 h3 _ ih =>
    rw [List.cons_append, lexStr_plain h1 h2 (by rw [u8_lt]; have : (0x20 : UInt8).toNat ≤ b.toNat := h3; omega), ih]; rfl
  | short hb _ ih =>
    simp only [List.cons_append]
    rw [lexStr_simple hb.ascii.2 ((simpleEsc_iff _ _).2 ⟨_, hb, rfl⟩), ih]; rfl
  | unit he _ ih =>
    obtain ⟨a, b, c, d, rfl, hx⟩ := he.form
    simp only [List.cons_append, List.nil_append]
    rw [lexStr_unit hx, ih]; rfl

theorem lex_of_lexStr {s : Str} {e : Bool} {is : List StrItem} {rest : Str} (h : lexStr s = .ok ((e, is), rest)) :
    ∃ u, Lex u e is ∧ s = u ++ 0x22 :: rest := by
  fun_induction lexStr s generalizing e is rest with
  | case1 => cases h
  | case2 => cases h; exact ⟨[], .nil, by simp_all⟩
  | case3 => cases h
  | case4 => cases h
  | case5 h1 h2 h3 h4 r2 u hx _ ih =>
    obtain ⟨⟨⟨e', is'⟩, r'⟩, g, h⟩ := except_bind_ok.1 h
    cases h
    obtain ⟨t, ht, rfl⟩ := ih g
    exact ⟨_, .unit ((hex4_iff ..).1 hx) ht, by simp⟩
  | case6 => cases h
  | case7 => cases h
  | case8 c r1 hc x hx _ ih =>
    obtain ⟨⟨⟨e', is'⟩, r'⟩, g, h⟩ := except_bind_ok.1 h
    cases h
    obtain ⟨t, ht, rfl⟩ := ih g
    obtain ⟨ch, hb, rfl⟩ := (simpleEsc_iff _ _).1 hx
    exact ⟨_, .short hb ht, by simp⟩
  | case9 => cases h
  | case10 b r h1 h2 h3 ih => 
    obtain ⟨⟨⟨e', is'⟩, r'⟩, g, h⟩ := except_bind_ok.1 h
    cases h
    obtain ⟨t, ht, rfl⟩ := ih g
    exact ⟨_, .plain b h1 h2 (by rw [u8_lt] at h3; exact Nat.not_lt.1 h3) ht, by simp⟩

theorem Lex.unique {u : Str} {e e' : Bool} {is is' : List StrItem} (h : Lex u e is) (h' : Lex u e' is') : e = e' ∧ is = is' := by
  have a := lexStr_of_lex h []
  rw [lexStr_of_lex h' []] at a
  cases a
  exact ⟨rfl, rfl⟩

theorem strForm_iff (u : Str) (e : Bool) : StrForm u e ↔ ∃ is, Lex u e is := by
  constructor
  · intro h
    induction h with
    | nil => exact ⟨_, .nil⟩
    | plain b h1 h2 h3 _ ih => obtain ⟨is, ih⟩ := ih; exact ⟨_, .plain b h1 h2 h3 ih⟩
    | short hb _ ih => obtain ⟨is, ih⟩ := ih; exact ⟨_, .short hb ih⟩
    | unit he _ ih => obtain ⟨is, ih⟩ := ih; exact ⟨_, .unit he ih⟩
  · rintro ⟨is, h⟩
    induction h with
    | nil => exact .nil
    | plain b h1 h2 h3 _ ih => exact .plain b h1 h2 h3 ih
    | short hb _ ih => exact .short hb ih
    | unit he _ ih => exact .unit he ih

/-! ## Values of strings -/

theorem assemble_byte (b : UInt8) (is : List StrItem) : assemble (.byte b :: is) = (assemble is).map (b :: ·) := by
  rw [assemble]

theorem assemble_bytes (bs : Bytes) (is : List StrItem) :
    assemble (bs.map .byte ++ is) = (assemble is).map (bs ++ ·) := by
  induction bs with
  | nil => simp
  | cons b bs ih => simp only [List.map_cons, List.cons_append, assemble_byte, ih]; cases assemble is <;> rfl

theorem assemble_code {u : Nat} (h1 : ¬ LowSurrogate u) (h2 : ¬ HighSurrogate u) (is : List StrItem) :
    assemble (.unit u :: is) = (assemble is).map (encodeUtf8 u ++ ·) := by
  rw [assemble.eq_def]; simp only []
  rw [if_neg (show ¬ (0xDC00 ≤ u ∧ u ≤ 0xDFFF) from h1), if_neg (show ¬ (0xD800 ≤ u ∧ u ≤ 0xDBFF) from h2)]

theorem assemble_pair {u v : Nat} (h1 : HighSurrogate u) (h2 : LowSurrogate v) (is : List StrItem) :
    assemble (.unit u :: .unit v :: is) =
      (assemble is).map (encodeUtf8 (0x10000 + (u - 0xD800) * 1024 + (v - 0xDC00)) ++ ·) := by
  have h3 : ¬ (0xDC00 ≤ u ∧ u ≤ 0xDFFF) := by have := h1.2; omega
  rw [assemble.eq_def]; simp only []
  rw [if_neg h3, if_pos (show 0xD800 ≤ u ∧ u ≤ 0xDBFF from h1), if_pos (show 0xDC00 ≤ v ∧ v ≤ 0xDFFF from h2)]

/-- The bytes of a character: one ASCII byte, or a start byte and continuation bytes. -/
theorem encode_bytes (c : Char) :
    (c.val.toNat < 0x80 ∧ String.utf8EncodeChar c = [UInt8.ofNat c.val.toNat]) ∨
    (0x80 ≤ c.val.toNat ∧ ∃ a k, String.utf8EncodeChar c = a :: k ∧ 0xC0 ≤ a.toNat ∧ ∀ x ∈ k, 0x80 ≤ x.toNat ∧ x.toNat < 0xC0) := by
  have hv := char_valid c
  rw [← encodeUtf8_char]
  generalize c.val.toNat = n at hv
  unfold encodeUtf8
  split
  · rename_i h; exact .inl ⟨h, rfl⟩
  · refine .inr ⟨by omega, ?_⟩
    split
    · refine ⟨_, _, rfl, ?_, ?_⟩
      · rw [u8_ofNat (by omega)]; omega
      · intro x hx; simp only [List.mem_cons, List.not_mem_nil, or_false] at hx; subst hx; rw [u8_ofNat (by omega)]; omega
    · split
      · refine ⟨_, _, rfl, ?_, ?_⟩
        · rw [u8_ofNat (by omega)]; omega
        · intro x hx; simp only [List.mem_cons, List.not_mem_nil, or_false] at hx
          rcases hx with rfl | rfl <;> rw [u8_ofNat (by omega)] <;> omega
      · refine ⟨_, _, rfl, ?_, ?_⟩
        · rw [u8_ofNat (by omega)]; omega
        · intro x hx; simp only [List.mem_cons, List.not_mem_nil, or_false] at hx
          rcases hx with rfl | rfl | rfl <;> rw [u8_ofNat (by omega)] <;> omega

theorem encode_ascii {c : Char} (h : c.val.toNat < 0x80) : String.utf8EncodeChar c = [UInt8.ofNat c.val.toNat] := by
  rcases encode_bytes c with ⟨_, e⟩ | ⟨h', _⟩
  · exact e
  · omega

theorem Lex.bytes {t : Str} {e : Bool} {is : List StrItem} (bs : Bytes) (hb : ∀ b ∈ bs, 0x80 ≤ b.toNat) (h : Lex t e is) :
    Lex (bs ++ t) e (bs.map .byte ++ is) := by
  induction bs with
  | nil => exact h
  | cons b bs ih =>
    have hb' := hb b (by simp)
    refine .plain b ?_ ?_ ?_ (ih fun x hx => hb x (by simp [hx]))
    · rintro rfl; revert hb'; decide
    · rintro rfl; revert hb'; decide
    · exact Nat.le_trans (by decide : (0x20 : UInt8).toNat ≤ 0x80) hb'

theorem char_ext {c d : Char} (h : c.val.toNat = d.val.toNat) : c = d := Char.ext (UInt32.toNat_inj.1 h)

/-- A text with a meaning is lexed, and assembled to the encoding of the characters meant. -/
theorem StrText.lex {u : Str} {cs : List Char} (h : StrText u cs) :
    ∃ e is, Lex u e is ∧ assemble is = some (utf8 cs) := by
  induction h with
  | nil => exact ⟨_, _, .nil, rfl⟩
  | @plain t cs c h1 h2 h3 _ ih =>
    obtain ⟨e, is, hl, ha⟩ := ih
    rcases encode_bytes c with ⟨hc, he⟩ | ⟨hc, a, k, he, hka, hk⟩
    · refine ⟨e, .byte (UInt8.ofNat c.val.toNat) :: is, ?_, ?_⟩
      · rw [he]
        refine .plain _ ?_ ?_ ?_ hl
        · intro hh
          refine h1 (char_ext ?_)
          have := congrArg UInt8.toNat hh
          rw [u8_ofNat (by omega)] at this
          rw [this]; rfl
        · intro hh
          refine h2 (char_ext ?_)
          have := congrArg UInt8.toNat hh
          rw [u8_ofNat (by omega)] at this
          rw [this]; rfl
        · have h3' : (0x20 : UInt32).toNat ≤ c.val.toNat := h3
          show (0x20 : UInt8).toNat ≤ (UInt8.ofNat c.val.toNat).toNat
          rw [u8_ofNat (by omega)]
          exact h3'
      · rw [assemble_byte, ha, utf8_cons, he]; rfl
    · refine ⟨e, (String.utf8EncodeChar c).map .byte ++ is, hl.bytes _ ?_, ?_⟩
      · rw [he]
        intro b hb
        rcases List.mem_cons.1 hb with rfl | hb
        · omega
        · exact (hk b hb).1
      · rw [assemble_bytes, ha, utf8_cons]; rfl
  | @short t cs b c hb _ ih =>
    obtain ⟨e, is, hl, ha⟩ := ih
    exact ⟨_, _, .short hb hl, by rw [assemble_byte, ha, utf8_cons, encode_ascii hb.ascii.1]; rfl⟩
  | @unit t e cs c he _ ih =>
    obtain ⟨f, is, hl, ha⟩ := ih
    have hv := char_valid c
    refine ⟨_, _, .unit he hl, ?_⟩
    rw [assemble_code (by unfold LowSurrogate; omega) (by unfold HighSurrogate; omega), ha, utf8_cons, encodeUtf8_char]; rfl
  | @pair t e1 e2 cs c u v h1 h2 hu hv hc _ ih =>
    obtain ⟨f, is, hl, ha⟩ := ih
    refine ⟨true, .unit u :: .unit v :: is, ?_, ?_⟩
    · rw [List.append_assoc]; exact .unit h1 (.unit h2 hl)
    · rw [assemble_pair hu hv, ha, utf8_cons, ← hc, encodeUtf8_char]; rfl

/-- If what a lexed text assembles to begins with continuation bytes, these are bytes of the text. -/
theorem Lex.conts {u : Str} {e : Bool} {is : List StrItem} (h : Lex u e is) (k : Bytes) {v : Bytes}
    (hk : ∀ x ∈ k, 0x80 ≤ x.toNat ∧ x.toNat < 0xC0) (ha : assemble is = some (k ++ v)) :
    ∃ u' is', u = k ++ u' ∧ Lex u' e is' ∧ assemble is' = some v := by
  induction k generalizing u is with
  | nil => exact ⟨u, is, rfl, h, ha⟩
  | cons x k ih =>
    have hx := hk x (by simp)
    have code : ∀ n r, n.isValidChar → some (encodeUtf8 n ++ r) = some (x :: (k ++ v)) → False := by
      intro n r hn hh
      obtain ⟨c, rfl⟩ := charOf hn
      rw [encodeUtf8_char] at hh
      rcases encode_bytes c with ⟨hc, he⟩ | ⟨hc, a, j, he, hka, hj⟩
      · rw [he] at hh
        simp only [List.singleton_append, Option.some.injEq, List.cons.injEq] at hh
        have := congrArg UInt8.toNat hh.1
        rw [u8_ofNat (by omega)] at this
        omega
      · rw [he] at hh
        simp only [List.cons_append, Option.some.injEq, List.cons.injEq] at hh
        rw [hh.1] at hka; omega
    cases h with
    | nil => cases ha
    | @plain t e is b h1 h2 h3 h =>
      rw [assemble_byte] at ha
      cases hh : assemble is with
      | none => rw [hh] at ha; cases ha
      | some r =>
        rw [hh] at ha
        simp only [Option.map_some, List.cons_append, Option.some.injEq, List.cons.injEq] at ha
        obtain ⟨rfl, rfl⟩ := ha
        obtain ⟨u', is', rfl, h', ha'⟩ := ih h (fun y hy => hk y (by simp [hy])) hh
        exact ⟨u', is', rfl, h', ha'⟩
    | @short t e is b c hb h =>
      rw [assemble_byte] at ha
      cases hh : assemble is with
      | none => rw [hh] at ha; cases ha
      | some r =>
        rw [hh] at ha
        simp only [Option.map_some, List.cons_append, Option.some.injEq, List.cons.injEq] at ha
        have := congrArg UInt8.toNat ha.1
        rw [u8_ofNat (by have := hb.ascii.1; omega)] at this
        have := hb.ascii.1
        omega
    | @unit t e u f is he h =>
      exfalso
      by_cases hl : LowSurrogate u
      · rw [assemble.eq_def] at ha; simp only [] at ha; rw [if_pos (show 0xDC00 ≤ u ∧ u ≤ 0xDFFF from hl)] at ha; cases ha
      · by_cases hh : HighSurrogate u
        · rw [assemble.eq_def] at ha; simp only [] at ha
          rw [if_neg (show ¬ (0xDC00 ≤ u ∧ u ≤ 0xDFFF) from hl), if_pos (show 0xD800 ≤ u ∧ u ≤ 0xDBFF from hh)] at ha
          split at ha
          · split at ha
            · rename_i w r' hw
              obtain ⟨r, -, hr⟩ := Option.map_eq_some_iff.1 ha
              exact code _ r (by have := hh.1; have := hh.2; simp only [Nat.isValidChar]; omega) (congrArg some hr)
            · cases ha
          · cases ha
        · rw [assemble_code hl hh] at ha
          obtain ⟨r, -, hr⟩ := Option.map_eq_some_iff.1 ha
          have hu : u < 65536 := by
            obtain ⟨_, _, _, _, x, y, z, w, -, h1, h2, h3, h4, rfl⟩ := he
            unfold HexDigit at h1 h2 h3 h4; omega
          unfold LowSurrogate at hl; unfold HighSurrogate at hh
          exact code _ r (by simp only [Nat.isValidChar]; omega) (congrArg some hr)

theorem UnitEsc.lt {e : Str} {u : Nat} (he : UnitEsc e u) : u < 65536 := by
  obtain ⟨_, _, _, _, x, y, z, w, -, h1, h2, h3, h4, rfl⟩ := he
  unfold HexDigit at h1 h2 h3 h4; omega

/-- No encoding of a code point is a prefix of another. -/
theorem encode_prefix {m n : Nat} (hm : m < 0x110000) (hn : n < 0x110000) {a b : Bytes} (h : encodeUtf8 m ++ a = encodeUtf8 n ++ b) :
    m = n ∧ a = b := by
  have inj : ∀ {x y : Nat}, UInt8.ofNat x = UInt8.ofNat y → x % 256 = y % 256 := by
    intro x y hxy
    have := congrArg UInt8.toNat hxy
    simpa using this
  unfold encodeUtf8 at h
  repeat' split at h
  all_goals simp only [List.cons_append, List.nil_append, List.cons.injEq] at h
  · exact ⟨by have := inj h.1; omega, h.2⟩
  · have := inj h.1; omega
  · have := inj h.1; omega
  · have := inj h.1; omega
  · have := inj h.1; omega
  · have := inj h.1; have := inj h.2.1; exact ⟨by omega, h.2.2⟩
  · have := inj h.1; omega
  · have := inj h.1; omega
  · have := inj h.1; omega
  · have := inj h.1; omega
  · have := inj h.1; have := inj h.2.1; have := inj h.2.2.1; exact ⟨by omega, h.2.2.2⟩
  · have := inj h.1; omega
  · have := inj h.1; omega
  · have := inj h.1; omega
  · have := inj h.1; omega
  · have := inj h.1; have := inj h.2.1; have := inj h.2.2.1; have := inj h.2.2.2.1; exact ⟨by omega, h.2.2.2.2⟩

theorem utf8_inj : ∀ {a b : List Char}, utf8 a = utf8 b → a = b := by
  intro a
  induction a with
  | nil =>
    intro b h
    cases b with
    | nil => rfl
    | cons c b =>
      rw [utf8_cons] at h
      rcases encode_bytes c with ⟨_, he⟩ | ⟨_, _, _, he, _⟩ <;> rw [he] at h <;> cases h
  | cons c a ih =>
    intro b h
    cases b with
    | nil =>
      rw [utf8_cons] at h
      rcases encode_bytes c with ⟨_, he⟩ | ⟨_, _, _, he, _⟩ <;> rw [he] at h <;> cases h
    | cons d b =>
      rw [utf8_cons, utf8_cons] at h
      rw [← encodeUtf8_char c, ← encodeUtf8_char d] at h
      obtain ⟨h1, h2⟩ := encode_prefix (by have := char_valid c; omega) (by have := char_valid d; omega) h
      rw [char_ext h1, ih h2]

/-- A lexed text that assembles to the encoding of characters means characters with that encoding. -/
theorem Lex.text (n : Nat) : ∀ {u : Str} {e : Bool} {is : List StrItem} {cs : List Char}, u.length ≤ n → Lex u e is →
    assemble is = some (utf8 cs) → StrText u cs := by
  have ascii : ∀ {x : UInt8} {v : Bytes} {cs : List Char}, x.toNat < 0x80 → x :: v = utf8 cs →
      ∃ c cs', cs = c :: cs' ∧ c.val.toNat = x.toNat ∧ v = utf8 cs' := by
    intro x v cs hx h
    cases cs with
    | nil => cases h
    | cons c cs =>
      rw [utf8_cons] at h
      rcases encode_bytes c with ⟨hc, he⟩ | ⟨hc, a, j, he, hka, hj⟩
      · rw [he] at h
        simp only [List.singleton_append, List.cons.injEq] at h
        exact ⟨c, cs, rfl, by rw [h.1, u8_ofNat (by omega)], h.2⟩
      · rw [he] at h
        simp only [List.cons_append, List.cons.injEq] at h
        rw [h.1] at hx; omega
  have code : ∀ {n : Nat} {r : Bytes} {cs : List Char}, n.isValidChar → encodeUtf8 n ++ r = utf8 cs →
      ∃ c cs', cs = c :: cs' ∧ c.val.toNat = n ∧ r = utf8 cs' := by
    intro n r cs hn h
    obtain ⟨d, rfl⟩ := charOf hn
    rw [encodeUtf8_char] at h
    have hr : validUtf8 r = true := by rw [← validUtf8_char d, h]; exact (validUtf8_iff _).2 ⟨cs, rfl⟩
    obtain ⟨ds, rfl⟩ := (validUtf8_iff _).1 hr
    rw [← utf8_cons] at h
    have : d :: ds = cs := utf8_inj h
    exact ⟨d, ds, this.symm, rfl, rfl⟩
  induction n with
  | zero =>
    intro u e is cs hn h ha
    have : u = [] := List.length_eq_zero_iff.1 (Nat.le_zero.1 hn)
    subst this
    generalize hu : ([] : Str) = u at h
    cases h with
    | nil =>
      cases cs with
      | nil => exact .nil
      | cons c cs =>
        rw [utf8_cons, assemble] at ha
        rcases encode_bytes c with ⟨hc, he⟩ | ⟨hc, a, j, he, hka, hj⟩ <;> rw [he] at ha <;> simp at ha
    | plain => cases hu
    | short => cases hu
    | unit he _ => obtain ⟨_, _, _, _, rfl, -⟩ := he.form; cases hu
  | succ n ih =>
    intro u e is cs hn h ha
    cases h with
    | nil =>
      cases cs with
      | nil => exact .nil
      | cons c cs =>
        rw [utf8_cons, assemble] at ha
        rcases encode_bytes c with ⟨hc, he⟩ | ⟨hc, a, j, he, hka, hj⟩ <;> rw [he] at ha <;> simp at ha
    | @plain t e is b h1 h2 h3 h =>
      rw [assemble_byte] at ha
      obtain ⟨v, hv, hb⟩ := Option.map_eq_some_iff.1 ha
      simp only [List.length_cons] at hn
      by_cases h8 : b.toNat < 0x80
      · obtain ⟨c, cs', rfl, hc, rfl⟩ := ascii h8 hb
        have he := encode_ascii (c := c) (by omega)
        rw [hc, u8_eq rfl] at he
        have key := StrText.plain (t := t) c (by rintro rfl; exact h1 (UInt8.toNat_inj.1 hc.symm)) (by rintro rfl; exact h2 (UInt8.toNat_inj.1 hc.symm))
          (by show (0x20 : UInt32).toNat ≤ c.val.toNat; rw [hc]; exact h3) (ih (by omega) h hv)
        rw [he] at key; exact key
      · cases cs with
        | nil => cases hb
        | cons c cs =>
          rw [utf8_cons] at hb
          rcases encode_bytes c with ⟨hc, he⟩ | ⟨hc, a, j, he, hka, hj⟩
          · rw [he] at hb
            simp only [List.singleton_append, List.cons.injEq] at hb
            rw [hb.1, u8_ofNat (by omega)] at h8; omega
          · rw [he] at hb
            simp only [List.cons_append, List.cons.injEq] at hb
            obtain ⟨rfl, rfl⟩ := hb
            obtain ⟨u', is', rfl, h', ha'⟩ := h.conts j hj hv
            have := StrText.plain (t := u') c (by rintro rfl; revert hc; decide) (by rintro rfl; revert hc; decide)
              (by show (0x20 : UInt32).toNat ≤ c.val.toNat; exact Nat.le_trans (by decide) hc)
              (ih (by simp only [List.length_append] at hn; omega) h' ha')
            rw [he] at this; exact this
    | @short t e is b c hb h =>
      rw [assemble_byte] at ha
      obtain ⟨v, hv, hx⟩ := Option.map_eq_some_iff.1 ha
      simp only [List.length_cons] at hn
      have hc := hb.ascii.1
      obtain ⟨d, cs', rfl, hd, rfl⟩ := ascii (by rw [u8_ofNat (by omega)]; exact hc) hx
      rw [u8_ofNat (by omega)] at hd
      obtain rfl := char_ext hd
      exact .short hb (ih (by omega) h hv)
    | @unit t e u f is he h =>
      have hu := he.lt
      by_cases hl : LowSurrogate u
      · rw [assemble.eq_def] at ha; simp only [] at ha; rw [if_pos (show 0xDC00 ≤ u ∧ u ≤ 0xDFFF from hl)] at ha; cases ha
      · by_cases hh : HighSurrogate u
        · have ha0 := ha
          rw [assemble.eq_def] at ha; simp only [] at ha
          rw [if_neg (show ¬ (0xDC00 ≤ u ∧ u ≤ 0xDFFF) from hl), if_pos (show 0xD800 ≤ u ∧ u ≤ 0xDBFF from hh)] at ha
          cases h with
          | nil => cases ha
          | plain => cases ha
          | short => cases ha
          | @unit t' e' w f' is' he' h' =>
            simp only [] at ha
            by_cases hw : LowSurrogate w
            · rw [if_pos (show 0xDC00 ≤ w ∧ w ≤ 0xDFFF from hw)] at ha
              obtain ⟨v, hv, hx⟩ := Option.map_eq_some_iff.1 ha
              obtain ⟨c, cs', rfl, hc, rfl⟩ := code (by have := hh.1; have := hh.2; have := hw.1; have := hw.2; simp only [Nat.isValidChar]; omega) hx
              rw [← List.append_assoc]
              refine .pair he he' hh hw hc (ih ?_ h' hv)
              obtain ⟨_, _, _, _, rfl, -⟩ := he.form
              simp only [List.length_append, List.length_cons] at hn; omega
            · rw [if_neg (show ¬ (0xDC00 ≤ w ∧ w ≤ 0xDFFF) from hw)] at ha; cases ha
        · rw [assemble_code hl hh] at ha
          obtain ⟨v, hv, hx⟩ := Option.map_eq_some_iff.1 ha
          unfold LowSurrogate at hl; unfold HighSurrogate at hh
          obtain ⟨c, cs', rfl, rfl, rfl⟩ := code (by simp only [Nat.isValidChar]; omega) hx
          refine .unit he (ih ?_ h hv)
          obtain ⟨_, _, _, _, rfl, -⟩ := he.form
          simp only [List.length_append, List.length_cons] at hn; omega

/-- A lexed text is a spelling of the token made of its pieces. -/
theorem strSpells_iff {u : Str} {e : Bool} {is : List StrItem} (h : Lex u e is) (k : StrTok) :
    StrSpells k u ↔ k = strTok e is := by
  have val : ∀ v, (strTok e is).val = some v ↔ ∃ cs, StrText u cs ∧ v = utf8 cs := by
    intro v
    constructor
    · intro hv
      unfold strTok at hv
      simp only [] at hv
      split at hv
      · rename_i s hs
        split at hv
        · rename_i hu
          cases hv
          obtain ⟨cs, rfl⟩ := (validUtf8_iff _).1 hu
          exact ⟨cs, h.text _ (Nat.le_refl _) hs, rfl⟩
        · cases hv
      · cases hv
    · rintro ⟨cs, ht, rfl⟩
      obtain ⟨e', is', hl, ha⟩ := ht.lex
      obtain ⟨rfl, rfl⟩ := h.unique hl
      unfold strTok
      simp only [ha]
      rw [if_pos ((validUtf8_iff _).2 ⟨cs, rfl⟩)]
  constructor
  · rintro ⟨hf, hv⟩
    obtain ⟨is', hl⟩ := (strForm_iff _ _).1 hf
    obtain ⟨he, rfl⟩ := h.unique hl
    obtain ⟨ke, kv⟩ := k
    have hval : kv = (strTok e is).val := Option.ext fun v => (hv v).trans (val v).symm
    simp only at he
    subst he; subst hval
    rfl
  · rintro rfl
    exact ⟨(strForm_iff _ _).2 ⟨is, h⟩, val⟩

theorem parseStr_sound {s rest : Str} {k : StrTok} (h : parseStr s = .ok (k, rest)) : ∃ u, StrSpells k u ∧ s = u ++ 0x22 :: rest := by
  obtain ⟨⟨⟨e, is⟩, r⟩, g, h⟩ := except_bind_ok.1 h
  cases h
  obtain ⟨u, hl, rfl⟩ := lex_of_lexStr g
  exact ⟨u, (strSpells_iff hl _).2 rfl, rfl⟩

theorem parseStr_complete {u : Str} {k : StrTok} (h : StrSpells k u) (rest : Str) : parseStr (u ++ 0x22 :: rest) = .ok (k, rest) := by
  obtain ⟨is, hl⟩ := (strForm_iff _ _).1 h.1
  have := (strSpells_iff hl k).1 h
  unfold parseStr
  rw [lexStr_of_lex hl rest, this]; rfl

end DIDComm
