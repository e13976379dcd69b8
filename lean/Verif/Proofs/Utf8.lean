import Verif.Proofs.JsonDecode

/-! # UTF-8 validity of printed JSON -/

set_option autoImplicit false

namespace DIDComm

theorem validUtf8_append {a b : Bytes} (h : validUtf8 a = true) : validUtf8 (a ++ b) = validUtf8 b := by
  fun_induction validUtf8 a
  case case1 => rfl
  case case2 a r h1 ih => rw [List.cons_append, validUtf8.eq_def]; simp only [h1, if_true]; exact ih h
  case case3 a h1 h2 b' r' ih =>
    simp only [Bool.and_eq_true] at h
    rw [List.cons_append, List.cons_append, validUtf8.eq_def]
    simp only [h1, h2, if_true, if_false, h.1, Bool.true_and]
    exact ih h.2
  case case5 a h1 h2 h3 b' c r' ih =>
    simp only [Bool.and_eq_true] at h
    simp only [List.cons_append]
    rw [validUtf8.eq_def]
    simp only [h1, h2, h3, if_true, if_false, h.1, Bool.true_and]
    exact ih h.2
  case case7 a h1 h2 h3 h4 b' c d r' ih =>
    simp only [Bool.and_eq_true] at h
    simp only [List.cons_append]
    rw [validUtf8.eq_def]
    simp only [h1, h2, h3, h4, if_true, if_false, h.1, Bool.true_and]
    exact ih h.2
  all_goals simp at h

/-- Only bytes below 0x80. -/
def Ascii (s : Str) : Prop := ∀ b ∈ s, b < 0x80

theorem Ascii.valid {s : Str} (h : Ascii s) : validUtf8 s = true := by
  induction s with
  | nil => rfl
  | cons b r ih =>
    rw [validUtf8.eq_def]
    simp only [h b (by simp), if_true]
    exact ih (fun b hb => h b (by simp [hb]))

theorem ascii_nil : Ascii [] := by intro b hb; cases hb

theorem ascii_append {a b : Str} (ha : Ascii a) (hb : Ascii b) : Ascii (a ++ b) := by
  intro c hc
  rcases List.mem_append.1 hc with h | h
  · exact ha c h
  · exact hb c h

theorem ascii_cons {a : UInt8} {b : Str} (ha : a < 0x80) (hb : Ascii b) : Ascii (a :: b) := by
  intro c hc
  rcases List.mem_cons.1 hc with h | h
  · rw [h]; exact ha
  · exact hb c h

theorem escByte_high : ∀ b : UInt8, ¬ b < 0x80 → escByte b = [b] := by
  apply UInt8.forall_of_fin
  decide +kernel

theorem escByte_ascii : ∀ b : UInt8, b < 0x80 → ∀ c ∈ escByte b, c < 0x80 := by
  apply UInt8.forall_of_fin
  decide +kernel

theorem inRange_high : ∀ b : UInt8, inRange 0x80 0xBF b = true → ¬ b < 0x80 := by
  apply UInt8.forall_of_fin
  decide +kernel

theorem inRange_high3 : ∀ a b : UInt8,
    inRange (if a = 0xE0 then 0xA0 else 0x80) (if a = 0xED then 0x9F else 0xBF) b = true → ¬ b < 0x80 := by
  intro a b h h1
  simp only [inRange, Bool.and_eq_true, decide_eq_true_eq] at h
  have h2 := h.1
  split at h2
  · exact absurd (UInt8.lt_of_le_of_lt h2 h1) (by decide)
  · exact absurd (UInt8.lt_of_le_of_lt h2 h1) (by decide)

theorem inRange_high4 : ∀ a b : UInt8,
    inRange (if a = 0xF0 then 0x90 else 0x80) (if a = 0xF4 then 0x8F else 0xBF) b = true → ¬ b < 0x80 := by
  intro a b h h1
  simp only [inRange, Bool.and_eq_true, decide_eq_true_eq] at h
  have h2 := h.1
  split at h2
  · exact absurd (UInt8.lt_of_le_of_lt h2 h1) (by decide)
  · exact absurd (UInt8.lt_of_le_of_lt h2 h1) (by decide)

theorem escStr_valid {s : Str} (h : validUtf8 s = true) : validUtf8 (escStr s) = true := by
  fun_induction validUtf8 s
  case case1 => rfl
  case case2 a r h1 ih =>
    rw [escStr, validUtf8_append (Ascii.valid (escByte_ascii a h1))]; exact ih h
  case case3 a h1 h2 b' r' ih =>
    simp only [Bool.and_eq_true] at h
    rw [escStr, escStr, escByte_high a h1, escByte_high b' (inRange_high b' h.1)]
    simp only [List.cons_append, List.nil_append]
    rw [validUtf8.eq_def]
    simp only [h1, h2, if_true, if_false, h.1, Bool.true_and]
    exact ih h.2
  case case5 a h1 h2 h3 b' c r' ih =>
    simp only [Bool.and_eq_true] at h
    rw [escStr, escStr, escStr, escByte_high a h1, escByte_high b' (inRange_high3 a b' h.1.1),
      escByte_high c (inRange_high c h.1.2)]
    simp only [List.cons_append, List.nil_append]
    rw [validUtf8.eq_def]
    simp only [h1, h2, h3, if_true, if_false, h.1, Bool.true_and]
    exact ih h.2
  case case7 a h1 h2 h3 h4 b' c d r' ih =>
    simp only [Bool.and_eq_true] at h
    rw [escStr, escStr, escStr, escStr, escByte_high a h1, escByte_high b' (inRange_high4 a b' h.1.1.1),
      escByte_high c (inRange_high c h.1.1.2), escByte_high d (inRange_high d h.1.2)]
    simp only [List.cons_append, List.nil_append]
    rw [validUtf8.eq_def]
    simp only [h1, h2, h3, h4, if_true, if_false, h.1, Bool.true_and]
    exact ih h.2
  all_goals simp at h

theorem validUtf8_cons {a : UInt8} {b : Bytes} (h : a < 0x80) : validUtf8 (a :: b) = validUtf8 b := by
  rw [validUtf8.eq_def]; simp [h]

theorem quoteStr_valid {s : Str} (h : validUtf8 s = true) : validUtf8 (quoteStr s) = true := by
  rw [quoteStr, validUtf8_cons (by decide), validUtf8_append (escStr_valid h)]
  rfl

theorem isDigit_ascii : ∀ b : UInt8, isDigit b = true → b < 0x80 := by
  apply UInt8.forall_of_fin
  decide +kernel

theorem decimal_ascii (n : Nat) : Ascii (decimal n) := fun b hb => isDigit_ascii b (decimal_digits n b hb)

theorem spanDigits_ascii (s : Str) : Ascii (spanDigits s).1 :=
  fun b hb => isDigit_ascii b ((spanDigits_spec s).2.1 b hb)

theorem digits1_ascii {s d r : Str} (h : digits1 s = .ok (d, r)) : Ascii d := by
  unfold digits1 at h
  split at h
  · cases h
  · split at h
    · have h := Except.ok.inj h
      have := spanDigits_ascii (‹_› :: ‹_›)
      rw [h] at this; exact this
    · cases h

theorem parseNum_ascii {neg : Bool} {s r : Str} {tok : NumTok} (h : parseNum neg s = .ok (tok, r)) :
    Ascii tok.digits ∧ Ascii tok.tail := by
  unfold parseNum at h
  obtain ⟨⟨i, r1⟩, h1, h⟩ := except_bind_ok.1 h
  obtain ⟨⟨f, r2⟩, h2, h⟩ := except_bind_ok.1 h
  obtain ⟨⟨e, r3⟩, h3, h⟩ := except_bind_ok.1 h
  cases h
  refine ⟨?_, ascii_append ?_ ?_⟩
  · unfold parseIntPart at h1
    split at h1
    · cases h1
    · split at h1
      · rename_i hb
        subst hb
        split at h1
        · split at h1
          · cases h1
          · cases h1; exact ascii_cons (by decide) ascii_nil
        · cases h1; exact ascii_cons (by decide) ascii_nil
      · split at h1
        · have h1 := Except.ok.inj h1
          have := spanDigits_ascii (‹_› :: ‹_›)
          rw [h1] at this; exact this
        · cases h1
  · unfold parseFrac at h2
    split at h2
    · split at h2
      · obtain ⟨⟨d, rest⟩, hd, h2⟩ := except_bind_ok.1 h2
        cases h2; exact ascii_cons (by decide) (digits1_ascii hd)
      · cases h2; exact ascii_nil
    · cases h2; exact ascii_nil
  · unfold parseExp at h3
    split at h3
    · split at h3
      · rename_i hb
        have hb' : ∀ x : UInt8, x = 0x65 ∨ x = 0x45 → x < 0x80 := by rintro x (rfl | rfl) <;> decide
        split at h3
        · split at h3
          · rename_i hc
            have hc' : ∀ x : UInt8, x = 0x2B ∨ x = 0x2D → x < 0x80 := by rintro x (rfl | rfl) <;> decide
            obtain ⟨⟨d, rest⟩, hd, h3⟩ := except_bind_ok.1 h3
            cases h3; exact ascii_cons (hb' _ hb) (ascii_cons (hc' _ hc) (digits1_ascii hd))
          · obtain ⟨⟨d, rest⟩, hd, h3⟩ := except_bind_ok.1 h3
            cases h3; exact ascii_cons (hb' _ hb) (digits1_ascii hd)
        · cases h3
      · cases h3; exact ascii_nil
    · cases h3; exact ascii_nil

theorem fltTok_ascii {t : Str} {tok : NumTok} (h : fltTok t = some tok) : Ascii t := by
  rcases fltTok_some h with ⟨r, rfl, hp⟩ | ⟨b, r, rfl, -, hp⟩
  · have h1 := (parseNum_text hp).1
    have h2 := parseNum_ascii hp
    rw [h1, List.append_nil]
    exact ascii_cons (by decide) (ascii_append h2.1 h2.2)
  · have h1 := (parseNum_text hp).1
    have h2 := parseNum_ascii hp
    rw [h1, List.append_nil]
    exact ascii_append h2.1 h2.2

mutual
/-- All strings and keys in a value are UTF-8, numbers have tokens. -/
def Value.Utf8 : Value → Prop
  | .null => True
  | .bool _ => True
  | .num n => n.Ok
  | .str s => validUtf8 s = true
  | .arr l => Value.Utf8L l
  | .obj m => Value.Utf8M m
/-- See `Value.Utf8`. -/
def Value.Utf8L : List Value → Prop
  | [] => True
  | v :: r => v.Utf8 ∧ Value.Utf8L r
/-- See `Value.Utf8`. -/
def Value.Utf8M : List (Str × Value) → Prop
  | [] => True
  | (k, v) :: r => validUtf8 k = true ∧ v.Utf8 ∧ Value.Utf8M r
end

mutual
theorem Value.print_valid : ∀ (v : Value), v.Utf8 → validUtf8 v.print = true
  | .null, _ => by rw [Value.print]; decide
  | .bool true, _ => by rw [Value.print]; decide
  | .bool false, _ => by rw [Value.print]; decide
  | .num (.pos n), _ => by rw [Value.print, printNum]; exact (decimal_ascii n).valid
  | .num (.neg n), _ => by rw [Value.print, printNum, validUtf8_cons (by decide)]; exact (decimal_ascii n).valid
  | .num (.flt t), h => by
    simp only [Value.Utf8, Num.Ok, numTok] at h
    obtain ⟨tok, h⟩ := Option.isSome_iff_exists.1 h
    rw [Value.print, printNum]; exact (fltTok_ascii h).valid
  | .str s, h => by simp only [Value.Utf8] at h; rw [Value.print]; exact quoteStr_valid h
  | .arr [], _ => by rw [Value.print]; decide
  | .arr (v :: l), h => by
    simp only [Value.Utf8, Value.Utf8L] at h
    rw [Value.print, validUtf8_cons (by decide), validUtf8_append (Value.print_valid v h.1)]
    exact Value.printTail_valid l h.2
  | .obj [], _ => by rw [Value.print]; decide
  | .obj ((k, v) :: l), h => by
    simp only [Value.Utf8, Value.Utf8M] at h
    rw [Value.print, validUtf8_cons (by decide), validUtf8_append (quoteStr_valid h.1),
      validUtf8_cons (by decide), validUtf8_append (Value.print_valid v h.2.1)]
    exact Value.printMembers_valid l h.2.2
theorem Value.printTail_valid : ∀ (l : List Value), Value.Utf8L l → validUtf8 (Value.printTail l) = true
  | [], _ => by rw [Value.printTail]; decide
  | v :: l, h => by
    simp only [Value.Utf8L] at h
    rw [Value.printTail, validUtf8_cons (by decide), validUtf8_append (Value.print_valid v h.1)]
    exact Value.printTail_valid l h.2
theorem Value.printMembers_valid : ∀ (l : List (Str × Value)), Value.Utf8M l → validUtf8 (Value.printMembers l) = true
  | [], _ => by rw [Value.printMembers]; decide
  | (k, v) :: l, h => by
    simp only [Value.Utf8M] at h
    rw [Value.printMembers, validUtf8_cons (by decide), validUtf8_append (quoteStr_valid h.1),
      validUtf8_cons (by decide), validUtf8_append (Value.print_valid v h.2.1)]
    exact Value.printMembers_valid l h.2.2
end

mutual
theorem Value.WF.utf8 {f64 : Str → Option Str} : ∀ {v : Value}, v.WF f64 → v.Utf8
  | .null, _ => trivial
  | .bool _, _ => trivial
  | .num n, h => by simp only [Value.WF] at h; exact h.ok
  | .str _, h => by simp only [Value.WF] at h; simpa only [Value.Utf8] using h
  | .arr l, h => by simp only [Value.WF] at h; exact Value.WFL.utf8 h
  | .obj m, h => by simp only [Value.WF] at h; exact Value.WFM.utf8 h.2
theorem Value.WFL.utf8 {f64 : Str → Option Str} : ∀ {l : List Value}, Value.WFL f64 l → Value.Utf8L l
  | [], _ => trivial
  | v :: l, h => by
    simp only [Value.WFL] at h
    exact ⟨h.1.utf8, Value.WFL.utf8 h.2⟩
theorem Value.WFM.utf8 {f64 : Str → Option Str} : ∀ {l : List (Str × Value)}, Value.WFM f64 l → Value.Utf8M l
  | [], _ => trivial
  | (k, v) :: l, h => by
    simp only [Value.WFM] at h
    exact ⟨h.1, h.2.1.utf8, Value.WFM.utf8 h.2.2⟩
end

theorem utf8M_append {a b : List (Str × Value)} :
    Value.Utf8M (a ++ b) ↔ Value.Utf8M a ∧ Value.Utf8M b := by
  induction a with
  | nil => simp [Value.Utf8M]
  | cons p a ih => obtain ⟨k, v⟩ := p; simp [Value.Utf8M, ih, and_assoc]

theorem utf8M_optStr {k : Str} {o : Option Str} (hk : validUtf8 k = true) (h : OptUtf8 o) :
    Value.Utf8M (optMember k .str o) := by
  cases o with
  | none => simp [optMember, Value.Utf8M]
  | some s => simp [optMember, Value.Utf8M, Value.Utf8, hk, h s rfl]

theorem utf8M_optU64 {k : Str} {o : Option UInt64} (hk : validUtf8 k = true) :
    Value.Utf8M (optMember k u64Json o) := by
  cases o with
  | none => simp [optMember, Value.Utf8M]
  | some s => simp [optMember, Value.Utf8M, Value.Utf8, u64Json, Num.Ok, numTok, hk]

theorem utf8L_map {α : Type} (f : α → Value) (l : List α) (h : ∀ a ∈ l, (f a).Utf8) :
    Value.Utf8L (l.map f) := by
  induction l with
  | nil => simp [Value.Utf8L]
  | cons a l ih =>
    simp only [List.map_cons, Value.Utf8L]
    exact ⟨h a (by simp), ih (fun a ha => h a (by simp [ha]))⟩

theorem AttachmentData.utf8 {f64 : Str → Option Str} {d : AttachmentData} (h : d.WF f64) : d.toJson.Utf8 := by
  cases d with
  | base64 b jws =>
    simp only [AttachmentData.toJson, Value.Utf8, utf8M_append]
    exact ⟨⟨by decide, h.1, trivial⟩, utf8M_optStr (by decide) h.2⟩
  | json j jws =>
    simp only [AttachmentData.toJson, Value.Utf8, utf8M_append]
    exact ⟨⟨by decide, h.1.utf8, trivial⟩, utf8M_optStr (by decide) h.2.2⟩
  | links l hash jws =>
    simp only [AttachmentData.toJson, Value.Utf8, utf8M_append]
    exact ⟨⟨by decide, utf8L_map _ _ h.1, by decide, h.2.1, trivial⟩, utf8M_optStr (by decide) h.2.2⟩

theorem Attachment.utf8 {f64 : Str → Option Str} {a : Attachment} (h : a.WF f64) : a.toJson.Utf8 := by
  simp only [Attachment.toJson, Value.Utf8, utf8M_append]
  exact ⟨⟨⟨⟨⟨⟨⟨⟨by decide, AttachmentData.utf8 h.data, trivial⟩, utf8M_optStr (by decide) h.id⟩,
    utf8M_optStr (by decide) h.description⟩, utf8M_optStr (by decide) h.filename⟩,
    utf8M_optStr (by decide) h.mediaType⟩, utf8M_optStr (by decide) h.format⟩,
    utf8M_optU64 (by decide)⟩, utf8M_optU64 (by decide)⟩

theorem Message.utf8 {f64 : Str → Option Str} {m : Message} (h : m.WF f64) : m.toJson.Utf8 := by
  have h1 : Value.Utf8M (optMember b!"to" (fun l => Value.arr (l.map .str)) m.to) := by
    cases ht : m.to with
    | none => simp [optMember, Value.Utf8M]
    | some l =>
      simp only [optMember, Value.Utf8M, Value.Utf8, and_true]
      exact ⟨by decide, utf8L_map _ _ (h.to l ht)⟩
  have h2 : Value.Utf8M (optMember b!"attachments" (fun l => Value.arr (l.map Attachment.toJson)) m.attachments) := by
    cases ha : m.attachments with
    | none => simp [optMember, Value.Utf8M]
    | some l =>
      simp only [optMember, Value.Utf8M, Value.Utf8, and_true]
      exact ⟨by decide, utf8L_map _ _ (fun a hx => Attachment.utf8 (h.attachments l ha a hx))⟩
  simp only [Message.toJson, Value.Utf8, utf8M_append]
  exact ⟨⟨⟨⟨⟨⟨⟨⟨⟨⟨by decide, h.id, by decide, h.typ, by decide, h.type_, by decide, h.body.utf8, trivial⟩,
    utf8M_optStr (by decide) h.from_⟩, h1⟩, utf8M_optStr (by decide) h.thid⟩, utf8M_optStr (by decide) h.pthid⟩,
    h.extra.utf8⟩, utf8M_optU64 (by decide)⟩, utf8M_optU64 (by decide)⟩, utf8M_optStr (by decide) h.fromPrior⟩, h2⟩

/-- The text of an ordinary message is UTF-8. -/
theorem Message.print_valid {f64 : Str → Option Str} {m : Message} (h : m.WF f64) :
    validUtf8 m.toJson.print = true := Value.print_valid _ (Message.utf8 h)

theorem FromPrior.print_valid {f : FromPrior} (h : f.WF) : validUtf8 f.toJson.print = true := by
  apply Value.print_valid
  simp only [FromPrior.toJson, Value.Utf8, utf8M_append]
  exact ⟨⟨⟨⟨⟨⟨by decide, h.iss, by decide, h.sub, trivial⟩, utf8M_optStr (by decide) h.aud⟩,
    utf8M_optU64 (by decide)⟩, utf8M_optU64 (by decide)⟩, utf8M_optU64 (by decide)⟩, utf8M_optStr (by decide) h.jti⟩

end DIDComm
