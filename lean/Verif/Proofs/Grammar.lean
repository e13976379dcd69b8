import Verif.Proofs.GrammarStr
import Verif.Proofs.ParseTotal

/-! # The parser against the grammar of JSON -/

set_option autoImplicit false

namespace DIDComm

/-! ## White space -/

theorem isWs_iff (b : UInt8) : isWs b = true ↔ b = 0x20 ∨ b = 0x09 ∨ b = 0x0A ∨ b = 0x0D := by
  simp [isWs, or_assoc]

theorem ws_nil : Ws [] := fun _ h => nomatch h

theorem Ws.append {a b : Str} (ha : Ws a) (hb : Ws b) : Ws (a ++ b) := by
  intro x hx
  rcases List.mem_append.1 hx with hx | hx
  · exact ha x hx
  · exact hb x hx

theorem skipWs_ws {w : Str} (hw : Ws w) (s : Str) : skipWs (w ++ s) = skipWs s := by
  induction w with
  | nil => rfl
  | cons b w ih =>
    rw [List.cons_append, skipWs, if_pos ((isWs_iff b).2 (hw b (by simp))), ih fun x hx => hw x (by simp [hx])]

theorem skipWs_split (s : Str) : ∃ w, Ws w ∧ s = w ++ skipWs s := by
  induction s with
  | nil => exact ⟨[], ws_nil, rfl⟩
  | cons b s ih =>
    rw [skipWs]
    split
    · rename_i hb
      obtain ⟨w, hw, hs⟩ := ih
      refine ⟨b :: w, ?_, by rw [List.cons_append, ← hs]⟩
      intro x hx
      rcases List.mem_cons.1 hx with rfl | hx
      · exact (isWs_iff _).1 hb
      · exact hw x hx
    · exact ⟨[], ws_nil, rfl⟩

theorem skipWs_all {w : Str} (hw : Ws w) : skipWs w = [] := by
  have := skipWs_ws hw []
  rwa [List.append_nil] at this

theorem skipWs_idem (s : Str) : skipWs (skipWs s) = skipWs s := by
  obtain ⟨w, hw, hs⟩ := skipWs_split s
  conv => rhs; rw [hs]
  rw [skipWs_ws hw]

theorem skipWs_cons_split {s r : Str} {b : UInt8} (h : skipWs s = b :: r) : ∃ w, Ws w ∧ s = w ++ b :: r := by
  obtain ⟨w, hw, hs⟩ := skipWs_split s
  rw [h] at hs
  exact ⟨w, hw, hs⟩

theorem skipWs_here {b : UInt8} (h : isWs b = false) (r : Str) : skipWs (b :: r) = b :: r := by simp [skipWs, h]

/-! ## Numbers -/

theorem isDigit_iff (b : UInt8) : isDigit b = true ↔ Digit b := by
  simp [isDigit, Digit]

theorem digits1_sound {s d r : Str} (h : digits1 s = .ok (d, r)) : Digits d ∧ s = d ++ r := by
  unfold digits1 at h
  split at h
  · cases h
  · rename_i b t
    split at h
    · rename_i hb
      have hs := spanDigits_spec (b :: t)
      simp only [Except.ok.injEq] at h
      have hne : (spanDigits (b :: t)).1 ≠ [] := by rw [spanDigits, if_pos hb]; simp
      rw [h] at hs hne
      exact ⟨⟨hne, fun x hx => (isDigit_iff x).1 (hs.2.1 x hx)⟩, hs.1⟩
    · cases h

theorem digits1_complete {d rest : Str} (h : Digits d) (hr : ∀ b r, rest = b :: r → isDigit b = false) :
    digits1 (d ++ rest) = .ok (d, rest) := by
  obtain ⟨hne, hd⟩ := h
  have hs := spanDigits_append d rest (fun b hb => (isDigit_iff b).2 (hd b hb)) hr
  cases d with
  | nil => exact absurd rfl hne
  | cons b d =>
    rw [List.cons_append] at hs ⊢
    unfold digits1
    simp only []
    rw [if_pos ((isDigit_iff b).2 (hd b (by simp))), hs]

theorem parseIntPart_sound {s d r : Str} (h : parseIntPart s = .ok (d, r)) : IntText d ∧ s = d ++ r := by
  unfold parseIntPart at h
  split at h
  · cases h
  · rename_i b t
    split at h
    · rename_i hb
      subst hb
      have key : IntText [0x30] := ⟨⟨by simp, by simp [Digit]⟩, fun _ => rfl⟩
      split at h
      · split at h
        · cases h
        · cases h; exact ⟨key, rfl⟩
      · cases h; exact ⟨key, rfl⟩
    · rename_i hb
      split at h
      · rename_i hd
        have hs := spanDigits_spec (b :: t)
        simp only [Except.ok.injEq] at h
        have hhd : (spanDigits (b :: t)).1 = b :: (spanDigits t).1 := by rw [spanDigits, if_pos hd]
        rw [h] at hs hhd
        simp only at hs hhd
        refine ⟨⟨⟨by rw [hhd]; simp, fun x hx => (isDigit_iff x).1 (hs.2.1 x hx)⟩, ?_⟩, hs.1⟩
        rw [hhd]
        intro h0
        simp only [List.head?_cons, Option.some.injEq] at h0
        exact absurd h0 hb
      · cases h

theorem parseIntPart_complete {d rest : Str} (h : IntText d) (hr : ∀ b r, rest = b :: r → isDigit b = false) :
    parseIntPart (d ++ rest) = .ok (d, rest) := by
  obtain ⟨⟨hne, hd⟩, h0⟩ := h
  have hs := spanDigits_append d rest (fun b hb => (isDigit_iff b).2 (hd b hb)) hr
  cases d with
  | nil => exact absurd rfl hne
  | cons b d =>
    rw [List.cons_append] at hs ⊢
    rw [parseIntPart.eq_def]
    simp only
    by_cases hb : b = 0x30
    · subst hb
      have : d = [] := by have := h0 rfl; simpa using this
      subst this
      rw [if_pos rfl]
      cases rest with
      | nil => rfl
      | cons c rest => simp [hr c rest rfl]
    · rw [if_neg hb, if_pos ((isDigit_iff b).2 (hd b (by simp))), hs]

theorem parseFrac_sound {s d r : Str} (h : parseFrac s = .ok (d, r)) : FracText d ∧ s = d ++ r := by
  unfold parseFrac at h
  split at h
  · split at h
    · rename_i hb
      subst hb
      obtain ⟨⟨d', r'⟩, g, h⟩ := except_bind_ok.1 h
      cases h
      obtain ⟨h1, rfl⟩ := digits1_sound g
      exact ⟨.inr ⟨d', h1, rfl⟩, rfl⟩
    · cases h; exact ⟨.inl rfl, rfl⟩
  · cases h; exact ⟨.inl rfl, rfl⟩

theorem parseExp_sound {s d r : Str} (h : parseExp s = .ok (d, r)) : ExpText d ∧ s = d ++ r := by
  unfold parseExp at h
  split at h
  · rename_i b t
    split at h
    · rename_i hb
      have he : [b] = b!"e" ∨ [b] = b!"E" := by rcases hb with rfl | rfl <;> decide
      split at h
      · rename_i c t'
        split at h
        · rename_i hc
          obtain ⟨⟨d', r'⟩, g, h⟩ := except_bind_ok.1 h
          cases h
          obtain ⟨h1, rfl⟩ := digits1_sound g
          exact ⟨.inr ⟨[b], [c], d', rfl, he, by rcases hc with rfl | rfl <;> decide, h1⟩, rfl⟩
        · obtain ⟨⟨d', r'⟩, g, h⟩ := except_bind_ok.1 h
          cases h
          obtain ⟨h1, h2⟩ := digits1_sound g
          exact ⟨.inr ⟨[b], [], d', rfl, he, .inl rfl, h1⟩, by rw [h2]; rfl⟩
      · cases h
    · cases h; exact ⟨.inl rfl, rfl⟩
  · cases h; exact ⟨.inl rfl, rfl⟩

/-- What can follow a number's integer part. -/
theorem exp_follow {e rest : Str} (he : ExpText e) (hr : Delim rest) :
    ∀ b r, e ++ rest = b :: r → isDigit b = false ∧ b ≠ 0x2E := by
  rintro b r h
  rcases he with rfl | ⟨x, sg, d, rfl, hx, -, -⟩
  · rw [List.nil_append] at h; subst h; exact ⟨hr.1, hr.2.1⟩
  · rcases hx with rfl | rfl
    · have : b = 0x65 := by simpa using (congrArg List.head? h).symm
      subst this; decide
    · have : b = 0x45 := by simpa using (congrArg List.head? h).symm
      subst this; decide

theorem parseFrac_complete {f e rest : Str} (hf : FracText f) (he : ExpText e) (hr : Delim rest) :
    parseFrac (f ++ (e ++ rest)) = .ok (f, e ++ rest) := by
  have hfo := exp_follow he hr
  rcases hf with rfl | ⟨d, hd, rfl⟩
  · rw [List.nil_append]
    cases h : e ++ rest with
    | nil => rfl
    | cons b r => unfold parseFrac; simp only []; rw [if_neg (hfo b r h).2]
  · show parseFrac (0x2E :: (d ++ (e ++ rest))) = _
    unfold parseFrac
    simp only []
    rw [if_pos trivial, digits1_complete hd fun b r h => (hfo b r h).1]; rfl

theorem parseExp_complete {e rest : Str} (he : ExpText e) (hr : Delim rest) :
    parseExp (e ++ rest) = .ok (e, rest) := by
  rcases he with rfl | ⟨x, sg, d, rfl, hx, hs, hd⟩
  · exact parseExp_delim hr
  · obtain ⟨b, rfl, hb⟩ : ∃ b, x = [b] ∧ (b = 0x65 ∨ b = 0x45) := by
      rcases hx with rfl | rfl
      · exact ⟨_, rfl, .inl rfl⟩
      · exact ⟨_, rfl, .inr rfl⟩
    have hdg := digits1_complete hd hr.notDigit
    have hne : ∀ c, isDigit c = true → ¬ (c = 0x2B ∨ c = 0x2D) := by
      intro c hc; rintro (rfl | rfl) <;> revert hc <;> decide
    rcases hs with rfl | hs
    · cases d with
      | nil => exact absurd rfl hd.1
      | cons c d =>
        have hc := hne c ((isDigit_iff c).2 (hd.2 c (by simp)))
        simp only [List.cons_append, List.nil_append] at hdg ⊢
        unfold parseExp
        simp only []
        rw [if_pos hb, if_neg hc, hdg]; rfl
    · obtain ⟨c, rfl, hc⟩ : ∃ c, sg = [c] ∧ (c = 0x2B ∨ c = 0x2D) := by
        rcases hs with rfl | rfl
        · exact ⟨_, rfl, .inl rfl⟩
        · exact ⟨_, rfl, .inr rfl⟩
      simp only [List.cons_append, List.nil_append]
      unfold parseExp
      simp only []
      rw [if_pos hb, if_pos hc, hdg]; rfl

theorem parseNum_sound {neg : Bool} {s r : Str} {n : NumTok} (h : parseNum neg s = .ok (n, r)) :
    ∃ u, NumSpells n ((if neg then b!"-" else []) ++ u) ∧ s = u ++ r := by
  unfold parseNum at h
  obtain ⟨⟨i, r1⟩, h1, h⟩ := except_bind_ok.1 h
  obtain ⟨⟨f, r2⟩, h2, h⟩ := except_bind_ok.1 h
  obtain ⟨⟨e, r3⟩, h3, h⟩ := except_bind_ok.1 h
  cases h
  obtain ⟨g1, rfl⟩ := parseIntPart_sound h1
  obtain ⟨g2, rfl⟩ := parseFrac_sound h2
  obtain ⟨g3, rfl⟩ := parseExp_sound h3
  exact ⟨i ++ f ++ e, ⟨f, e, by simp, g1, g2, g3, rfl⟩, by simp⟩

theorem parseNum_complete {n : NumTok} {f e rest : Str} (h1 : IntText n.digits) (h2 : FracText f) (h3 : ExpText e)
    (h4 : n.tail = f ++ e) (hr : Delim rest) :
    parseNum n.neg (n.digits ++ (f ++ (e ++ rest))) = .ok (n, rest) := by
  have hfo : ∀ b r, f ++ (e ++ rest) = b :: r → isDigit b = false := by
    intro b r h
    rcases h2 with rfl | ⟨d, -, rfl⟩
    · exact (exp_follow h3 hr b r h).1
    · have : b = 0x2E := by simpa using (congrArg List.head? h).symm
      subst this; decide
  unfold parseNum
  rw [parseIntPart_complete h1 hfo]
  simp only [bind, Except.bind, parseFrac_complete h2 h3 hr, parseExp_complete h3 hr]
  rw [← h4]

/-! ## Identifiers -/

theorem parseIdent_iff (c s r : Str) : parseIdent c s = .ok r ↔ s = c ++ r := by
  induction c generalizing s with
  | nil => cases s <;> simp [parseIdent]
  | cons x c ih =>
    cases s with
    | nil => simp [parseIdent]
    | cons b s =>
      rw [parseIdent]
      split
      · rename_i hb; subst hb; rw [ih]; simp
      · rename_i hb; simp [hb]

/-! ## Values: what is accepted is spelled -/

theorem parse_sound (f : Nat) :
    (∀ s t r, parseVal f s = .ok (t, r) → ∃ w u, Ws w ∧ Spells t u ∧ s = w ++ u ++ r) ∧
    (∀ s l r, parseElems f s = .ok (l, r) → ∃ u, SpellsElems l u ∧ s = u ++ 0x5D :: r) ∧
    (∀ s m r, parseMembers f s = .ok (m, r) → ∃ u, SpellsMembers m u ∧ s = u ++ 0x7D :: r) := by
  induction f with
  | zero => exact ⟨fun s t r h => by simp [parseVal] at h, fun s t r h => by simp [parseElems] at h,
      fun s t r h => by simp [parseMembers] at h⟩
  | succ f ih =>
    obtain ⟨ih1, ih2, ih3⟩ := ih
    refine ⟨fun s t r h => ?_, fun s l r h => ?_, fun s m r h => ?_⟩
    · unfold parseVal at h
      split at h
      · cases h
      rename_i b s' hs
      obtain ⟨w, hw, rfl⟩ := skipWs_cons_split hs
      split at h
      · rename_i hb; subst hb
        obtain ⟨r1, g, h⟩ := except_bind_ok.1 h
        cases h
        rw [parseIdent_iff] at g; subst g
        exact ⟨w, _, hw, .null, by simp⟩
      split at h
      · rename_i hb; subst hb
        obtain ⟨r1, g, h⟩ := except_bind_ok.1 h
        cases h
        rw [parseIdent_iff] at g; subst g
        exact ⟨w, _, hw, .tru, by simp⟩
      split at h
      · rename_i hb; subst hb
        obtain ⟨r1, g, h⟩ := except_bind_ok.1 h
        cases h
        rw [parseIdent_iff] at g; subst g
        exact ⟨w, _, hw, .fls, by simp⟩
      split at h
      · rename_i hb; subst hb
        obtain ⟨⟨n, r1⟩, g, h⟩ := except_bind_ok.1 h
        cases h
        obtain ⟨u, hu, rfl⟩ := parseNum_sound g
        exact ⟨w, _, hw, .num hu, by simp⟩
      split at h
      · obtain ⟨⟨n, r1⟩, g, h⟩ := except_bind_ok.1 h
        cases h
        obtain ⟨u, hu, hs'⟩ := parseNum_sound g
        rw [hs']
        exact ⟨w, _, hw, .num hu, by simp⟩
      split at h
      · rename_i hb; subst hb
        obtain ⟨⟨k, r1⟩, g, h⟩ := except_bind_ok.1 h
        cases h
        obtain ⟨u, hu, rfl⟩ := parseStr_sound g
        exact ⟨w, _, hw, .str hu, by simp⟩
      split at h
      · rename_i hb; subst hb
        split at h
        · cases h
        rename_i c r1 hc
        split at h
        · rename_i hc'; subst hc'
          cases h
          obtain ⟨w', hw', rfl⟩ := skipWs_cons_split hc
          exact ⟨w, _, hw, .emptyArr hw', by simp⟩
        · obtain ⟨⟨l, r2⟩, g, h⟩ := except_bind_ok.1 h
          cases h
          obtain ⟨w', hw', rfl⟩ := skipWs_cons_split hc
          obtain ⟨u, hu, hs'⟩ := ih2 _ _ _ g
          rw [hs']
          have hu' : SpellsElems l (w' ++ u) := by
            cases hu with
            | @one _ w1 s1 w2 h1 h2 h3 =>
              have := SpellsElems.one (w := w' ++ w1) (hw'.append h1) h2 h3
              simpa using this
            | @more _ _ w1 s1 w2 r1 h1 h2 h3 h4 =>
              have := SpellsElems.more (w := w' ++ w1) (hw'.append h1) h2 h3 h4
              simpa using this
          exact ⟨w, _, hw, .arr hu', by simp⟩
      split at h
      · rename_i hb; subst hb
        split at h
        · cases h
        rename_i c r1 hc
        split at h
        · rename_i hc'; subst hc'
          cases h
          obtain ⟨w', hw', rfl⟩ := skipWs_cons_split hc
          exact ⟨w, _, hw, .emptyObj hw', by simp⟩
        · obtain ⟨⟨l, r2⟩, g, h⟩ := except_bind_ok.1 h
          cases h
          obtain ⟨w', hw', rfl⟩ := skipWs_cons_split hc
          obtain ⟨u, hu, hs'⟩ := ih3 _ _ _ g
          rw [hs']
          have hu' : SpellsMembers l (w' ++ u) := by
            cases hu with
            | @one _ _ w1 _ _ _ _ _ h1 h2 h3 h4 h5 h6 =>
              have := SpellsMembers.one (w := w' ++ w1) (hw'.append h1) h2 h3 h4 h5 h6
              simpa using this
            | @more _ _ _ w1 _ _ _ _ _ _ h1 h2 h3 h4 h5 h6 h7 =>
              have := SpellsMembers.more (w := w' ++ w1) (hw'.append h1) h2 h3 h4 h5 h6 h7
              simpa using this
          exact ⟨w, _, hw, .obj hu', by simp⟩
      · cases h
    · unfold parseElems at h
      obtain ⟨⟨v, r0⟩, g, hz⟩ := except_bind_ok.1 h
      clear h
      have h := hz; clear hz
      obtain ⟨w, u, hw, hu, rfl⟩ := ih1 _ _ _ g
      simp only [] at h
      split at h
      · cases h
      rename_i b r1 hb
      obtain ⟨w', hw', rfl⟩ := skipWs_cons_split hb
      split at h
      · rename_i hb'; subst hb'
        cases h
        exact ⟨_, .one hw hu hw', by simp⟩
      split at h
      · rename_i hb'; subst hb'
        split at h
        · cases h
        rename_i c r2 hc
        obtain ⟨w2, hw2, rfl⟩ := skipWs_cons_split hc
        split at h
        · cases h
        · obtain ⟨⟨l', r3⟩, g', h⟩ := except_bind_ok.1 h
          cases h
          obtain ⟨u', hu', hs'⟩ := ih2 _ _ _ g'
          rw [hs']
          have hu2 : SpellsElems l' (w2 ++ u') := by
            cases hu' with
            | @one _ w1 s1 _ h1 h2 h3 =>
              have := SpellsElems.one (w := w2 ++ w1) (hw2.append h1) h2 h3
              simpa using this
            | @more _ _ w1 s1 _ r1 h1 h2 h3 h4 =>
              have := SpellsElems.more (w := w2 ++ w1) (hw2.append h1) h2 h3 h4
              simpa using this
          exact ⟨_, .more hw hu hw' hu2, by simp⟩
      · cases h
    · unfold parseMembers at h
      split at h
      · cases h
      rename_i q r0 hq
      obtain ⟨w, hw, rfl⟩ := skipWs_cons_split hq
      split at h
      · rename_i hq'; subst hq'
        obtain ⟨⟨k, r1⟩, g, hz⟩ := except_bind_ok.1 h
        clear h
        have h := hz; clear hz
        obtain ⟨n, hn, rfl⟩ := parseStr_sound g
        simp only [] at h
        split at h
        · cases h
        rename_i c r2 hc
        obtain ⟨w1, hw1, rfl⟩ := skipWs_cons_split hc
        split at h
        · rename_i hc'; subst hc'
          obtain ⟨⟨v, r3⟩, g', hz⟩ := except_bind_ok.1 h
          clear h
          have h := hz; clear hz
          obtain ⟨w2, u, hw2, hu, rfl⟩ := ih1 _ _ _ g'
          simp only [] at h
          split at h
          · cases h
          rename_i b r4 hb
          obtain ⟨w3, hw3, rfl⟩ := skipWs_cons_split hb
          split at h
          · rename_i hb'; subst hb'
            cases h
            exact ⟨_, .one hw hn hw1 hw2 hu hw3, by simp⟩
          split at h
          · rename_i hb'; subst hb'
            obtain ⟨⟨m', r5⟩, g'', h⟩ := except_bind_ok.1 h
            cases h
            obtain ⟨u', hu', rfl⟩ := ih3 _ _ _ g''
            exact ⟨_, .more hw hn hw1 hw2 hu hw3 hu', by simp⟩
          · cases h
        · cases h
      · cases h

/-! ## Values: what is spelled is accepted -/

theorem delim_ws {w rest : Str} (hw : Ws w) (hr : Delim rest) : Delim (w ++ rest) := by
  cases w with
  | nil => exact hr
  | cons b w =>
    rcases hw b (by simp) with rfl | rfl | rfl | rfl <;> exact ⟨by decide, by decide, by decide, by decide⟩

theorem delim_of_ws {w : Str} (hw : Ws w) : Delim w := by
  have := delim_ws hw (rest := []) trivial
  simpa using this

/-- The first byte of a value. -/
theorem NumSpells.head {n : NumTok} {u : Str} (h : NumSpells n u) :
    ∃ b r, u = b :: r ∧ ((b = 0x2D ∧ n.neg = true) ∨ (isDigit b = true ∧ n.neg = false)) := by
  obtain ⟨f, e, rfl, ⟨⟨hne, hd⟩, -⟩, -⟩ := h
  cases hn : n.neg with
  | true => exact ⟨0x2D, n.digits ++ f ++ e, by simp, .inl ⟨rfl, rfl⟩⟩
  | false =>
    cases hg : n.digits with
    | nil => exact absurd hg hne
    | cons b d => exact ⟨b, d ++ f ++ e, by simp, .inr ⟨(isDigit_iff b).2 (hd b (by rw [hg]; simp)), rfl⟩⟩

theorem Spells.head {t : Tree} {u : Str} (h : Spells t u) : ∃ b r, u = b :: r ∧ isWs b = false ∧ b ≠ 0x5D ∧ b ≠ 0x7D := by
  cases h with
  | null => exact ⟨_, _, rfl, by decide⟩
  | tru => exact ⟨_, _, rfl, by decide⟩
  | fls => exact ⟨_, _, rfl, by decide⟩
  | num h =>
    obtain ⟨b, r, rfl, hb⟩ := h.head
    refine ⟨b, r, rfl, ?_⟩
    rcases hb with ⟨rfl, -⟩ | ⟨hb, -⟩
    · decide
    · have := digit_class b hb; exact ⟨this.1, this.2.2.2.2.2.1, this.2.2.2.2.2.2⟩
  | str _ => exact ⟨0x22, _, rfl, by decide⟩
  | emptyArr _ => exact ⟨0x5B, _, rfl, by decide⟩
  | arr _ => exact ⟨0x5B, _, rfl, by decide⟩
  | emptyObj _ => exact ⟨0x7B, _, rfl, by decide⟩
  | obj _ => exact ⟨0x7B, _, rfl, by decide⟩

theorem parseVal_ws {w : Str} (hw : Ws w) (f : Nat) (s : Str) : parseVal f (w ++ s) = parseVal f s := by
  cases f with
  | zero => rw [parseVal, parseVal]
  | succ f => unfold parseVal; rw [skipWs_ws hw]

theorem parseElems_skip (f : Nat) (s : Str) : parseElems f (skipWs s) = parseElems f s := by
  cases f with
  | zero => rw [parseElems, parseElems]
  | succ f =>
    obtain ⟨w, hw, hs⟩ := skipWs_split s
    have : parseVal f (skipWs s) = parseVal f s := by conv => rhs; rw [hs, parseVal_ws hw]
    unfold parseElems; rw [this]

theorem parseMembers_skip (f : Nat) (s : Str) : parseMembers f (skipWs s) = parseMembers f s := by
  cases f with
  | zero => rw [parseMembers, parseMembers]
  | succ f => unfold parseMembers; rw [skipWs_idem]

theorem elems_head {l : List Tree} {u : Str} (h : SpellsElems l u) (rest : Str) :
    ∃ b r, skipWs (u ++ rest) = b :: r ∧ b ≠ 0x5D := by
  cases h with
  | @one _ w s w' hw h hw' =>
    obtain ⟨b, r, rfl, hb, h1, h2⟩ := h.head
    refine ⟨b, r ++ w' ++ rest, ?_, h1⟩
    simp only [List.append_assoc, List.cons_append]
    rw [skipWs_ws hw, skipWs_here hb]
  | @more _ _ w s w' r0 hw h hw' hr =>
    obtain ⟨b, r, rfl, hb, h1, h2⟩ := h.head
    refine ⟨b, r ++ w' ++ b!"," ++ r0 ++ rest, ?_, h1⟩
    simp only [List.append_assoc, List.cons_append]
    rw [skipWs_ws hw, skipWs_here hb]

theorem members_head {m : List (StrTok × Tree)} {u : Str} (h : SpellsMembers m u) (rest : Str) :
    ∃ r, skipWs (u ++ rest) = 0x22 :: r := by
  cases h with
  | one hw hk h1 h2 h hw' =>
    simp only [List.append_assoc]
    rw [skipWs_ws hw]
    exact ⟨_, skipWs_here (by decide) _⟩
  | more hw hk h1 h2 h hw' hr =>
    simp only [List.append_assoc]
    rw [skipWs_ws hw]
    exact ⟨_, skipWs_here (by decide) _⟩

theorem parse_complete (f : Nat) :
    (∀ t u rest, Spells t u → ((∃ n, t = .num n) → Delim rest) → 2 * u.length + 1 ≤ f → parseVal f (u ++ rest) = .ok (t, rest)) ∧
    (∀ l u rest, SpellsElems l u → 2 * u.length + 2 ≤ f → parseElems f (u ++ 0x5D :: rest) = .ok (l, rest)) ∧
    (∀ m u rest, SpellsMembers m u → 2 * u.length + 2 ≤ f → parseMembers f (u ++ 0x7D :: rest) = .ok (m, rest)) := by
  induction f with
  | zero => exact ⟨fun _ _ _ _ _ h => by omega, fun _ _ _ _ h => by omega, fun _ _ _ _ h => by omega⟩
  | succ f ih =>
    obtain ⟨ih1, ih2, ih3⟩ := ih
    refine ⟨fun t u rest h hr hf => ?_, fun l u rest h hf => ?_, fun m u rest h hf => ?_⟩
    · cases h with
      | null => 
        have := (parseIdent_iff b!"ull" (b!"ull" ++ rest) rest).2 rfl
        rw [parseVal]
        rw [show skipWs (b!"null" ++ rest) = 0x6E :: (b!"ull" ++ rest) from rfl]
        simp only []
        rw [if_pos trivial, this]; rfl
      | tru => 
        have := (parseIdent_iff b!"rue" (b!"rue" ++ rest) rest).2 rfl
        rw [parseVal]
        rw [show skipWs (b!"true" ++ rest) = 0x74 :: (b!"rue" ++ rest) from rfl]
        simp only []
        rw [if_neg (by decide), if_pos trivial, this]; rfl
      | fls => 
        have := (parseIdent_iff b!"alse" (b!"alse" ++ rest) rest).2 rfl
        rw [parseVal]
        rw [show skipWs (b!"false" ++ rest) = 0x66 :: (b!"alse" ++ rest) from rfl]
        simp only []
        rw [if_neg (by decide), if_neg (by decide), if_pos trivial, this]; rfl
      | @num n _ h => 
        obtain ⟨b, r, rfl, hb⟩ := h.head
        obtain ⟨fr, e, hs, h1, h2, h3, h4⟩ := h
        have key := parseNum_complete h1 h2 h3 h4 (hr ⟨_, rfl⟩)
        rcases hb with ⟨rfl, hn⟩ | ⟨hb, hn⟩
        · rw [hn] at hs key
          simp only [if_true, List.cons_append, List.nil_append, List.cons.injEq, true_and] at hs
          subst hs
          rw [parseVal, List.cons_append, skipWs_here (by decide)]
          simp only []
          rw [if_neg (by decide), if_neg (by decide), if_neg (by decide), if_pos trivial]
          simp only [List.append_assoc]
          rw [key]; rfl
        · rw [hn] at hs key
          simp only [Bool.false_eq_true, if_false, List.nil_append] at hs
          have hcl := digit_class b hb
          rw [parseVal, List.cons_append, skipWs_here hcl.1]
          simp only []
          rw [if_neg hcl.2.1, if_neg hcl.2.2.1, if_neg hcl.2.2.2.1, if_neg hcl.2.2.2.2.1, if_pos hb,
            show b :: (r ++ rest) = (b :: r) ++ rest from rfl, hs]
          simp only [List.append_assoc]
          rw [key]; rfl
      | @str k s h =>
        have key := parseStr_complete h rest
        rw [parseVal, show b!"\"" ++ s ++ b!"\"" ++ rest = 0x22 :: (s ++ 0x22 :: rest) by simp, skipWs_here (by decide)]
        simp only []
        rw [if_neg (by decide), if_neg (by decide), if_neg (by decide), if_neg (by decide), if_neg (by decide), if_pos trivial, key]
        rfl
      | @emptyArr w hw =>
        rw [parseVal, show b!"[" ++ w ++ b!"]" ++ rest = 0x5B :: (w ++ 0x5D :: rest) by simp, skipWs_here (by decide)]
        simp only []
        rw [if_neg (by decide), if_neg (by decide), if_neg (by decide), if_neg (by decide), if_neg (by decide), if_neg (by decide),
          if_pos trivial, skipWs_ws hw, skipWs_here (by decide)]
        simp only []
        rw [if_pos trivial]
      | @arr l s h =>
        obtain ⟨b, r, hb, hne⟩ := elems_head h (0x5D :: rest)
        have key := ih2 _ _ rest h (by simp only [List.length_append, List.length_cons, List.length_nil] at hf; omega)
        rw [← parseElems_skip, hb] at key
        rw [parseVal, show b!"[" ++ s ++ b!"]" ++ rest = 0x5B :: (s ++ 0x5D :: rest) by simp, skipWs_here (by decide)]
        simp only []
        rw [if_neg (by decide), if_neg (by decide), if_neg (by decide), if_neg (by decide), if_neg (by decide), if_neg (by decide),
          if_pos trivial, hb]
        simp only []
        rw [if_neg hne, key]; rfl
      | @emptyObj w hw =>
        rw [parseVal, show b!"{" ++ w ++ b!"}" ++ rest = 0x7B :: (w ++ 0x7D :: rest) by simp, skipWs_here (by decide)]
        simp only []
        rw [if_neg (by decide), if_neg (by decide), if_neg (by decide), if_neg (by decide), if_neg (by decide), if_neg (by decide),
          if_neg (by decide), if_pos trivial, skipWs_ws hw, skipWs_here (by decide)]
        simp only []
        rw [if_pos trivial]
      | @obj m s h =>
        obtain ⟨r, hb⟩ := members_head h (0x7D :: rest)
        have key := ih3 _ _ rest h (by simp only [List.length_append, List.length_cons, List.length_nil] at hf; omega)
        rw [← parseMembers_skip, hb] at key
        rw [parseVal, show b!"{" ++ s ++ b!"}" ++ rest = 0x7B :: (s ++ 0x7D :: rest) by simp, skipWs_here (by decide)]
        simp only []
        rw [if_neg (by decide), if_neg (by decide), if_neg (by decide), if_neg (by decide), if_neg (by decide), if_neg (by decide),
          if_neg (by decide), if_pos trivial, hb]
        simp only []
        rw [if_neg (by decide), key]; rfl
    · unfold parseElems
      cases h with
      | @one t w s w' hw h hw' =>
        simp only [List.length_append] at hf
        rw [show w ++ s ++ w' ++ 0x5D :: rest = w ++ (s ++ (w' ++ 0x5D :: rest)) by simp, parseVal_ws hw,
          ih1 t s _ h (fun _ => delim_ws hw' (delim_rbracket rest)) (by omega)]
        simp only [bind, Except.bind]
        rw [skipWs_ws hw', skipWs_here (by decide)]
        simp only []
        rw [if_pos trivial]
      | @more t l w s w' r0 hw h hw' hr =>
        obtain ⟨b, r, hb, hne⟩ := elems_head hr (0x5D :: rest)
        simp only [List.length_append, List.length_cons, List.length_nil] at hf
        have key := ih2 _ _ rest hr (by omega)
        rw [← parseElems_skip, hb] at key
        rw [show w ++ s ++ w' ++ b!"," ++ r0 ++ 0x5D :: rest = w ++ (s ++ (w' ++ 0x2C :: (r0 ++ 0x5D :: rest))) by simp, parseVal_ws hw,
          ih1 t s _ h (fun _ => delim_ws hw' (delim_comma _)) (by omega)]
        simp only [bind, Except.bind]
        rw [skipWs_ws hw', skipWs_here (by decide)]
        simp only []
        rw [if_neg (by decide), if_pos trivial, hb]
        simp only []
        rw [if_neg hne, key]
    · unfold parseMembers
      cases h with
      | @one k t w n w1 w2 s w' hw hk h1 h2 h hw' =>
        simp only [List.length_append, List.length_cons, List.length_nil] at hf
        rw [show w ++ b!"\"" ++ n ++ b!"\"" ++ w1 ++ b!":" ++ w2 ++ s ++ w' ++ 0x7D :: rest =
          w ++ 0x22 :: (n ++ 0x22 :: (w1 ++ 0x3A :: (w2 ++ (s ++ (w' ++ 0x7D :: rest))))) by simp, skipWs_ws hw, skipWs_here (by decide)]
        simp only []
        rw [if_pos trivial, parseStr_complete hk]
        simp only [bind, Except.bind]
        rw [skipWs_ws h1, skipWs_here (by decide)]
        simp only []
        rw [if_pos trivial, parseVal_ws h2, ih1 t s _ h (fun _ => delim_ws hw' (delim_rbrace rest)) (by omega)]
        simp only []
        rw [skipWs_ws hw', skipWs_here (by decide)]
        simp only []
        rw [if_pos trivial]
      | @more k t m w n w1 w2 s w' r0 hw hk h1 h2 h hw' hr =>
        simp only [List.length_append, List.length_cons, List.length_nil] at hf
        have key := ih3 _ _ rest hr (by omega)
        rw [show w ++ b!"\"" ++ n ++ b!"\"" ++ w1 ++ b!":" ++ w2 ++ s ++ w' ++ b!"," ++ r0 ++ 0x7D :: rest =
          w ++ 0x22 :: (n ++ 0x22 :: (w1 ++ 0x3A :: (w2 ++ (s ++ (w' ++ 0x2C :: (r0 ++ 0x7D :: rest)))))) by simp, skipWs_ws hw, skipWs_here (by decide)]
        simp only []
        rw [if_pos trivial, parseStr_complete hk]
        simp only [bind, Except.bind]
        rw [skipWs_ws h1, skipWs_here (by decide)]
        simp only []
        rw [if_pos trivial, parseVal_ws h2, ih1 t s _ h (fun _ => delim_ws hw' (delim_comma _)) (by omega)]
        simp only []
        rw [skipWs_ws hw', skipWs_here (by decide)]
        simp only []
        rw [if_neg (by decide), if_pos trivial, key]

/-- The parser accepts exactly the JSON texts, with the tree they spell. -/
theorem parseJson_iff (s : Str) (t : Tree) : parseJson s = .ok t ↔ JsonText t s := by
  constructor
  · intro h
    unfold parseJson at h
    obtain ⟨⟨t', r⟩, g, h⟩ := except_bind_ok.1 h
    simp only [] at h
    split at h
    · rename_i hr
      cases h
      obtain ⟨w, u, hw, hu, rfl⟩ := (parse_sound _).1 _ _ _ g
      obtain ⟨w', hw', hs⟩ := skipWs_split r
      rw [hr, List.append_nil] at hs
      subst hs
      exact ⟨w, u, r, rfl, hw, hu, hw'⟩
    · cases h
  · rintro ⟨w, u, w', rfl, hw, hu, hw'⟩
    have key := (parse_complete (2 * (w ++ u ++ w').length + 2)).1 t u w' hu (fun _ => delim_of_ws hw')
      (by simp only [List.length_append]; omega)
    unfold parseJson
    rw [show parseVal (2 * (w ++ u ++ w').length + 2) (w ++ u ++ w') = .ok (t, w') by
      conv => lhs; rw [List.append_assoc w u w', parseVal_ws hw]
      simpa using key]
    simp only [bind, Except.bind]
    rw [skipWs_all hw']

end DIDComm
