import Verif.Proofs.Prefix

/-! # What was read of a text that ends too early begins what the whole text contains -/

set_option autoImplicit false

namespace DIDComm

/-- The text of the first number begins the text of the second. -/
def NumExt (n n' : NumTok) : Prop :=
  (∃ u, NumSpells n u) ∧ n.neg = n'.neg ∧ ((n.tail = [] ∧ n.digits <+: n'.digits) ∨ (n.digits = n'.digits ∧ n.tail <+: n'.tail))

/-- What was read begins this value. -/
inductive Begins : Cut → Tree → Prop
  | nothing (t : Tree) : Begins .nothing t
  | scalar (t : Tree) : Begins .scalar t
  | num {n n' : NumTok} (h : NumExt n n') : Begins (.num n) (.num n')
  | str (is is' : List StrItem) (e : Bool) : Begins (.str is) (.str (strTok e (is ++ is')))
  | arr (l r : List Tree) : Begins (.arr l) (.arr (l ++ r))
  | arrNext (l r : List Tree) {c : Cut} {t : Tree} (h : Begins c t) : Begins (.arrNext l c) (.arr (l ++ t :: r))
  | obj (m r : List (StrTok × Tree)) : Begins (.obj m) (.obj (m ++ r))
  | objKey (m r : List (StrTok × Tree)) (is is' : List StrItem) (e : Bool) (t : Tree) :
      Begins (.objKey m is) (.obj (m ++ (strTok e (is ++ is'), t) :: r))
  | objVal (m r : List (StrTok × Tree)) (k : StrTok) {c : Cut} {t : Tree} (h : Begins c t) : Begins (.objVal m k c) (.obj (m ++ (k, t) :: r))

/-! ## Numbers -/

theorem span_begins {s a x : Str} (h : spanDigits s = (a, [])) : a <+: (spanDigits (s ++ x)).1 := by
  induction s generalizing a with
  | nil => cases h; exact List.nil_prefix
  | cons b s ih =>
    rw [spanDigits] at h
    split at h
    · rename_i hb
      cases hs : spanDigits s with
      | mk p q =>
        rw [hs] at h
        simp only [Prod.mk.injEq] at h
        obtain ⟨rfl, rfl⟩ := h
        rw [List.cons_append, spanDigits, if_pos hb]
        exact List.cons_prefix_cons.2 ⟨rfl, ih hs⟩
    · cases h

theorem digits1_begins {s a x a' r' : Str} (h : digits1 s = .ok (a, [])) (h' : digits1 (s ++ x) = .ok (a', r')) : a <+: a' := by
  cases s with
  | nil => cases h
  | cons b s =>
    simp only [digits1, List.cons_append] at h h'
    by_cases hb : isDigit b = true
    · rw [if_pos hb] at h h'
      have := span_begins (x := x) (Except.ok.inj h)
      rw [List.cons_append, Except.ok.inj h'] at this
      exact this
    · rw [if_neg hb] at h; cases h

theorem frac_begins {s a x a' r' : Str} (h : parseFrac s = .ok (a, [])) (h' : parseFrac (s ++ x) = .ok (a', r')) : a <+: a' := by
  cases s with
  | nil => cases h; exact List.nil_prefix
  | cons b s =>
    simp only [parseFrac, List.cons_append] at h h'
    by_cases hb : b = 0x2E
    · rw [if_pos hb] at h h'
      obtain ⟨⟨d, r⟩, h1, h2⟩ := except_bind_ok.1 h
      obtain ⟨⟨d', q⟩, h1', h2'⟩ := except_bind_ok.1 h'
      cases h2; cases h2'
      exact List.cons_prefix_cons.2 ⟨rfl, digits1_begins h1 h1'⟩
    · rw [if_neg hb] at h; cases h

theorem exp_begins {s a x a' r' : Str} (h : parseExp s = .ok (a, [])) (h' : parseExp (s ++ x) = .ok (a', r')) : a <+: a' := by
  cases s with
  | nil => cases h; exact List.nil_prefix
  | cons b s =>
    simp only [parseExp, List.cons_append] at h h'
    by_cases hb : b = 0x65 ∨ b = 0x45
    · rw [if_pos hb] at h h'
      cases s with
      | nil => cases h
      | cons c s =>
        simp only [List.cons_append] at h h'
        by_cases hc : c = 0x2B ∨ c = 0x2D
        · rw [if_pos hc] at h h'
          obtain ⟨⟨d, r⟩, h1, h2⟩ := except_bind_ok.1 h
          obtain ⟨⟨d', q⟩, h1', h2'⟩ := except_bind_ok.1 h'
          cases h2; cases h2'
          exact List.cons_prefix_cons.2 ⟨rfl, List.cons_prefix_cons.2 ⟨rfl, digits1_begins h1 h1'⟩⟩
        · rw [if_neg hc] at h h'
          obtain ⟨⟨d, r⟩, h1, h2⟩ := except_bind_ok.1 h
          obtain ⟨⟨d', q⟩, h1', h2'⟩ := except_bind_ok.1 h'
          cases h2; cases h2'
          exact List.cons_prefix_cons.2 ⟨rfl, digits1_begins (s := c :: s) h1 h1'⟩
    · rw [if_neg hb] at h; cases h

theorem int_begins {s a x a' r' : Str} (h : parseIntPart s = .ok (a, [])) (h' : parseIntPart (s ++ x) = .ok (a', r')) : a <+: a' := by
  cases s with
  | nil => cases h
  | cons b s =>
    simp only [parseIntPart, List.cons_append] at h h'
    by_cases hb : b = 0x30
    · rw [if_pos hb] at h h'
      cases s with
      | nil =>
        cases h
        split at h'
        · split at h'
          · cases h'
          · cases h'; exact List.prefix_refl _
        · cases h'; exact List.prefix_refl _
      | cons c s =>
        simp only at h
        split at h <;> cases h
    · rw [if_neg hb] at h h'
      by_cases hd : isDigit b = true
      · rw [if_pos hd] at h h'
        have := span_begins (x := x) (Except.ok.inj h)
        rw [List.cons_append, Except.ok.inj h'] at this
        exact this
      · rw [if_neg hd] at h; cases h

theorem num_begins {neg : Bool} {s x r' : Str} {n n' : NumTok} (h : parseNum neg s = .ok (n, []))
    (h' : parseNum neg (s ++ x) = .ok (n', r')) : NumExt n n' := by
  obtain ⟨_, hw, -⟩ := parseNum_sound h
  unfold parseNum at h h'
  obtain ⟨⟨i, r1⟩, h1, h⟩ := except_bind_ok.1 h
  obtain ⟨⟨f, r2⟩, h2, h⟩ := except_bind_ok.1 h
  obtain ⟨⟨e, r3⟩, h3, h⟩ := except_bind_ok.1 h
  obtain ⟨⟨i', r1'⟩, h1', h'⟩ := except_bind_ok.1 h'
  obtain ⟨⟨f', r2'⟩, h2', h'⟩ := except_bind_ok.1 h'
  obtain ⟨⟨e', r3'⟩, h3', h'⟩ := except_bind_ok.1 h'
  cases h; cases h'
  refine ⟨⟨_, hw⟩, rfl, ?_⟩
  by_cases n1 : r1 = []
  · subst n1
    cases h2; cases h3
    exact .inl ⟨rfl, int_begins h1 h1'⟩
  · rw [int_pre.ext _ x _ _ h1 n1] at h1'
    cases h1'
    refine .inr ⟨rfl, ?_⟩
    by_cases n2 : r2 = []
    · subst n2
      cases h3
      simp only [List.append_nil]
      exact (frac_begins h2 h2').trans (List.prefix_append _ _)
    · rw [frac_pre.ext _ x _ _ h2 n2] at h2'
      cases h2'
      exact (List.prefix_append_right_inj _).2 (exp_begins h3 h3')

/-! ## Strings -/

theorem lexCut_plain {b : UInt8} {r : Str} (h : b ≠ 0x5C) : lexCut (b :: r) = .byte b :: lexCut r := by
  rw [lexCut.eq_def]; simp only [h, if_false]

theorem lexCut_simple {c e : UInt8} {r : Str} (h : c ≠ 0x75) (he : simpleEsc c = some e) : lexCut (0x5C :: c :: r) = .byte e :: lexCut r := by
  rw [lexCut.eq_def]; simp only [if_true, h, if_false, he]

theorem lexCut_unit {a b c d : UInt8} {u : Nat} {r : Str} (h : hex4 a b c d = some u) :
    lexCut (0x5C :: 0x75 :: a :: b :: c :: d :: r) = .unit u :: lexCut r := by
  rw [lexCut.eq_def]; simp only [if_true, h]

theorem Lex.cut_begins {u : Str} {e : Bool} {is : List StrItem} (h : Lex u e is) : ∀ s, s <+: u → lexCut s <+: is := by
  induction h with
  | nil =>
    intro s hs
    rw [List.prefix_nil.1 hs]; exact List.nil_prefix
  | @plain t e is b h1 h2 h3 _ ih =>
    intro s hs
    cases s with
    | nil => exact List.nil_prefix
    | cons c s =>
      rw [List.cons_prefix_cons] at hs
      obtain ⟨hc, hs⟩ := hs
      subst hc
      rw [lexCut_plain h2]
      exact List.cons_prefix_cons.2 ⟨rfl, ih s hs⟩
  | @short t e is b c hb _ ih =>
    intro s hs
    match s, hs with
    | [], _ => exact List.nil_prefix
    | [c1], hs =>
      simp only [List.cons_prefix_cons] at hs
      obtain ⟨hc, -⟩ := hs
      subst hc; exact List.nil_prefix
    | c1 :: c2 :: s, hs =>
      simp only [List.cons_prefix_cons] at hs
      obtain ⟨hc, hd, hs'⟩ := hs
      subst hc hd
      rw [lexCut_simple hb.ascii.2 ((simpleEsc_iff _ _).2 ⟨_, hb, rfl⟩)]
      exact List.cons_prefix_cons.2 ⟨rfl, ih s hs'⟩
  | @unit t e u f is he _ ih =>
    intro s hs
    obtain ⟨a, b, c, d, rfl, hx⟩ := he.form
    simp only [List.cons_append, List.nil_append] at hs
    match s, hs with
    | [], _ => exact List.nil_prefix
    | [c1], hs =>
      simp only [List.cons_prefix_cons] at hs
      obtain ⟨hc, -⟩ := hs
      subst hc; exact List.nil_prefix
    | [c1, c2], hs | [c1, c2, c3], hs | [c1, c2, c3, c4], hs | [c1, c2, c3, c4, c5], hs =>
      simp only [List.cons_prefix_cons] at hs
      obtain ⟨hc, hd, -⟩ := hs
      subst hc hd; exact List.nil_prefix
    | c1 :: c2 :: c3 :: c4 :: c5 :: c6 :: s, hs =>
      simp only [List.cons_prefix_cons] at hs
      obtain ⟨e1, e2, e3, e4, e5, e6, hs'⟩ := hs
      subst e1 e2 e3 e4 e5 e6
      rw [lexCut_unit hx]
      exact List.cons_prefix_cons.2 ⟨rfl, ih s hs'⟩

theorem str_cut {s x r : Str} {k : StrTok} {e : JErr} (h : parseStr s = .error e) (h' : parseStr (s ++ x) = .ok (k, r)) :
    ∃ b is', k = strTok b (lexCut s ++ is') := by
  unfold parseStr at h h'
  obtain ⟨⟨⟨b, is⟩, q⟩, h1, h2⟩ := except_bind_ok.1 h'
  cases h2
  obtain ⟨u, hu, hs⟩ := lex_of_lexStr h1
  rcases List.append_eq_append_iff.1 hs with ⟨a, rfl, ha⟩ | ⟨a, rfl, ha⟩
  · obtain ⟨is', rfl⟩ := hu.cut_begins s ⟨a, rfl⟩
    exact ⟨b, is', rfl⟩
  · cases a with
    | nil =>
      obtain ⟨is', rfl⟩ := hu.cut_begins u (List.prefix_refl u)
      exact ⟨b, is', by rw [List.append_nil]⟩
    | cons c a =>
      simp only [List.cons_append, List.cons.injEq] at ha
      obtain ⟨rfl, -⟩ := ha
      rw [lexStr_of_lex hu a] at h
      cases h

theorem str_ok {s x r r' : Str} {k k' : StrTok} (h : parseStr s = .ok (k, r)) (h' : parseStr (s ++ x) = .ok (k', r')) :
    k' = k ∧ r' = r ++ x := by
  unfold parseStr at h h'
  obtain ⟨⟨⟨b, is⟩, q⟩, h1, h2⟩ := except_bind_ok.1 h
  cases h2
  obtain ⟨u, hu, rfl⟩ := lex_of_lexStr h1
  rw [List.append_assoc, List.cons_append, lexStr_of_lex hu] at h'
  cases h'
  exact ⟨rfl, rfl⟩

/-! ## Values -/

theorem parseVal_agree {f g : Nat} {s : Str} {a b : Tree × Str} (h : parseVal f s = .ok a) (h' : parseVal g s = .ok b) : a = b := by
  rcases Nat.le_total f g with hl | hl
  · have := parseVal_more f (g - f) s (by rw [h]; simp)
    rw [show f + (g - f) = g by omega, h, h'] at this
    exact (Except.ok.inj this).symm
  · have := parseVal_more g (f - g) s (by rw [h']; simp)
    rw [show g + (f - g) = f by omega, h, h'] at this
    exact Except.ok.inj this

/-- A value that was read completely is the same in a longer text, except a number at the very end. -/
theorem val_ext {f g : Nat} {s x r r' : Str} {v t : Tree} (h : parseVal f s = .ok (v, r)) (h' : parseVal g (s ++ x) = .ok (t, r')) :
    (((∀ n, v ≠ .num n) ∨ r ≠ []) ∧ t = v ∧ r' = r ++ x) ∨ (r = [] ∧ ∃ n n', v = .num n ∧ t = .num n' ∧ NumExt n n') := by
  by_cases hr : r = []
  · subst hr
    by_cases hn : ∃ n, v = .num n
    · obtain ⟨n, rfl⟩ := hn
      refine .inr ⟨rfl, n, ?_⟩
      cases f with
      | zero => rw [parseVal] at h; cases h
      | succ f =>
        cases g with
        | zero => rw [parseVal] at h'; cases h'
        | succ g =>
          rw [parseVal] at h h'
          cases hs : skipWs s with
          | nil => rw [hs] at h; cases h
          | cons b s' =>
            rw [skipWs_append hs x] at h'
            rw [hs] at h
            simp only [] at h h'
            by_cases c1 : b = 0x6E
            · rw [if_pos c1] at h; obtain ⟨_, _, h⟩ := except_bind_ok.1 h; cases h
            rw [if_neg c1] at h h'
            by_cases c2 : b = 0x74
            · rw [if_pos c2] at h; obtain ⟨_, _, h⟩ := except_bind_ok.1 h; cases h
            rw [if_neg c2] at h h'
            by_cases c3 : b = 0x66
            · rw [if_pos c3] at h; obtain ⟨_, _, h⟩ := except_bind_ok.1 h; cases h
            rw [if_neg c3] at h h'
            by_cases c4 : b = 0x2D
            · rw [if_pos c4] at h h'
              obtain ⟨⟨n1, q⟩, g1, h⟩ := except_bind_ok.1 h
              obtain ⟨⟨n2, q'⟩, g2, h'⟩ := except_bind_ok.1 h'
              cases h; cases h'
              exact ⟨n2, rfl, rfl, num_begins g1 g2⟩
            rw [if_neg c4] at h h'
            by_cases c5 : isDigit b = true
            · rw [if_pos c5] at h h'
              obtain ⟨⟨n1, q⟩, g1, h⟩ := except_bind_ok.1 h
              obtain ⟨⟨n2, q'⟩, g2, h'⟩ := except_bind_ok.1 h'
              cases h; cases h'
              exact ⟨n2, rfl, rfl, num_begins (s := b :: s') g1 g2⟩
            rw [if_neg c5] at h
            by_cases c6 : b = 0x22
            · rw [if_pos c6] at h; obtain ⟨_, _, h⟩ := except_bind_ok.1 h; cases h
            rw [if_neg c6] at h
            by_cases c7 : b = 0x5B
            · rw [if_pos c7] at h
              split at h
              · cases h
              · split at h
                · cases h
                · obtain ⟨_, _, h⟩ := except_bind_ok.1 h; cases h
            rw [if_neg c7] at h
            by_cases c8 : b = 0x7B
            · rw [if_pos c8] at h
              split at h
              · cases h
              · split at h
                · cases h
                · obtain ⟨_, _, h⟩ := except_bind_ok.1 h; cases h
            rw [if_neg c8] at h
            cases h
    · left
      obtain ⟨w, u, hw, hu, hs⟩ := (parse_sound f).1 _ _ _ h
      rw [List.append_nil] at hs
      subst hs
      have key := (parse_complete (2 * u.length + 1)).1 v u x hu (fun e => absurd e hn) (by omega)
      have key' : parseVal (2 * u.length + 1) (w ++ u ++ x) = .ok (v, x) := by
        rw [List.append_assoc, parseVal_ws hw]; exact key
      have := parseVal_agree h' key'
      cases this
      exact ⟨.inl fun n hn' => hn ⟨n, hn'⟩, rfl, rfl⟩
  · left
    have := parseVal_agree h' ((parse_pre f).1.ext s x v r h hr)
    cases this
    exact ⟨.inr hr, rfl, rfl⟩

theorem begins (f : Nat) :
    (∀ g s x t r, parseVal f s = .error .eof → parseVal g (s ++ x) = .ok (t, r) → Begins (cutVal f s) t) ∧
    (∀ g s x l l0 r, parseElems f s = .error .eof → parseElems g (s ++ x) = .ok (l, r) → Begins (cutElems f l0 s) (.arr (l0 ++ l))) ∧
    (∀ g s x m m0 r, parseMembers f s = .error .eof → parseMembers g (s ++ x) = .ok (m, r) → Begins (cutMembers f m0 s) (.obj (m0 ++ m))) := by
  induction f with
  | zero =>
    refine ⟨fun g s x t r h => ?_, fun g s x l l0 r h => ?_, fun g s x m m0 r h => ?_⟩
    · rw [parseVal] at h; cases h
    · rw [parseElems] at h; cases h
    · rw [parseMembers] at h; cases h
  | succ f ih =>
    obtain ⟨ih1, ih2, ih3⟩ := ih
    refine ⟨fun g s x t r h h' => ?_, fun g s x l l0 r h h' => ?_, fun g s x m m0 r h h' => ?_⟩
    · cases g with
      | zero => rw [parseVal] at h'; cases h'
      | succ g =>
        rw [cutVal]
        rw [parseVal] at h h'
        cases hs : skipWs s with
        | nil => exact .nothing _
        | cons b s' =>
          rw [skipWs_append hs x] at h'
          rw [hs] at h
          simp only [] at h h' ⊢
          by_cases c6 : b = 0x22
          · subst c6
            rw [if_neg (by decide), if_neg (by decide), if_neg (by decide), if_neg (by decide), if_neg (by decide), if_pos rfl] at h h'
            rw [if_pos rfl]
            obtain ⟨⟨k, q⟩, g1, h'⟩ := except_bind_ok.1 h'
            cases h'
            cases hp : parseStr s' with
            | ok a => rw [hp] at h; cases h
            | error e =>
              obtain ⟨b, is', rfl⟩ := str_cut hp g1
              exact .str _ _ _
          rw [if_neg c6]
          by_cases c7 : b = 0x5B
          · subst c7
            rw [if_neg (by decide), if_neg (by decide), if_neg (by decide), if_neg (by decide), if_neg (by decide), if_neg (by decide),
              if_pos rfl] at h h'
            rw [if_pos rfl]
            cases hs' : skipWs s' with
            | nil =>
              simp only []
              split at h'
              · cases h'
              · split at h'
                · cases h'; exact .arr [] _
                · obtain ⟨⟨l, q⟩, g1, h'⟩ := except_bind_ok.1 h'
                  cases h'
                  exact .arr [] _
            | cons c s2 =>
              rw [skipWs_append hs' x] at h'
              rw [hs'] at h
              simp only [] at h h' ⊢
              by_cases cc : c = 0x5D
              · rw [if_pos cc] at h; cases h
              · rw [if_neg cc] at h h'
                obtain ⟨⟨l, q⟩, g1, h'⟩ := except_bind_ok.1 h'
                cases h'
                have he : parseElems f (c :: s2) = .error .eof := by
                  cases hp : parseElems f (c :: s2) with
                  | ok a => rw [hp] at h; cases h
                  | error e => rw [hp] at h; cases h; rfl
                exact ih2 g (c :: s2) x l [] _ he g1
          rw [if_neg c7]
          by_cases c8 : b = 0x7B
          · subst c8
            rw [if_neg (by decide), if_neg (by decide), if_neg (by decide), if_neg (by decide), if_neg (by decide), if_neg (by decide),
              if_neg (by decide), if_pos rfl] at h h'
            rw [if_pos rfl]
            cases hs' : skipWs s' with
            | nil =>
              simp only []
              split at h'
              · cases h'
              · split at h'
                · cases h'; exact .obj [] _
                · obtain ⟨⟨l, q⟩, g1, h'⟩ := except_bind_ok.1 h'
                  cases h'
                  exact .obj [] _
            | cons c s2 =>
              rw [skipWs_append hs' x] at h'
              rw [hs'] at h
              simp only [] at h h' ⊢
              by_cases cc : c = 0x7D
              · rw [if_pos cc] at h; cases h
              · rw [if_neg cc] at h h'
                obtain ⟨⟨l, q⟩, g1, h'⟩ := except_bind_ok.1 h'
                cases h'
                have he : parseMembers f (c :: s2) = .error .eof := by
                  cases hp : parseMembers f (c :: s2) with
                  | ok a => rw [hp] at h; cases h
                  | error e => rw [hp] at h; cases h; rfl
                exact ih3 g (c :: s2) x l [] _ he g1
          rw [if_neg c8]
          exact .scalar _
    · cases g with
      | zero => rw [parseElems] at h'; cases h'
      | succ g =>
        rw [cutElems]
        rw [parseElems] at h h'
        obtain ⟨⟨t, r1⟩, g1, h'⟩ := except_bind_ok.1 h'
        simp only [] at h'
        have hl : ∃ l', l = t :: l' := by
          split at h'
          · cases h'
          · split at h'
            · cases h'; exact ⟨[], rfl⟩
            · split at h'
              · split at h'
                · cases h'
                · split at h'
                  · cases h'
                  · obtain ⟨⟨l', q⟩, _, h'⟩ := except_bind_ok.1 h'
                    cases h'; exact ⟨l', rfl⟩
              · cases h'
        cases hp : parseVal f s with
        | error e =>
          rw [hp] at h
          cases h
          obtain ⟨l', rfl⟩ := hl
          exact .arrNext _ _ (ih1 g s x t r1 hp g1)
        | ok a =>
          obtain ⟨v, q⟩ := a
          rw [hp] at h
          replace h := show (match skipWs q with
            | [] => .error .eof
            | b :: r1 =>
              if b = 0x5D then .ok ([v], r1)
              else if b = 0x2C then
                match skipWs r1 with
                | [] => .error .eof
                | c :: r2 =>
                  if c = 0x5D then .error .syn
                  else do let (l, r) ← parseElems f (c :: r2); .ok (v :: l, r)
              else .error .syn : Except JErr (List Tree × Str)) = .error .eof from h
          rcases val_ext hp g1 with ⟨hv, rfl, rfl⟩ | ⟨rfl, n, n', rfl, rfl, hn⟩
          · have goal : Begins (match skipWs q with
                | [] => .arr (l0 ++ [t])
                | _ :: r1 => match skipWs r1 with
                  | [] => .arrNext (l0 ++ [t]) .nothing
                  | c :: r2 => cutElems f (l0 ++ [t]) (c :: r2)) (.arr (l0 ++ l)) := by
              cases hq : skipWs q with
              | nil =>
                obtain ⟨l', rfl⟩ := hl
                simpa using Begins.arr (l0 ++ [t]) l'
              | cons b q1 =>
                rw [skipWs_append hq x] at h'
                rw [hq] at h
                simp only [] at h h' ⊢
                by_cases c1 : b = 0x5D
                · rw [if_pos c1] at h; cases h
                rw [if_neg c1] at h h'
                by_cases c2 : b = 0x2C
                · rw [if_pos c2] at h h'
                  cases hq1 : skipWs q1 with
                  | nil =>
                    simp only []
                    split at h'
                    · cases h'
                    · split at h'
                      · cases h'
                      · obtain ⟨⟨l', q'⟩, g2, h'⟩ := except_bind_ok.1 h'
                        cases h'
                        cases g with
                        | zero => rw [parseElems] at g2; cases g2
                        | succ g =>
                          rw [parseElems] at g2
                          obtain ⟨⟨t2, r3⟩, _, g2⟩ := except_bind_ok.1 g2
                          have : ∃ l2, l' = t2 :: l2 := by
                            simp only [] at g2
                            split at g2
                            · cases g2
                            · split at g2
                              · cases g2; exact ⟨[], rfl⟩
                              · split at g2
                                · split at g2
                                  · cases g2
                                  · split at g2
                                    · cases g2
                                    · obtain ⟨⟨l', q⟩, _, g2⟩ := except_bind_ok.1 g2
                                      cases g2; exact ⟨l', rfl⟩
                                · cases g2
                          obtain ⟨l2, rfl⟩ := this
                          simpa using Begins.arrNext (l0 ++ [t]) l2 (Begins.nothing t2)
                  | cons c q2 =>
                    rw [skipWs_append hq1 x] at h'
                    rw [hq1] at h
                    simp only [] at h h' ⊢
                    by_cases c3 : c = 0x5D
                    · rw [if_pos c3] at h; cases h
                    rw [if_neg c3] at h h'
                    obtain ⟨⟨l', q'⟩, g2, h'⟩ := except_bind_ok.1 h'
                    cases h'
                    have he : parseElems f (c :: q2) = .error .eof := by
                      cases hp : parseElems f (c :: q2) with
                      | ok a => rw [hp] at h; cases h
                      | error e => rw [hp] at h; cases h; rfl
                    simpa using ih2 g (c :: q2) x l' (l0 ++ [t]) _ he g2
                · rw [if_neg c2] at h; cases h
            split
            · rename_i heq; cases heq
            · rename_i n heq
              cases heq
              rcases hv with hv | hv
              · exact absurd rfl (hv n)
              · exact absurd rfl hv
            · rename_i heq
              cases heq
              exact goal
          · obtain ⟨l', rfl⟩ := hl
            exact .arrNext _ _ (.num hn)
    · cases g with
      | zero => rw [parseMembers] at h'; cases h'
      | succ g =>
        rw [cutMembers]
        rw [parseMembers] at h h'
        cases hs : skipWs s with
        | nil => exact .obj _ _
        | cons q0 s0 =>
          rw [skipWs_append hs x] at h'
          rw [hs] at h
          simp only [] at h h' ⊢
          by_cases c1 : q0 = 0x22
          · rw [if_pos c1] at h h'
            obtain ⟨⟨k, r1⟩, g1, h'⟩ := except_bind_ok.1 h'
            simp only [] at h'
            have hm : ∃ t m', m = (k, t) :: m' := by
              split at h'
              · cases h'
              · split at h'
                · obtain ⟨⟨t, r3⟩, _, h'⟩ := except_bind_ok.1 h'
                  simp only [] at h'
                  split at h'
                  · cases h'
                  · split at h'
                    · cases h'; exact ⟨t, [], rfl⟩
                    · split at h'
                      · obtain ⟨⟨m', q⟩, _, h'⟩ := except_bind_ok.1 h'
                        cases h'; exact ⟨t, m', rfl⟩
                      · cases h'
                · cases h'
            cases hp : parseStr s0 with
            | error e =>
              obtain ⟨t, m', rfl⟩ := hm
              obtain ⟨b, is', rfl⟩ := str_cut hp g1
              exact .objKey _ _ _ _ _ _
            | ok a =>
              obtain ⟨k', q⟩ := a
              obtain ⟨rfl, rfl⟩ := str_ok hp g1
              rw [hp] at h
              replace h := show (match skipWs q with
                | [] => .error .eof
                | c :: r2 =>
                  if c = 0x3A then do
                    let (v, r3) ← parseVal f r2
                    match skipWs r3 with
                    | [] => .error .eof
                    | b :: r4 =>
                      if b = 0x7D then .ok ([(k, v)], r4)
                      else if b = 0x2C then
                        do let (m, r) ← parseMembers f r4; .ok ((k, v) :: m, r)
                      else .error .syn
                  else .error .syn : Except JErr (List (StrTok × Tree) × Str)) = .error .eof from h
              simp only []
              cases hq : skipWs q with
              | nil =>
                obtain ⟨t, m', rfl⟩ := hm
                exact .objVal _ _ _ (.nothing t)
              | cons c r2 =>
                rw [skipWs_append hq x] at h'
                rw [hq] at h
                simp only [] at h h' ⊢
                by_cases c2 : c = 0x3A
                · rw [if_pos c2] at h h'
                  obtain ⟨⟨t, r3⟩, g2, h'⟩ := except_bind_ok.1 h'
                  simp only [] at h'
                  have hm : ∃ m', m = (k, t) :: m' := by
                    split at h'
                    · cases h'
                    · split at h'
                      · cases h'; exact ⟨[], rfl⟩
                      · split at h'
                        · obtain ⟨⟨m', q⟩, _, h'⟩ := except_bind_ok.1 h'
                          cases h'; exact ⟨m', rfl⟩
                        · cases h'
                  cases hv : parseVal f r2 with
                  | error e =>
                    rw [hv] at h
                    cases h
                    obtain ⟨m', rfl⟩ := hm
                    exact .objVal _ _ _ (ih1 g r2 x t r3 hv g2)
                  | ok a =>
                    obtain ⟨v, q3⟩ := a
                    rw [hv] at h
                    replace h := show (match skipWs q3 with
                      | [] => .error .eof
                      | b :: r4 =>
                        if b = 0x7D then .ok ([(k, v)], r4)
                        else if b = 0x2C then
                          do let (m, r) ← parseMembers f r4; .ok ((k, v) :: m, r)
                        else .error .syn : Except JErr (List (StrTok × Tree) × Str)) = .error .eof from h
                    rcases val_ext hv g2 with ⟨hv', rfl, rfl⟩ | ⟨rfl, n, n', rfl, rfl, hn⟩
                    · have goal : Begins (match skipWs q3 with
                          | [] => .obj (m0 ++ [(k, t)])
                          | _ :: r4 => cutMembers f (m0 ++ [(k, t)]) r4) (.obj (m0 ++ m)) := by
                        cases hq3 : skipWs q3 with
                        | nil =>
                          obtain ⟨m', rfl⟩ := hm
                          simpa using Begins.obj (m0 ++ [(k, t)]) m'
                        | cons b r4 =>
                          rw [skipWs_append hq3 x] at h'
                          rw [hq3] at h
                          simp only [] at h h' ⊢
                          by_cases c3 : b = 0x7D
                          · rw [if_pos c3] at h; cases h
                          rw [if_neg c3] at h h'
                          by_cases c4 : b = 0x2C
                          · rw [if_pos c4] at h h'
                            obtain ⟨⟨m', q'⟩, g3, h'⟩ := except_bind_ok.1 h'
                            cases h'
                            have he : parseMembers f r4 = .error .eof := by
                              cases hp : parseMembers f r4 with
                              | ok a => rw [hp] at h; cases h
                              | error e => rw [hp] at h; cases h; rfl
                            simpa using ih3 g r4 x m' (m0 ++ [(k, t)]) _ he g3
                          · rw [if_neg c4] at h; cases h
                      split
                      · rename_i heq; cases heq
                      · rename_i n heq
                        cases heq
                        rcases hv' with hv | hv
                        · exact absurd rfl (hv n)
                        · exact absurd rfl hv
                      · rename_i heq
                        cases heq
                        exact goal
                    · obtain ⟨m', rfl⟩ := hm
                      exact .objVal _ _ _ (.num hn)
                · rw [if_neg c2] at h; cases h
          · rw [if_neg c1] at h; cases h

/-- What was read of a text that ends too early begins the content of every text that goes on from there. -/
theorem cutOf_begins {s x : Str} {t : Tree} (h : parseJson s = .error .eof) (h' : parseJson (s ++ x) = .ok t) : Begins (cutOf s) t := by
  unfold parseJson at h h'
  obtain ⟨⟨t', r⟩, g, h'⟩ := except_bind_ok.1 h'
  simp only [] at h'
  have : t' = t := by
    split at h'
    · exact Except.ok.inj h'
    · cases h'
  subst this
  have he : parseVal (2 * s.length + 2) s = .error .eof := by
    cases hp : parseVal (2 * s.length + 2) s with
    | error e => rw [hp] at h; cases h; rfl
    | ok a =>
      rw [hp] at h
      simp only [bind, Except.bind] at h
      split at h <;> cases h
  exact (begins _).1 _ s x t' r he g

end DIDComm
