import Verif.Proofs.Grammar

/-! # Parsing the beginning of a text -/

set_option autoImplicit false

namespace DIDComm

/-- The parser goes on the same way if text is added after something left over, and a text that begins one that is accepted
is accepted too or ends too early. -/
structure Pre {α : Type} (p : Str → Except JErr (α × Str)) : Prop where
  ext : ∀ s x a r, p s = .ok (a, r) → r ≠ [] → p (s ++ x) = .ok (a, r ++ x)
  pre : ∀ s x a r, p (s ++ x) = .ok (a, r) → p s = .error .eof ∨ ∃ b r', p s = .ok (b, r')

/-- At the end of input the parser accepts or fails for that reason. -/
def AtEnd {α : Type} (p : Str → Except JErr (α × Str)) : Prop := p [] = .error .eof ∨ ∃ a, p [] = .ok (a, [])

variable {α β : Type}

theorem Pre.ok (a : α) : Pre fun r => .ok (a, r) := by
  refine ⟨fun s x b r h _ => ?_, fun s x b r h => .inr ⟨a, s, rfl⟩⟩
  cases h; rfl

theorem Pre.error (e : JErr) : Pre fun _ => (.error e : Except JErr (α × Str)) :=
  ⟨fun _ _ _ _ h => (by cases h), fun _ _ _ _ h => (by cases h)⟩

theorem Pre.cons {p : Str → Except JErr (α × Str)} (h : Pre p) (b : UInt8) : Pre fun r => p (b :: r) :=
  ⟨fun s x a r hs hr => h.ext (b :: s) x a r hs hr, fun s x a r hs => h.pre (b :: s) x a r hs⟩

theorem Pre.bind {p : Str → Except JErr (α × Str)} {q : α → Str → Except JErr (β × Str)} (hp : Pre p) (hq : ∀ a, Pre (q a))
    (he : ∀ a, AtEnd (q a)) : Pre fun s => (p s >>= fun y => q y.1 y.2) := by
  constructor
  · intro s x b r h hr
    obtain ⟨⟨a, r1⟩, h1, h2⟩ := except_bind_ok.1 h
    have hne : r1 ≠ [] := by
      rintro rfl
      rcases he a with e | ⟨_, e⟩
      · simp only [e] at h2; cases h2
      · simp only [e] at h2; cases h2; exact hr rfl
    refine except_bind_ok.2 ⟨(a, r1 ++ x), hp.ext s x a r1 h1 hne, (hq a).ext r1 x b r h2 hr⟩
  · intro s x b r h
    obtain ⟨⟨a, r1⟩, h1, h2⟩ := except_bind_ok.1 h
    rcases hp.pre s x a r1 h1 with e | ⟨a', r', e⟩
    · left; rw [e]; rfl
    · by_cases hne : r' = []
      · subst hne
        rcases he a' with e' | ⟨b', e'⟩
        · left; rw [e]; exact e'
        · right; exact ⟨b', [], by rw [e]; exact e'⟩
      · have := hp.ext s x a' r' e hne
        rw [this] at h1
        cases h1
        rcases (hq _).pre r' x b r h2 with e' | ⟨b', r'', e'⟩
        · left; rw [e]; exact e'
        · right; exact ⟨b', r'', by rw [e]; exact e'⟩

theorem AtEnd.bind {p : Str → Except JErr (α × Str)} {q : α → Str → Except JErr (β × Str)} (hp : AtEnd p)
    (he : ∀ a, AtEnd (q a)) : AtEnd fun s => (p s >>= fun y => q y.1 y.2) := by
  rcases hp with e | ⟨a, e⟩
  · left; simp only [e]; rfl
  · rcases he a with e' | ⟨b, e'⟩
    · left; simp only [e]; exact e'
    · right; exact ⟨b, by simp only [e]; exact e'⟩

/-- A parser that looks at the next byte. -/
theorem Pre.byte {g : UInt8 → Str → Except JErr (α × Str)} {p : Str → Except JErr (α × Str)} (hg : ∀ b, Pre (g b))
    (hnil : AtEnd p) (hcons : ∀ b r, p (b :: r) = g b r) : Pre p := by
  constructor
  · intro s x a r h hr
    cases s with
    | nil =>
      rcases hnil with e | ⟨_, e⟩
      · rw [e] at h; cases h
      · rw [e] at h; cases h; exact absurd rfl hr
    | cons b s =>
      rw [hcons] at h
      rw [List.cons_append, hcons]
      exact (hg b).ext s x a r h hr
  · intro s x a r h
    cases s with
    | nil =>
      rcases hnil with e | ⟨a, e⟩
      · exact .inl e
      · exact .inr ⟨a, [], e⟩
    | cons b s =>
      rw [List.cons_append, hcons] at h
      rw [hcons]
      exact (hg b).pre s x a r h

theorem skipWs_append {s r : Str} {b : UInt8} (h : skipWs s = b :: r) (x : Str) : skipWs (s ++ x) = b :: (r ++ x) := by
  obtain ⟨w, hw, rfl⟩ := skipWs_cons_split h
  rw [skipWs_ws hw] at h
  have hb : isWs b = false := by
    rw [skipWs] at h
    split at h
    · rename_i hb
      have := skipWs_length r
      rw [h] at this
      simp only [List.length_cons] at this
      omega
    · rename_i hb; simpa using hb
  rw [List.append_assoc, skipWs_ws hw, List.cons_append, skipWs_here hb]

/-- A parser that skips white space and looks at the next byte. -/
theorem Pre.skip {g : UInt8 → Str → Except JErr (α × Str)} {p : Str → Except JErr (α × Str)} (hg : ∀ b, Pre (g b))
    (hnil : ∀ s, skipWs s = [] → p s = .error .eof) (hcons : ∀ s b r, skipWs s = b :: r → p s = g b r) : Pre p := by
  constructor
  · intro s x a r h hr
    cases hs : skipWs s with
    | nil => rw [hnil s hs] at h; cases h
    | cons b s' =>
      rw [hcons s b s' hs] at h
      rw [hcons _ b _ (skipWs_append hs x)]
      exact (hg b).ext s' x a r h hr
  · intro s x a r h
    cases hs : skipWs s with
    | nil => exact .inl (hnil s hs)
    | cons b s' =>
      rw [hcons _ b _ (skipWs_append hs x)] at h
      rw [hcons s b s' hs]
      exact (hg b).pre s' x a r h

theorem Pre.congr {p q : Str → Except JErr (α × Str)} (h : Pre p) (e : ∀ s, q s = p s) : Pre q := by
  have : q = p := funext e
  rw [this]; exact h

theorem Pre.ite {p q : Str → Except JErr (α × Str)} (c : Prop) [Decidable c] (h : Pre p) (h' : Pre q) :
    Pre fun s => if c then p s else q s := by
  by_cases hc : c
  · exact h.congr fun s => by rw [if_pos hc]
  · exact h'.congr fun s => by rw [if_neg hc]

/-! ## The parsers -/

/-- `parseIdent` as a parser with a result. -/
theorem ident_pre (c : Str) : Pre (fun s => (parseIdent c s).map fun r => ((), r)) := by
  induction c with
  | nil => exact (Pre.ok ()).congr fun s => by cases s <;> rfl
  | cons x c ih =>
    refine Pre.byte (g := fun b r => if b = x then (parseIdent c r).map fun r => ((), r) else .error .syn)
      (fun b => ih.ite _ (Pre.error _)) (.inl rfl) fun b r => ?_
    show Except.map _ (parseIdent (x :: c) (b :: r)) = _
    rw [parseIdent]
    split <;> rfl

theorem ident_end (c : Str) : AtEnd (fun s => (parseIdent c s).map fun r => ((), r)) := by
  cases c with
  | nil => exact .inr ⟨(), rfl⟩
  | cons x c => exact .inl rfl

theorem span_pre : Pre fun s => (.ok (spanDigits s) : Except JErr (Str × Str)) := by
  refine ⟨fun s x a r h hr => ?_, fun s x a r h => .inr ⟨_, _, rfl⟩⟩
  simp only [Except.ok.injEq] at h ⊢
  have hs := spanDigits_spec s
  rw [h] at hs
  obtain ⟨h1, h2, h3⟩ := hs
  simp only at h1 h2 h3
  rw [h1, List.append_assoc]
  refine spanDigits_append _ _ h2 fun b t hb => ?_
  cases r with
  | nil => exact absurd rfl hr
  | cons c r =>
    simp only [List.cons_append, List.cons.injEq] at hb
    obtain ⟨rfl, -⟩ := hb
    exact h3 c r rfl

theorem digits1_pre : Pre digits1 :=
  Pre.byte (g := fun b r => if isDigit b then .ok (spanDigits (b :: r)) else .error .syn)
    (fun b => (span_pre.cons b).ite _ (Pre.error _)) (.inl rfl) fun _ _ => rfl

theorem frac_pre : Pre parseFrac := by
  refine Pre.byte (g := fun b r => if b = 0x2E then (digits1 r >>= fun y => .ok (0x2E :: y.1, y.2)) else .ok ([], b :: r))
    (fun b => Pre.ite _ ?_ ?_) (.inr ⟨[], rfl⟩) fun _ _ => rfl
  · exact digits1_pre.bind (q := fun d r => .ok (0x2E :: d, r)) (fun a => Pre.ok _) (fun a => .inr ⟨_, rfl⟩)
  · exact (Pre.ok ([] : Str)).cons b

theorem exp_pre : Pre parseExp := by
  refine Pre.byte (g := fun b r => if b = 0x65 ∨ b = 0x45 then
      (match r with
      | c :: r1 => if c = 0x2B ∨ c = 0x2D then (digits1 r1 >>= fun y => .ok (b :: c :: y.1, y.2))
        else (digits1 r >>= fun y => .ok (b :: y.1, y.2))
      | [] => .error .eof) else .ok ([], b :: r))
    (fun b => Pre.ite _ ?_ ((Pre.ok ([] : Str)).cons b)) (.inr ⟨[], rfl⟩) fun b r => ?_
  · refine Pre.byte (g := fun c r1 => if c = 0x2B ∨ c = 0x2D then (digits1 r1 >>= fun y => .ok (b :: c :: y.1, y.2))
        else (digits1 (c :: r1) >>= fun y => .ok (b :: y.1, y.2))) (fun c => Pre.ite _ ?_ ?_) (.inl rfl) fun _ _ => rfl
    · exact digits1_pre.bind (q := fun d r => .ok (b :: c :: d, r)) (fun a => Pre.ok _) (fun a => .inr ⟨_, rfl⟩)
    · exact (digits1_pre.cons c).bind (q := fun d r => .ok (b :: d, r)) (fun a => Pre.ok _) (fun a => .inr ⟨_, rfl⟩)
  · cases r <;> rfl

theorem int_pre : Pre parseIntPart := by
  refine Pre.byte (g := fun b r => if b = 0x30 then
      (match r with
      | c :: _ => if isDigit c then .error .syn else .ok ([b], r)
      | [] => .ok ([b], r)) else if isDigit b then .ok (spanDigits (b :: r)) else .error .syn)
    (fun b => Pre.ite _ ?_ ((span_pre.cons b).ite _ (Pre.error _))) (.inl rfl) fun b r => by cases r <;> rfl
  exact Pre.byte (g := fun c r => if isDigit c then .error .syn else .ok ([b], c :: r))
    (fun c => (Pre.error _).ite _ ((Pre.ok [b]).cons c)) (.inr ⟨[b], rfl⟩) fun _ _ => rfl

theorem num_pre (neg : Bool) : Pre (parseNum neg) := by
  have h3 : ∀ i f : Str, Pre fun r2 => (parseExp r2 >>= fun z => .ok ((⟨neg, i, f ++ z.1⟩ : NumTok), z.2)) := fun i f =>
    exp_pre.bind (q := fun e r3 => .ok ((⟨neg, i, f ++ e⟩ : NumTok), r3)) (fun e => Pre.ok _) fun e => .inr ⟨_, rfl⟩
  have h2 : ∀ i : Str, Pre fun r1 => (parseFrac r1 >>= fun y => parseExp y.2 >>= fun z => .ok ((⟨neg, i, y.1 ++ z.1⟩ : NumTok), z.2)) :=
    fun i => frac_pre.bind (h3 i) fun f => .inr ⟨_, rfl⟩
  exact (int_pre.bind h2 fun i => .inr ⟨_, rfl⟩).congr fun s => rfl

/-- The lexer of strings reaches the end of input on every beginning of the text between quotes. -/
theorem Lex.cut {u : Str} {e : Bool} {is : List StrItem} (h : Lex u e is) : ∀ s, s <+: u → lexStr s = .error .eof := by
  induction h with
  | nil =>
    intro s hs
    rw [List.prefix_nil.1 hs]; rfl
  | @plain t e is b h1 h2 h3 _ ih =>
    intro s hs
    cases s with
    | nil => rfl
    | cons c s =>
      obtain ⟨heq, hs'⟩ := List.cons_prefix_cons.1 hs; replace hs := hs'; clear hs'; (try subst heq); (try clear heq)
      rw [lexStr_plain h1 h2 (by rw [u8_lt]; have : (0x20 : UInt8).toNat ≤ c.toNat := h3; omega), ih s hs]; rfl
  | @short t e is b c hb _ ih =>
    intro s hs
    cases s with
    | nil => rfl
    | cons c s =>
      obtain ⟨heq, hs'⟩ := List.cons_prefix_cons.1 hs; replace hs := hs'; clear hs'; (try subst heq); (try clear heq)
      cases s with
      | nil => rfl
      | cons c s =>
        obtain ⟨heq, hs'⟩ := List.cons_prefix_cons.1 hs; replace hs := hs'; clear hs'; (try subst heq); (try clear heq)
        rw [lexStr_simple hb.ascii.2 ((simpleEsc_iff _ _).2 ⟨_, hb, rfl⟩), ih s hs]; rfl
  | @unit t e u f is he _ ih =>
    intro s hs
    obtain ⟨a, b, c, d, rfl, hx⟩ := he.form
    simp only [List.cons_append, List.nil_append] at hs
    cases s with
    | nil => rfl
    | cons c1 s =>
      obtain ⟨heq, hs'⟩ := List.cons_prefix_cons.1 hs; replace hs := hs'; clear hs'; (try subst heq); (try clear heq)
      cases s with
      | nil => rfl
      | cons c2 s =>
        obtain ⟨heq, hs'⟩ := List.cons_prefix_cons.1 hs; replace hs := hs'; clear hs'; (try subst heq); (try clear heq)
        cases s with
        | nil => rfl
        | cons c3 s =>
          obtain ⟨heq, hs'⟩ := List.cons_prefix_cons.1 hs; replace hs := hs'; clear hs'; (try subst heq); (try clear heq)
          cases s with
          | nil => rfl
          | cons c4 s =>
            obtain ⟨heq, hs'⟩ := List.cons_prefix_cons.1 hs; replace hs := hs'; clear hs'; (try subst heq); (try clear heq)
            cases s with
            | nil => rfl
            | cons c5 s =>
              obtain ⟨heq, hs'⟩ := List.cons_prefix_cons.1 hs; replace hs := hs'; clear hs'; (try subst heq); (try clear heq)
              cases s with
              | nil => rfl
              | cons c6 s =>
                obtain ⟨heq, hs'⟩ := List.cons_prefix_cons.1 hs; replace hs := hs'; clear hs'; (try subst heq); (try clear heq)
                rw [lexStr_unit hx, ih s hs]; rfl

theorem lex_pre : Pre lexStr := by
  constructor
  · rintro s x ⟨e, is⟩ r h _
    obtain ⟨u, hu, rfl⟩ := lex_of_lexStr h
    rw [List.append_assoc, List.cons_append]
    exact lexStr_of_lex hu _
  · rintro s x ⟨e, is⟩ r h
    obtain ⟨u, hu, hs⟩ := lex_of_lexStr h
    rcases List.append_eq_append_iff.1 hs with ⟨a, rfl, ha⟩ | ⟨a, rfl, ha⟩
    · exact .inl (hu.cut s ⟨a, rfl⟩)
    · cases a with
      | nil => rw [List.append_nil]; exact .inl (hu.cut u (List.prefix_refl u))
      | cons b a =>
        simp only [List.cons_append, List.cons.injEq] at ha
        obtain ⟨rfl, -⟩ := ha
        exact .inr ⟨_, _, lexStr_of_lex hu a⟩

theorem str_pre : Pre parseStr :=
  (lex_pre.bind (q := fun y r => .ok (strTok y.1 y.2, r)) (fun _ => Pre.ok _) fun _ => .inr ⟨_, rfl⟩).congr fun _ => rfl

theorem parse_pre (f : Nat) : Pre (parseVal f) ∧ Pre (parseElems f) ∧ Pre (parseMembers f) := by
  induction f with
  | zero =>
    exact ⟨(Pre.error .fuel).congr fun s => by rw [parseVal], (Pre.error .fuel).congr fun s => by rw [parseElems],
      (Pre.error .fuel).congr fun s => by rw [parseMembers]⟩
  | succ f ih =>
    obtain ⟨ih1, ih2, ih3⟩ := ih
    have okEnd : ∀ {γ : Type} (c : γ), AtEnd fun r => (.ok (c, r) : Except JErr (γ × Str)) := fun c => .inr ⟨c, rfl⟩
    have ident : ∀ (c : Str) (t : Tree), Pre fun r => (parseIdent c r >>= fun r => .ok (t, r) : Except JErr (Tree × Str)) := fun c t =>
      ((ident_pre c).bind (q := fun _ r => .ok (t, r)) (fun _ => Pre.ok t) fun _ => okEnd t).congr fun s => by
        cases h : parseIdent c s <;> rfl
    have num : ∀ n, Pre fun r => (parseNum n r >>= fun y => .ok (.num y.1, y.2) : Except JErr (Tree × Str)) := fun n =>
      (num_pre n).bind (q := fun k r => .ok (Tree.num k, r)) (fun _ => Pre.ok _) fun _ => okEnd _
    have str : Pre fun r => (parseStr r >>= fun y => .ok (.str y.1, y.2) : Except JErr (Tree × Str)) :=
      str_pre.bind (q := fun k r => .ok (Tree.str k, r)) (fun _ => Pre.ok _) fun _ => okEnd _
    refine ⟨?_, ?_, ?_⟩
    · have arr : Pre fun r => (match skipWs r with
          | [] => .error .eof
          | c :: r1 =>
            if c = 0x5D then .ok (.arr [], r1)
            else do let (l, r) ← parseElems f (c :: r1); .ok (.arr l, r) : Except JErr (Tree × Str)) := by
        refine Pre.skip (g := fun c r1 => if c = 0x5D then .ok (.arr [], r1)
          else do let (l, r) ← parseElems f (c :: r1); .ok (.arr l, r)) (fun c => (Pre.ok _).ite _ ?_)
          (fun s h => by simp only [h]) fun s b r h => by simp only [h]
        exact (ih2.cons c).bind (q := fun l r => .ok (Tree.arr l, r)) (fun _ => Pre.ok _) fun _ => okEnd _
      have obj : Pre fun r => (match skipWs r with
          | [] => .error .eof
          | c :: r1 =>
            if c = 0x7D then .ok (.obj [], r1)
            else do let (m, r) ← parseMembers f (c :: r1); .ok (.obj m, r) : Except JErr (Tree × Str)) := by
        refine Pre.skip (g := fun c r1 => if c = 0x7D then .ok (.obj [], r1)
          else do let (m, r) ← parseMembers f (c :: r1); .ok (.obj m, r)) (fun c => (Pre.ok _).ite _ ?_)
          (fun s h => by simp only [h]) fun s b r h => by simp only [h]
        exact (ih3.cons c).bind (q := fun l r => .ok (Tree.obj l, r)) (fun _ => Pre.ok _) fun _ => okEnd _
      exact Pre.skip (fun b => (ident b!"ull" .null).ite (b = 0x6E) ((ident b!"rue" (.bool true)).ite (b = 0x74)
        ((ident b!"alse" (.bool false)).ite (b = 0x66) ((num true).ite (b = 0x2D) (((num false).cons b).ite (isDigit b = true)
          (str.ite (b = 0x22) (arr.ite (b = 0x5B) (obj.ite (b = 0x7B) (Pre.error .syn)))))))))
        (fun s h => by unfold parseVal; simp only [h]) fun s b r h => by
          rw [parseVal]; simp only [h]; rfl
    · have step : ∀ v : Tree, Pre fun r => (match skipWs r with
          | [] => .error .eof
          | b :: r1 =>
            if b = 0x5D then .ok ([v], r1)
            else if b = 0x2C then
              match skipWs r1 with
              | [] => .error .eof
              | c :: r2 =>
                if c = 0x5D then .error .syn
                else do let (l, r) ← parseElems f (c :: r2); .ok (v :: l, r)
            else .error .syn : Except JErr (List Tree × Str)) := by
        intro v
        have more : Pre fun r1 => (match skipWs r1 with
              | [] => .error .eof
              | c :: r2 =>
                if c = 0x5D then .error .syn
                else do let (l, r) ← parseElems f (c :: r2); .ok (v :: l, r) : Except JErr (List Tree × Str)) := by
          refine Pre.skip (g := fun c r2 => if c = 0x5D then .error .syn
            else do let (l, r) ← parseElems f (c :: r2); .ok (v :: l, r)) (fun c => (Pre.error _).ite _ ?_)
            (fun s h => by simp only [h]) fun s b r h => by simp only [h]
          exact (ih2.cons c).bind (q := fun l r => .ok (v :: l, r)) (fun _ => Pre.ok _) fun _ => okEnd _
        exact Pre.skip (fun b => (Pre.ok [v]).ite (b = 0x5D) (more.ite (b = 0x2C) (Pre.error .syn)))
          (fun s h => by simp only [h]) fun s b r h => by simp only [h]
      exact (ih1.bind step fun _ => .inl rfl).congr fun s => by rw [parseElems]; rfl
    · have last : ∀ (k : StrTok) (v : Tree), Pre fun r3 => (match skipWs r3 with
            | [] => .error .eof
            | b :: r4 =>
              if b = 0x7D then .ok ([(k, v)], r4)
              else if b = 0x2C then
                do let (m, r) ← parseMembers f r4; .ok ((k, v) :: m, r)
              else .error .syn : Except JErr (List (StrTok × Tree) × Str)) := by
        intro k v
        have more : Pre fun r4 => (do let (m, r) ← parseMembers f r4; .ok ((k, v) :: m, r) : Except JErr (List (StrTok × Tree) × Str)) :=
          ih3.bind (q := fun m r => .ok ((k, v) :: m, r)) (fun _ => Pre.ok _) fun _ => okEnd _
        exact Pre.skip (fun b => (Pre.ok [(k, v)]).ite (b = 0x7D) (more.ite (b = 0x2C) (Pre.error .syn)))
          (fun s h => by simp only [h]) fun s b r h => by simp only [h]
      have val : ∀ k : StrTok, Pre fun r1 => (match skipWs r1 with
          | [] => .error .eof
          | c :: r2 =>
            if c = 0x3A then do
              let (v, r3) ← parseVal f r2
              match skipWs r3 with
              | [] => .error .eof
              | b :: r4 =>
                if b = 0x7D then .ok ([(k, v)], r4)
                else if b = 0x2C then
                  do let (m, r) ← parseMembers f r4; .ok ((k, v) :: m, r)
                else .error .syn
            else .error .syn : Except JErr (List (StrTok × Tree) × Str)) := by
        intro k
        exact Pre.skip (fun c => (ih1.bind (last k) fun _ => .inl rfl).ite (c = 0x3A) (Pre.error .syn))
          (fun s h => by simp only [h]) fun s b r h => by simp only [h]
      exact Pre.skip (fun q => (str_pre.bind val fun _ => .inl rfl).ite (q = 0x22) (Pre.error .syn))
        (fun s h => by unfold parseMembers; simp only [h]) fun s b r h => by rw [parseMembers]; simp only [h]; rfl

/-- The same result unless fuel is missing. -/
def Le {α : Type} (x y : Except JErr α) : Prop := x ≠ .error .fuel → y = x

theorem Le.refl {α : Type} (x : Except JErr α) : Le x x := fun _ => rfl

theorem Le.bind {x y : Except JErr α} {k k' : α → Except JErr β} (h : Le x y) (hk : ∀ a, Le (k a) (k' a)) :
    Le (x >>= k) (y >>= k') := by
  intro hne
  cases x with
  | error e =>
    have : y = .error e := h fun he => hne (by cases he; rfl)
    rw [this]; rfl
  | ok a =>
    have : y = .ok a := h (by simp)
    rw [this]
    exact hk a hne

theorem Le.ite {x y x' y' : Except JErr α} (c : Prop) [Decidable c] (h : Le x y) (h' : Le x' y') :
    Le (if c then x else x') (if c then y else y') := by
  by_cases hc : c
  · rw [if_pos hc, if_pos hc]; exact h
  · rw [if_neg hc, if_neg hc]; exact h'

theorem Le.next {g g' : UInt8 → Str → Except JErr α} {e : Except JErr α} (h : ∀ b r, Le (g b r) (g' b r)) (s : Str) :
    Le (match s with | [] => e | b :: r => g b r) (match s with | [] => e | b :: r => g' b r) := by
  cases s with
  | nil => exact Le.refl _
  | cons b r => exact h b r

/-- Enough fuel is enough. -/
theorem parse_mono (f : Nat) :
    (∀ s, Le (parseVal f s) (parseVal (f + 1) s)) ∧ (∀ s, Le (parseElems f s) (parseElems (f + 1) s)) ∧
    (∀ s, Le (parseMembers f s) (parseMembers (f + 1) s)) := by
  induction f with
  | zero =>
    refine ⟨fun s h => ?_, fun s h => ?_, fun s h => ?_⟩
    · exact absurd (by rw [parseVal]) h
    · exact absurd (by rw [parseElems]) h
    · exact absurd (by rw [parseMembers]) h
  | succ f ih =>
    obtain ⟨ih1, ih2, ih3⟩ := ih
    refine ⟨fun s => ?_, fun s => ?_, fun s => ?_⟩
    · rw [parseVal, parseVal.eq_2]
      refine Le.next (fun b r => ?_) _
      refine Le.ite _ (Le.refl _) (Le.ite _ (Le.refl _) (Le.ite _ (Le.refl _) (Le.ite _ (Le.refl _) (Le.ite _ (Le.refl _) (Le.ite _ (Le.refl _)
        (Le.ite _ (Le.next (fun c r1 => Le.ite _ (Le.refl _) ((ih2 _).bind fun _ => Le.refl _)) _)
          (Le.ite _ (Le.next (fun c r1 => Le.ite _ (Le.refl _) ((ih3 _).bind fun _ => Le.refl _)) _) (Le.refl _))))))))
    · rw [parseElems, parseElems.eq_2]
      refine (ih1 _).bind fun y => Le.next (fun b r => Le.ite _ (Le.refl _) (Le.ite _ (Le.next (fun c r1 => Le.ite _ (Le.refl _)
        ((ih2 _).bind fun _ => Le.refl _)) _) (Le.refl _))) _
    · rw [parseMembers, parseMembers.eq_2]
      exact Le.next (fun q r0 => Le.ite _ ((Le.refl _).bind fun y => Le.next (fun c r2 => Le.ite _ ((ih1 _).bind fun z =>
        Le.next (fun b r4 => Le.ite _ (Le.refl _) (Le.ite _ ((ih3 _).bind fun _ => Le.refl _) (Le.refl _))) _) (Le.refl _)) _) (Le.refl _)) _

theorem parseVal_more (f k : Nat) (s : Str) (h : parseVal f s ≠ .error .fuel) : parseVal (f + k) s = parseVal f s := by
  induction k with
  | zero => rfl
  | succ k ih =>
    have := (parse_mono (f + k)).1 s
    rw [ih] at this
    exact this h

/-- A text that begins a JSON text is one or ends too early. -/
theorem parseJson_prefix {s x : Str} {t : Tree} (h : parseJson (s ++ x) = .ok t) :
    parseJson s = .error .eof ∨ ∃ t', parseJson s = .ok t' := by
  unfold parseJson at h ⊢
  obtain ⟨⟨t0, r⟩, g, h⟩ := except_bind_ok.1 h
  simp only [] at h
  split at h
  · rename_i hr
    cases h
    have hf := parseVal_more (2 * s.length + 2) (2 * x.length) s ((parse_fuel _).1 s (by omega))
    rw [show 2 * s.length + 2 + 2 * x.length = 2 * (s ++ x).length + 2 by rw [List.length_append]; omega] at hf
    rw [← hf]
    have hp := (parse_pre (2 * (s ++ x).length + 2)).1
    rcases hp.pre _ _ _ _ g with e | ⟨t', r', e⟩
    · left; rw [e]; rfl
    · by_cases hne : r' = []
      · subst hne; right; exact ⟨t', by rw [e]; rfl⟩
      · have := hp.ext s x t' r' e hne
        rw [this] at g
        cases g
        right
        refine ⟨t, ?_⟩
        rw [e]
        show (match skipWs r' with | [] => _ | _ :: _ => _) = _
        cases hs : skipWs r' with
        | nil => rfl
        | cons b r'' => rw [skipWs_append hs x] at hr; cases hr
  · cases h

/-- What begins with a complete JSON text other than a number, and is one, goes on with white space only. -/
theorem jsonText_ext {s x : Str} {t t' : Tree} (h : JsonText t s) (hn : ∀ n, t ≠ .num n) (h' : JsonText t' (s ++ x)) : Ws x := by
  obtain ⟨w, u, w', rfl, hw, hu, hw'⟩ := h
  rw [← parseJson_iff] at h'
  have key := (parse_complete (2 * (w ++ u ++ w' ++ x).length + 2)).1 t u (w' ++ x) hu (fun ⟨n, e⟩ => absurd e (hn n))
    (by simp only [List.length_append]; omega)
  unfold parseJson at h'
  have key' : parseVal (2 * (w ++ u ++ w' ++ x).length + 2) (w ++ (u ++ (w' ++ x))) = .ok (t, w' ++ x) := by
    rw [parseVal_ws hw]; exact key
  rw [show w ++ (u ++ (w' ++ x)) = w ++ u ++ w' ++ x by simp only [List.append_assoc]] at key'
  rw [key'] at h'
  simp only [bind, Except.bind] at h'
  split at h'
  · rename_i hx
    rw [skipWs_ws hw'] at hx
    obtain ⟨v, hv, hs⟩ := skipWs_split x
    rw [hx, List.append_nil] at hs
    rw [hs]; exact hv
  · cases h'

/-- A text that begins the text of an object is not a number. -/
theorem jsonText_cut {s x : Str} {t : Tree} {m : List (StrTok × Tree)} (h : JsonText (.obj m) (s ++ x)) (h' : JsonText t s) :
    ∀ n, t ≠ .num n := by
  rintro n rfl
  obtain ⟨w, u, w', hs, hw, hu, hw'⟩ := h
  obtain ⟨v, y, v', rfl, hv, hy, hv'⟩ := h'
  have hb : ∃ r, skipWs (v ++ y ++ v' ++ x) = 0x7B :: r := by
    rw [hs, List.append_assoc, skipWs_ws hw]
    cases hu with
    | emptyObj _ => exact ⟨_, skipWs_here (by decide) _⟩
    | obj _ => exact ⟨_, skipWs_here (by decide) _⟩
  obtain ⟨r, hb⟩ := hb
  cases hy with
  | num hy =>
    obtain ⟨b, r', rfl, hc⟩ := hy.head
    simp only [List.append_assoc, List.cons_append] at hb
    rw [skipWs_ws hv] at hb
    rcases hc with ⟨rfl, -⟩ | ⟨hd, -⟩
    · rw [skipWs_here (by decide)] at hb; cases hb
    · rw [skipWs_here (digit_class b hd).1] at hb; cases hb; revert hd; decide

end DIDComm
