import Verif.Proofs.EarlyTypes

/-! # What was read before the end of a text rules it out -/

set_option autoImplicit false

namespace DIDComm

/-! ## The members before a comma are read -/

theorem cutMembers_step {k : StrTok} {t : Tree} {w n w1 w2 s w' : Str} (hw : Ws w) (hk : StrSpells k n) (h1 : Ws w1) (h2 : Ws w2)
    (h : Spells t s) (hw' : Ws w') (f : Nat) (hf : 2 * s.length + 1 ≤ f) (m0 : List (StrTok × Tree)) (y : Str) :
    (∀ e, parseMembers f y = .error e →
      parseMembers (f + 1) (w ++ b!"\"" ++ n ++ b!"\"" ++ w1 ++ b!":" ++ w2 ++ s ++ w' ++ 0x2C :: y) = .error e) ∧
    (∀ m r, parseMembers f y = .ok (m, r) →
      parseMembers (f + 1) (w ++ b!"\"" ++ n ++ b!"\"" ++ w1 ++ b!":" ++ w2 ++ s ++ w' ++ 0x2C :: y) = .ok ((k, t) :: m, r)) ∧
    cutMembers (f + 1) m0 (w ++ b!"\"" ++ n ++ b!"\"" ++ w1 ++ b!":" ++ w2 ++ s ++ w' ++ 0x2C :: y) = cutMembers f (m0 ++ [(k, t)]) y := by
  have hv : parseVal f (w2 ++ (s ++ (w' ++ 0x2C :: y))) = .ok (t, w' ++ 0x2C :: y) := by
    rw [parseVal_ws h2, (parse_complete f).1 t s _ h (fun _ => delim_ws hw' (delim_comma _)) hf]
  have hp : parseMembers (f + 1) (w ++ b!"\"" ++ n ++ b!"\"" ++ w1 ++ b!":" ++ w2 ++ s ++ w' ++ 0x2C :: y) =
      (do let (m, r) ← parseMembers f y; .ok ((k, t) :: m, r)) := by
    rw [parseMembers]
    rw [show w ++ b!"\"" ++ n ++ b!"\"" ++ w1 ++ b!":" ++ w2 ++ s ++ w' ++ 0x2C :: y =
      w ++ 0x22 :: (n ++ 0x22 :: (w1 ++ 0x3A :: (w2 ++ (s ++ (w' ++ 0x2C :: y))))) by simp, skipWs_ws hw, skipWs_here (by decide)]
    simp only []
    rw [if_pos trivial, parseStr_complete hk]
    simp only [bind, Except.bind]
    rw [skipWs_ws h1, skipWs_here (by decide)]
    simp only []
    rw [if_pos trivial, hv]
    simp only []
    rw [skipWs_ws hw', skipWs_here (by decide)]
    simp only []
    rw [if_neg (by decide), if_pos trivial]
  refine ⟨fun e he => by rw [hp, he]; rfl, fun m r he => by rw [hp, he]; rfl, ?_⟩
  rw [cutMembers]
  rw [show w ++ b!"\"" ++ n ++ b!"\"" ++ w1 ++ b!":" ++ w2 ++ s ++ w' ++ 0x2C :: y =
    w ++ 0x22 :: (n ++ 0x22 :: (w1 ++ 0x3A :: (w2 ++ (s ++ (w' ++ 0x2C :: y))))) by simp, skipWs_ws hw, skipWs_here (by decide)]
  simp only []
  rw [parseStr_complete hk]
  simp only []
  rw [skipWs_ws h1, skipWs_here (by decide)]
  simp only []
  rw [hv]
  split
  · rename_i he; cases he
  · rename_i he
    have := congrArg (fun x : Except JErr (Tree × Str) => match x with | .ok p => p.2 | .error _ => []) he
    simp at this
  · rename_i v r3 _ he
    cases he
    rw [skipWs_ws hw', skipWs_here (by decide)]

theorem members_on {m : List (StrTok × Tree)} {u : Str} (h : SpellsMembers m u) (f : Nat) (hf : 2 * u.length + 2 ≤ f) (m0 : List (StrTok × Tree)) (y : Str) :
    ∃ f', (∀ e, parseMembers f' y = .error e → parseMembers f (u ++ 0x2C :: y) = .error e) ∧
      (∀ m' r, parseMembers f' y = .ok (m', r) → parseMembers f (u ++ 0x2C :: y) = .ok (m ++ m', r)) ∧
      cutMembers f m0 (u ++ 0x2C :: y) = cutMembers f' (m0 ++ m) y := by
  induction m generalizing u f m0 with
  | nil => cases h
  | cons a m ih =>
    obtain ⟨f, rfl⟩ : ∃ g, f = g + 1 := ⟨f - 1, by omega⟩
    cases h with
    | one hw hk h1 h2 h hw' =>
      simp only [List.length_append, List.length_cons, List.length_nil] at hf
      exact ⟨f, cutMembers_step hw hk h1 h2 h hw' f (by omega) m0 y⟩
    | @more k t _ w n w1 w2 s w' r0 hw hk h1 h2 h hw' hr =>
      simp only [List.length_append, List.length_cons, List.length_nil] at hf
      obtain ⟨g1, g2, g3⟩ := cutMembers_step hw hk h1 h2 h hw' f (by omega) m0 (r0 ++ 0x2C :: y)
      obtain ⟨f', i1, i2, i3⟩ := ih hr f (by omega) (m0 ++ [(k, t)])
      rw [show w ++ b!"\"" ++ n ++ b!"\"" ++ w1 ++ b!":" ++ w2 ++ s ++ w' ++ b!"," ++ r0 ++ 0x2C :: y =
        w ++ b!"\"" ++ n ++ b!"\"" ++ w1 ++ b!":" ++ w2 ++ s ++ w' ++ 0x2C :: (r0 ++ 0x2C :: y) by simp]
      exact ⟨f', fun e he => g1 _ (i1 e he), fun m' r he => g2 _ _ (i2 _ _ he), by rw [g3, i3]; simp⟩

/-- These members were read completely, and perhaps more. -/
inductive Past (m : List (StrTok × Tree)) : Cut → Prop
  | obj (m' : List (StrTok × Tree)) : Past m (.obj (m ++ m'))
  | objKey (m' : List (StrTok × Tree)) (is : List StrItem) : Past m (.objKey (m ++ m') is)
  | objVal (m' : List (StrTok × Tree)) (k : StrTok) (c : Cut) : Past m (.objVal (m ++ m') k c)

theorem Past.weaken {m m' : List (StrTok × Tree)} {c : Cut} (h : Past (m ++ m') c) : Past m c := by
  cases h with
  | obj => rw [List.append_assoc]; exact .obj _
  | objKey => rw [List.append_assoc]; exact .objKey _ _
  | objVal => rw [List.append_assoc]; exact .objVal _ _ _

theorem cutMembers_past (f : Nat) (m : List (StrTok × Tree)) (y : Str) (h : parseMembers f y = .error .eof) : Past m (cutMembers f m y) := by
  induction f generalizing m y with
  | zero => rw [parseMembers] at h; cases h
  | succ f ih =>
    rw [cutMembers]
    rw [parseMembers] at h
    split
    · simpa using Past.obj (m := m) []
    · rename_i q r0 hq
      rw [hq] at h
      simp only [] at h
      by_cases c1 : q = 0x22
      · rw [if_pos c1] at h
        split
        · simpa using Past.objKey (m := m) [] _
        · rename_i k r1 hs
          rw [hs] at h
          simp only [bind, Except.bind] at h
          split
          · simpa using Past.objVal (m := m) [] _ _
          · rename_i c r2 hc
            rw [hc] at h
            simp only [] at h
            by_cases c2 : c = 0x3A
            · rw [if_pos c2] at h
              split
              · simpa using Past.objVal (m := m) [] _ _
              · simpa using Past.objVal (m := m) [] _ _
              · rename_i v r3 _ hv
                rw [hv] at h
                simp only [] at h
                split
                · exact .obj _
                · rename_i b r4 hb
                  rw [hb] at h
                  simp only [] at h
                  split at h
                  · cases h
                  · split at h
                    · refine (ih (m ++ [(k, v)]) r4 ?_).weaken
                      split at h
                      · rename_i he; rw [he, h]
                      · cases h
                    · cases h
            · rw [if_neg c2] at h; cases h
      · rw [if_neg c1] at h; cases h

/-- After the members `m` and a comma: the text is no JSON, or has these members and perhaps more, or ends too early after these. -/
theorem after_comma {m : List (StrTok × Tree)} {p : Str} (h : JsonText (.obj m) (p ++ b!"}")) (y : Str) :
    parseJson (p ++ b!"," ++ y) = .error .syn ∨ (∃ m', parseJson (p ++ b!"," ++ y) = .ok (.obj (m ++ m'))) ∨
      (parseJson (p ++ b!"," ++ y) = .error .eof ∧ Past m (cutOf (p ++ b!"," ++ y))) := by
  obtain ⟨w, u, w', e, hw, hu, hw'⟩ := h
  have hnil : w' = [] := by
    cases hl : w'.reverse with
    | nil => simpa using hl
    | cons b r =>
      have : w' = r.reverse ++ [b] := by rw [← List.reverse_reverse w', hl]; simp
      subst this
      have := congrArg List.getLast? e
      rw [← List.append_assoc, List.getLast?_concat, List.getLast?_concat] at this
      cases this
      have := hw' 0x7D (by simp)
      exact absurd this (by decide)
  subst hnil
  rw [List.append_nil] at e
  generalize ht : Tree.obj m = t at hu
  cases hu with
  | emptyObj hw0 =>
    cases ht
    rename_i w0
    have : p = w ++ b!"{" ++ w0 := by
      have : p ++ b!"}" = (w ++ b!"{" ++ w0) ++ b!"}" := by rw [e]; simp
      exact List.append_cancel_right this
    subst this
    left
    unfold parseJson
    rw [show 2 * (w ++ b!"{" ++ w0 ++ b!"," ++ y).length + 2 = (2 * (w ++ b!"{" ++ w0 ++ b!"," ++ y).length) + 1 + 1 from rfl]
    generalize 2 * (w ++ b!"{" ++ w0 ++ b!"," ++ y).length = F
    rw [show w ++ b!"{" ++ w0 ++ b!"," ++ y = w ++ 0x7B :: (w0 ++ 0x2C :: y) by simp, parseVal_ws hw]
    rw [parseVal, skipWs_here (by decide)]
    simp only []
    rw [if_neg (by decide), if_neg (by decide), if_neg (by decide), if_neg (by decide), if_neg (by decide), if_neg (by decide),
      if_neg (by decide), if_pos trivial, skipWs_ws hw0, skipWs_here (by decide)]
    simp only []
    rw [if_neg (by decide), parseMembers, skipWs_here (by decide)]
    rfl
  | null | tru | fls | num | str | emptyArr | arr => cases ht
  | obj hm =>
    cases ht
    rename_i s
    have : p = w ++ b!"{" ++ s := by
      have : p ++ b!"}" = (w ++ b!"{" ++ s) ++ b!"}" := by rw [e]; simp
      exact List.append_cancel_right this
    subst this
    have hv : ∀ f, parseVal (f + 1) (w ++ b!"{" ++ s ++ b!"," ++ y) =
        (do let (m, r) ← parseMembers f (s ++ 0x2C :: y); .ok (.obj m, r)) := by
      intro f
      rw [show w ++ b!"{" ++ s ++ b!"," ++ y = w ++ 0x7B :: (s ++ 0x2C :: y) by simp, parseVal_ws hw]
      rw [parseVal, skipWs_here (by decide)]
      obtain ⟨r, hr⟩ := members_head hm (0x2C :: y)
      simp only []
      rw [if_neg (by decide), if_neg (by decide), if_neg (by decide), if_neg (by decide), if_neg (by decide), if_neg (by decide),
        if_neg (by decide), if_pos trivial, hr]
      simp only []
      rw [if_neg (by decide), ← hr, parseMembers_skip]
    have hc : ∀ f, cutVal (f + 1) (w ++ b!"{" ++ s ++ b!"," ++ y) = cutMembers f [] (s ++ 0x2C :: y) := by
      intro f
      rw [show w ++ b!"{" ++ s ++ b!"," ++ y = w ++ 0x7B :: (s ++ 0x2C :: y) by simp]
      rw [cutVal, skipWs_ws hw, skipWs_here (by decide)]
      obtain ⟨r, hr⟩ := members_head hm (0x2C :: y)
      simp only []
      rw [if_neg (by decide), if_neg (by decide), if_pos trivial, hr]
      simp only []
      rw [← hr]
      cases f with
      | zero => rfl
      | succ f => rw [cutMembers, cutMembers, skipWs_idem]
    generalize hF : 2 * (w ++ b!"{" ++ s ++ b!"," ++ y).length + 1 = F
    have hF' : 2 * s.length + 2 ≤ F := by
      simp only [List.length_append, List.length_cons, List.length_nil] at hF; omega
    obtain ⟨f', i1, i2, i3⟩ := members_on hm F hF' [] y
    unfold parseJson cutOf
    rw [show 2 * (w ++ b!"{" ++ s ++ b!"," ++ y).length + 2 = F + 1 by omega, hv, hc, i3]
    cases hy : parseMembers f' y with
    | error e =>
      rw [i1 e hy]
      cases e with
      | eof => exact .inr (.inr ⟨rfl, cutMembers_past _ _ _ hy⟩)
      | syn => exact .inl rfl
      | fuel =>
        have := parseJson_fuel (w ++ b!"{" ++ s ++ b!"," ++ y)
        unfold parseJson at this
        rw [show 2 * (w ++ b!"{" ++ s ++ b!"," ++ y).length + 2 = F + 1 by omega, hv, i1 _ hy] at this
        exact absurd rfl this
    | ok a =>
      obtain ⟨m', r⟩ := a
      rw [i2 _ _ hy]
      simp only [bind, Except.bind]
      split
      · exact .inr (.inl ⟨m', rfl⟩)
      · exact .inl rfl

/-! ## Members that are in order can be completed -/

theorem fld_unique {fs : List Fld} (hn : (fs.map Fld.name).Nodup) {f g : Fld} (hf : f ∈ fs) (hg : g ∈ fs) (h : f.name = g.name) : f = g := by
  induction fs with
  | nil => cases hf
  | cons x r ih =>
    simp only [List.map_cons, List.nodup_cons] at hn
    rcases List.mem_cons.1 hf with rfl | hf' <;> rcases List.mem_cons.1 hg with rfl | hg'
    · rfl
    · exact absurd (h ▸ List.mem_map_of_mem hg') hn.1
    · exact absurd (h ▸ List.mem_map_of_mem hf') hn.1
    · exact ih hn.2 hf' hg'

theorem readMembers_inv {fs : List Fld} {other : Fld} (hn : (fs.map Fld.name).Nodup) (a : List (StrTok × Tree)) (seen seen' : List Str)
    (h : readMembers fs other seen a = some seen') :
    ∃ m, decKeys a = some m ∧ (∀ k ∈ seen, k ∈ seen') ∧
      (∀ f ∈ fs, (m.filter (fun q => q.1 == f.name) = [] ∧ (f.name ∈ seen' → f.name ∈ seen)) ∨
        (f.name ∉ seen ∧ f.name ∈ seen' ∧ ∃ t, m.filter (fun q => q.1 == f.name) = [(f.name, t)] ∧ f.fits t = true)) ∧
      ∀ q ∈ m, (∀ f ∈ fs, f.name ≠ q.1) → other.fits q.2 = true := by
  induction a generalizing seen with
  | nil =>
    cases h
    exact ⟨[], rfl, fun _ h => h, fun f _ => .inl ⟨rfl, id⟩, fun q hq => by cases hq⟩
  | cons b a ih =>
    obtain ⟨k, t⟩ := b
    rw [readMembers] at h
    obtain ⟨s, hk, h⟩ := Option.bind_eq_some_iff.1 h
    cases hfind : fs.find? (fun f => f.name == s) with
    | none =>
      rw [hfind] at h
      simp only [] at h
      split at h
      · rename_i ho
        obtain ⟨m, h1, h2, h3, h4⟩ := ih seen h
        refine ⟨(s, t) :: m, by rw [decKeys, hk, h1]; rfl, h2, fun f hf => ?_, fun q hq hne => ?_⟩
        · have : (s == f.name) = false := beq_false_of_ne fun e => find_unknown hfind f hf e.symm
          rw [List.filter_cons_of_neg (by simp [this])]
          exact h3 f hf
        · rcases List.mem_cons.1 hq with rfl | hq
          · exact ho
          · exact h4 q hq hne
      · cases h
    | some g =>
      rw [hfind] at h
      simp only [] at h
      obtain ⟨hg, hgn⟩ := find_known hfind
      split at h
      · cases h
      · rename_i hc
        rw [Bool.not_eq_true, Bool.or_eq_false_iff] at hc
        obtain ⟨hc1, hc2⟩ := hc
        have hs : s ∉ seen := fun hm => by rw [List.contains_iff_mem.2 hm] at hc1; cases hc1
        have hfit : g.fits t = true := by simpa using hc2
        obtain ⟨m, h1, h2, h3, h4⟩ := ih (s :: seen) h
        refine ⟨(s, t) :: m, by rw [decKeys, hk, h1]; rfl, fun x hx => h2 x (List.mem_cons_of_mem _ hx), fun f hf => ?_, fun q hq hne => ?_⟩
        · by_cases hfs : f.name = s
          · have : f = g := fld_unique hn hf hg (hfs.trans hgn.symm)
            subst this
            rcases h3 f hf with ⟨e1, e2⟩ | ⟨e1, -⟩
            · refine .inr ⟨by rw [hfs]; exact hs, h2 _ (by rw [hfs]; exact List.mem_cons_self), t, ?_, hfit⟩
              rw [List.filter_cons_of_pos (by simp [hfs]), e1, hfs]
            · exact absurd (by rw [hfs]; exact List.mem_cons_self) e1
          · rw [List.filter_cons_of_neg (by simpa using fun e => hfs (Eq.symm e))]
            rcases h3 f hf with ⟨e1, e2⟩ | ⟨e1, e2, e3⟩
            · refine .inl ⟨e1, fun hm => ?_⟩
              rcases List.mem_cons.1 (e2 hm) with e | e
              · exact absurd e hfs
              · exact e
            · exact .inr ⟨fun hm => e1 (List.mem_cons_of_mem _ hm), e2, e3⟩
        · rcases List.mem_cons.1 hq with rfl | hq
          · exact absurd hgn (hne g hg)
          · exact h4 q hq hne

/-- All fields are there, once, with values that fit, and everything else fits too. -/
def Complete (fs : List Fld) (other : Fld) (m : List (Str × Tree)) : Prop :=
  (∀ f ∈ fs, ∃ t, field m f.name = some (some t) ∧ f.fits t = true) ∧ ∀ q ∈ m, (∀ f ∈ fs, f.name ≠ q.1) → other.fits q.2 = true

theorem decKeys_concat {a b : List (StrTok × Tree)} {m m' : List (Str × Tree)} (h : decKeys a = some m) (h' : decKeys b = some m') :
    decKeys (a ++ b) = some (m ++ m') := by
  induction a generalizing m with
  | nil => cases h; simpa using h'
  | cons x r ih =>
    obtain ⟨k, t⟩ := x
    rw [decKeys] at h
    obtain ⟨s, hk, h⟩ := Option.bind_eq_some_iff.1 h
    obtain ⟨l, hl, h⟩ := Option.bind_eq_some_iff.1 h
    cases h
    rw [List.cons_append, decKeys, hk, ih hl]; rfl

theorem decKeys_flds (D : Str → Tree) (l : List Fld) :
    decKeys (l.map fun f => (⟨false, some f.name⟩, D f.name)) = some (l.map fun f => (f.name, D f.name)) := by
  induction l with
  | nil => rfl
  | cons f r ih => rw [List.map_cons, decKeys, ih]; rfl

theorem filter_flds (D : Str → Tree) (l : List Fld) (hn : (l.map Fld.name).Nodup) (k : Str) :
    (k ∉ l.map Fld.name → (l.map fun f => (f.name, D f.name)).filter (fun q => q.1 == k) = []) ∧
    (k ∈ l.map Fld.name → (l.map fun f => (f.name, D f.name)).filter (fun q => q.1 == k) = [(k, D k)]) := by
  induction l with
  | nil => exact ⟨fun _ => rfl, fun h => by cases h⟩
  | cons f r ih =>
    simp only [List.map_cons, List.nodup_cons] at hn ⊢
    obtain ⟨i1, i2⟩ := ih hn.2
    by_cases hk : f.name = k
    · subst hk
      refine ⟨fun h => absurd List.mem_cons_self h, fun _ => ?_⟩
      rw [List.filter_cons_of_pos (by simp), i1 hn.1]
    · rw [List.filter_cons_of_neg (by simpa using hk)]
      refine ⟨fun h => i1 fun hm => h (List.mem_cons_of_mem _ hm), fun h => i2 ?_⟩
      rcases List.mem_cons.1 h with e | e
      · exact absurd e.symm hk
      · exact e

/-- What is read without complaint can be completed. -/
theorem completed {fs : List Fld} {other : Fld} (hn : (fs.map Fld.name).Nodup) (D : Str → Tree) (hD : ∀ f ∈ fs, f.fits (D f.name) = true)
    (a : List (StrTok × Tree)) (seen : List Str) (h : readMembers fs other [] a = some seen) :
    ∃ (l : List Fld) (m : List (Str × Tree)), (∀ f ∈ l, f ∈ fs) ∧ decKeys (a ++ l.map fun f : Fld => (⟨false, some f.name⟩, D f.name)) = some m ∧ Complete fs other m := by
  obtain ⟨m, h1, -, h3, h4⟩ := readMembers_inv hn a [] seen h
  let l := fs.filter fun f => !seen.contains f.name
  have hl : (l.map Fld.name).Nodup := (List.filter_sublist.map _).nodup hn
  have hlf : ∀ f ∈ fs, f.name ∈ l.map Fld.name ↔ f.name ∉ seen := by
    intro f hf
    constructor
    · intro hm hs
      obtain ⟨g, hg, e⟩ := List.mem_map.1 hm
      have := (List.mem_filter.1 hg).2
      rw [e, List.contains_iff_mem.2 hs] at this
      cases this
    · intro hs
      refine List.mem_map_of_mem (List.mem_filter.2 ⟨hf, ?_⟩)
      simpa using hs
  refine ⟨l, m ++ l.map fun f => (f.name, D f.name), fun f hf => (List.mem_filter.1 hf).1, decKeys_concat h1 (decKeys_flds D l), ?_, ?_⟩
  · intro f hf
    have hfl := filter_flds D l hl f.name
    rcases h3 f hf with ⟨e1, e2⟩ | ⟨-, e2, t, e3, e4⟩
    · refine ⟨D f.name, ?_, hD f hf⟩
      unfold field
      rw [List.filter_append, e1, hfl.2 ((hlf f hf).2 fun hm => by cases e2 hm)]; rfl
    · refine ⟨t, ?_, e4⟩
      unfold field
      rw [List.filter_append, e3, hfl.1 fun hm => (hlf f hf).1 hm e2]; rfl
  · intro q hq hne
    rcases List.mem_append.1 hq with hq | hq
    · exact h4 q hq hne
    · obtain ⟨f, hf, rfl⟩ := List.mem_map.1 hq
      exact absurd rfl (hne f (List.mem_filter.1 hf).1)

theorem readMembers_append {fs : List Fld} {other : Fld} (a b : List (StrTok × Tree)) (seen : List Str) (h : readMembers fs other seen a = none) :
    readMembers fs other seen (a ++ b) = none := by
  induction a generalizing seen with
  | nil => cases h
  | cons x r ih =>
    obtain ⟨k, t⟩ := x
    rw [readMembers] at h
    rw [List.cons_append, readMembers]
    cases hk : k.val with
    | none => rfl
    | some s =>
      rw [hk] at h
      simp only [Option.bind_eq_bind, Option.bind_some] at h ⊢
      split <;> rename_i hf <;> rw [hf] at h <;> simp only [] at h
      · split
        · rfl
        · rename_i hc; rw [if_neg hc] at h; exact ih _ h
      · split
        · rename_i hc; rw [if_pos hc] at h; exact ih _ h
        · rfl

theorem earlyMap_past {fs : List Fld} {other : Fld} {n : Nat} {m : List (StrTok × Tree)} {c : Cut} (h : Past m c)
    (hm : readMembers fs other [] m = none) : earlyMap fs other n c = true := by
  cases h with
  | obj m' => rw [earlyMap, readMembers_append _ _ _ hm]; simp
  | objKey m' is => rw [earlyMap, readMembers_append _ _ _ hm]; simp
  | objVal m' k c => rw [earlyMap, readMembers_append _ _ _ hm]; simp

/-! ## The completion is a text -/

theorem SpellsMembers.append {a b : List (StrTok × Tree)} {u v : Str} (h : SpellsMembers a u) (h' : SpellsMembers b v) :
    SpellsMembers (a ++ b) (u ++ b!"," ++ v) := by
  induction a generalizing u with
  | nil => cases h
  | cons x a ih =>
    cases h with
    | one hw hk h1 h2 h hw' => exact .more hw hk h1 h2 h hw' h'
    | more hw hk h1 h2 h hw' hr =>
      have := SpellsMembers.more hw hk h1 h2 h hw' (ih hr)
      simpa only [List.append_assoc, List.cons_append] using this

theorem spells_flds (D : Str → Tree) (l : List Fld) (hl : l ≠ [])
    (hs : ∀ f ∈ l, StrSpells ⟨false, some f.name⟩ f.name ∧ ∃ s, Spells (D f.name) s) :
    ∃ v, SpellsMembers (l.map fun f : Fld => (⟨false, some f.name⟩, D f.name)) v := by
  have nil : Ws [] := fun b h => by cases h
  induction l with
  | nil => exact absurd rfl hl
  | cons f r ih =>
    obtain ⟨hk, s, hv⟩ := hs f List.mem_cons_self
    by_cases hr : r = []
    · subst hr
      exact ⟨_, .one nil hk nil nil hv nil⟩
    · obtain ⟨v, h⟩ := ih hr fun g hg => hs g (List.mem_cons_of_mem _ hg)
      exact ⟨_, .more nil hk nil nil hv nil h⟩

/-- An object text, open: it can be closed, and it can be continued with further members. -/
theorem object_continued {m : List (StrTok × Tree)} {p : Str} (h : JsonText (.obj m) (p ++ b!"}")) {a : List (StrTok × Tree)} {v : Str}
    (ha : SpellsMembers a v) : ∃ x, JsonText (.obj (m ++ a)) (p ++ x) := by
  obtain ⟨w, u, w', e, hw, hu, hw'⟩ := h
  have hnil : w' = [] := by
    cases hl : w'.reverse with
    | nil => simpa using hl
    | cons b r =>
      have : w' = r.reverse ++ [b] := by rw [← List.reverse_reverse w', hl]; simp
      subst this
      have := congrArg List.getLast? e
      rw [← List.append_assoc, List.getLast?_concat, List.getLast?_concat] at this
      cases this
      have := hw' 0x7D (by simp)
      exact absurd this (by decide)
  subst hnil
  rw [List.append_nil] at e
  generalize ht : Tree.obj m = t at hu
  cases hu with
  | emptyObj hw0 =>
    cases ht
    rename_i w0
    have : p = w ++ b!"{" ++ w0 := by
      have : p ++ b!"}" = (w ++ b!"{" ++ w0) ++ b!"}" := by rw [e]; simp
      exact List.append_cancel_right this
    subst this
    have lead : SpellsMembers a (w0 ++ v) := by
      cases ha with
      | one hw hk h1 h2 h hw' =>
        have := SpellsMembers.one (w := w0 ++ _) (fun b hb => (List.mem_append.1 hb).elim (hw0 b) (hw b)) hk h1 h2 h hw'
        simpa only [List.append_assoc, List.cons_append] using this
      | more hw hk h1 h2 h hw' hr =>
        have := SpellsMembers.more (w := w0 ++ _) (fun b hb => (List.mem_append.1 hb).elim (hw0 b) (hw b)) hk h1 h2 h hw' hr
        simpa only [List.append_assoc, List.cons_append] using this
    exact ⟨v ++ b!"}", w, b!"{" ++ (w0 ++ v) ++ b!"}", [], by simp, hw, .obj lead, fun b h => by cases h⟩
  | null | tru | fls | num | str | emptyArr | arr => cases ht
  | obj hm =>
    cases ht
    rename_i s
    have : p = w ++ b!"{" ++ s := by
      have : p ++ b!"}" = (w ++ b!"{" ++ s) ++ b!"}" := by rw [e]; simp
      exact List.append_cancel_right this
    subst this
    exact ⟨b!"," ++ v ++ b!"}", w, b!"{" ++ (s ++ b!"," ++ v) ++ b!"}", [], by simp, hw, .obj (hm.append ha), fun b h => by cases h⟩

/-- If the complete members rule out every completion, then this is noticed. -/
theorem noticed {α : Type} {d : Nat → Tree → Option α} [Early d] (fs : List Fld) (other : Fld) (D : Str → Tree)
    (hn : (fs.map Fld.name).Nodup) (hD : ∀ f ∈ fs, f.fits (D f.name) = true)
    (hs : ∀ f ∈ fs, StrSpells ⟨false, some f.name⟩ f.name ∧ ∃ s, Spells (D f.name) s)
    (he : ∀ m c, Past m c → Early.early d depthLimit c = earlyMap fs other depthLimit c)
    (hd : ∀ a m, decKeys a = some m → Complete fs other m → (d depthLimit (.obj a)).isSome)
    {m : List (StrTok × Tree)} {p : Str} (h : JsonText (.obj m) (p ++ b!"}")) (hx : ∀ x a, fromJson d (p ++ x) ≠ .ok a) (y : Str) :
    fromJson d (p ++ b!"," ++ y) = .error (.kind .malformed) := by
  have hj : ∀ t x, parseJson (p ++ x) = .ok t → d depthLimit t = none := by
    intro t x ht
    cases hdt : d depthLimit t with
    | none => rfl
    | some a =>
      refine absurd ?_ (hx x a)
      unfold fromJson
      rw [ht]; simp only [hdt]; rfl
  unfold fromJson
  rcases after_comma h y with e | ⟨m', e⟩ | ⟨e, hp⟩
  · rw [e]
  · rw [e]; simp only []; rw [List.append_assoc] at e; rw [hj _ _ e]; rfl
  · rw [e]
    simp only []
    rw [if_pos]
    rw [he m _ hp]
    refine earlyMap_past hp ?_
    cases hr : readMembers fs other [] m with
    | none => rfl
    | some seen =>
      obtain ⟨l, ms, hl, h1, h2⟩ := completed hn D hD m seen hr
      have hsome := hd _ _ h1 h2
      have : ∃ x, JsonText (.obj (m ++ l.map fun f : Fld => (⟨false, some f.name⟩, D f.name))) (p ++ x) := by
        by_cases hl0 : l = []
        · subst hl0
          exact ⟨b!"}", by simpa using h⟩
        · obtain ⟨v, hv⟩ := spells_flds D l hl0 fun f hf => hs f (hl f hf)
          exact object_continued h hv
      obtain ⟨x, hx'⟩ := this
      rw [hj _ x ((parseJson_iff _ _).2 hx')] at hsome
      cases hsome

end DIDComm
