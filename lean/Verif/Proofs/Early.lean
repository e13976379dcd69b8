import Verif.Proofs.Begins
import Verif.Spec.Cut

/-! # Decoders refuse no beginning of what they accept -/

set_option autoImplicit false

namespace DIDComm

/-- All numbers of a value have a property. -/
def Nums (p : NumTok → Prop) (t : Tree) : Prop := ∀ n, NumIn n t → p n

theorem Nums.elem {p : NumTok → Prop} {l : List Tree} (h : Nums p (.arr l)) {t : Tree} (ht : t ∈ l) : Nums p t :=
  fun n hn => h n (.elem ht hn)

theorem Nums.member {p : NumTok → Prop} {m : List (StrTok × Tree)} (h : Nums p (.obj m)) {k : StrTok} {t : Tree} (ht : (k, t) ∈ m) :
    Nums p t := fun n hn => h n (.member ht hn)

/-- A value that fits is not refused when only its beginning was read. -/
def Steady (p : NumTok → Prop) (fits : Tree → Bool) (early : Cut → Bool) : Prop :=
  ∀ c t, Begins c t → Nums p t → fits t = true → early c = false

variable {p : NumTok → Prop}

/-! ## Scalars -/

theorem lone_append (is is' : List StrItem) (h : (assemble (is ++ is')).isSome) : loneSurrogate is = false := by
  fun_induction loneSurrogate is with
  | case1 => rfl
  | case2 b r ih =>
    rw [List.cons_append, assemble] at h
    exact ih (by simpa using h)
  | case3 u r hu => rw [List.cons_append, assemble.eq_def] at h; simp [hu] at h
  | case4 u hu hh => rfl
  | case5 u hu hh v r' hv ih =>
    rw [List.cons_append, List.cons_append, assemble.eq_def] at h
    simp only [hu, hh, hv, and_self, if_true, if_false] at h
    exact ih (by simpa using h)
  | case6 u hu hh v r' hv =>
    rw [List.cons_append, List.cons_append, assemble.eq_def] at h
    simp only [hu, hh, hv, and_self, if_true, if_false] at h
    cases h
  | case7 u hu hh b r =>
    rw [List.cons_append, List.cons_append, assemble.eq_def] at h
    simp only [hu, hh, and_self, if_true, if_false] at h
    cases h
  | case8 u r hu hh ih =>
    rw [List.cons_append, assemble.eq_def] at h
    simp only [hu, hh, if_false] at h
    exact ih (by simpa using h)

theorem lone_val {e : Bool} {is is' : List StrItem} (h : (strTok e (is ++ is')).val.isSome) : loneSurrogate is = false := by
  refine lone_append is is' ?_
  unfold strTok at h
  cases ha : assemble (is ++ is') with
  | none => rw [ha] at h; cases h
  | some s => rfl

theorem steady_str : Steady p (fun t => (dStr t).isSome) earlyStr := by
  intro c t hb _ h
  cases hb with
  | nothing => rfl
  | scalar => rfl
  | str is is' e =>
    refine lone_val (e := e) (is' := is') ?_
    revert h
    cases hs : strTok e (is ++ is') with
    | mk e v => cases v <;> simp [dStr]
  | _ => cases h

theorem steady_borrow : Steady p (fun t => (dBorrow t).isSome) earlyStr := by
  intro c t hb hp h
  refine steady_str c t hb hp ?_
  revert h
  cases t with
  | str k => rcases k with ⟨_ | _, _ | v⟩ <;> simp [dBorrow, dStr]
  | _ => simp [dBorrow]

theorem foldl_ge (s : Str) (a : Nat) : a ≤ s.foldl (fun a d => a * 10 + (d.toNat - 48)) a := by
  induction s generalizing a with
  | nil => exact Nat.le_refl _
  | cons b s ih => exact Nat.le_trans (by show a ≤ a * 10 + _; omega) (ih _)

theorem digitsVal_prefix {s s' : Str} (h : s <+: s') : digitsVal s ≤ digitsVal s' := by
  obtain ⟨r, rfl⟩ := h
  unfold digitsVal
  rw [List.foldl_append]
  exact foldl_ge _ _

theorem steady_u64 : Steady p (fun t => (dU64 t).isSome) earlyU64 := by
  intro c t hb _ h
  cases hb with
  | nothing => rfl
  | scalar => rfl
  | @num n n' hn =>
    obtain ⟨neg, ds, tl⟩ := n
    obtain ⟨neg', ds', tl'⟩ := n'
    obtain ⟨-, h1, h2⟩ := hn
    simp only at h1 h2
    cases neg' with
    | true => simp [dU64] at h
    | false =>
      cases tl' with
      | cons b tl' => simp [dU64] at h
      | nil =>
        subst h1
        have : tl = [] := by
          rcases h2 with ⟨h2, -⟩ | ⟨-, h2⟩
          · exact h2
          · exact List.prefix_nil.1 h2
        subst this
        have hle : digitsVal ds ≤ digitsVal ds' := by
          rcases h2 with ⟨-, h2⟩ | ⟨h2, -⟩
          · exact digitsVal_prefix h2
          · rw [h2]; exact Nat.le_refl _
        simp only [dU64] at h
        by_cases hlt : digitsVal ds' < 2 ^ 64
        · simp only [earlyU64, dU64]
          rw [if_pos (by omega)]; rfl
        · rw [if_neg hlt] at h; cases h
  | str is is' e => simp [dU64] at h
  | _ => simp [dU64] at h

theorem Steady.opt {α : Type} {d : Tree → Option α} {e : Cut → Bool} (h : Steady p (fun t => (d t).isSome) e) (hn : ∀ c, Begins c .null → e c = false) :
    Steady p (fun t => (dOpt d t).isSome) e := by
  intro c t hb hp hf
  by_cases ht : t = .null
  · subst ht; exact hn c hb
  · refine h c t hb hp ?_
    revert hf
    cases t <;> simp_all [dOpt]

theorem begins_null {c : Cut} (h : Begins c .null) : c = .nothing ∨ c = .scalar := by
  cases h
  · exact .inl rfl
  · exact .inr rfl

/-! ## Lists -/

theorem decAll_append {α : Type} {d : Tree → Option α} {l r : List Tree} (h : (decAll d (l ++ r)).isSome) :
    (decAll d l).isSome ∧ (decAll d r).isSome := by
  induction l with
  | nil => exact ⟨rfl, h⟩
  | cons t l ih =>
    rw [List.cons_append, decAll] at h
    rw [decAll]
    cases ht : d t with
    | none => rw [ht] at h; cases h
    | some a =>
      rw [ht] at h
      cases hr : decAll d (l ++ r) with
      | none => simp [hr] at h
      | some b =>
        obtain ⟨h1, h2⟩ := ih (by rw [hr]; rfl)
        refine ⟨?_, h2⟩
        obtain ⟨x, hx⟩ := Option.isSome_iff_exists.1 h1
        simp [hx]

theorem steady_vec {α : Type} {d : Nat → Tree → Option α} {e : Nat → Cut → Bool} {n : Nat}
    (h : Steady p (fun t => (d (n - 1) t).isSome) (e (n - 1))) : Steady p (fun t => (dVec d n t).isSome) (earlyVec d e n) := by
  intro c t hb hp hf
  cases hb with
  | nothing => rfl
  | scalar => rfl
  | arr l r =>
    simp only [dVec] at hf
    by_cases hn : n ≤ 1
    · rw [if_pos hn] at hf; cases hf
    · rw [if_neg hn] at hf
      obtain ⟨x, hx⟩ := Option.isSome_iff_exists.1 (decAll_append hf).1
      simp [earlyVec, hn, hx]
  | @arrNext l r c t hc =>
    simp only [dVec] at hf
    by_cases hn : n ≤ 1
    · rw [if_pos hn] at hf; cases hf
    · rw [if_neg hn] at hf
      obtain ⟨x, hx⟩ := Option.isSome_iff_exists.1 (decAll_append hf).1
      have h2 := (decAll_append hf).2
      have ht : (d (n - 1) t).isSome := by
        rw [decAll] at h2
        cases hd : d (n - 1) t with
        | none => rw [hd] at h2; cases h2
        | some a => rfl
      have := h c t hc (hp.elem (by simp)) ht
      simp [earlyVec, hn, hx, this]
  | _ => simp [dVec] at hf

/-! ## `Value` -/

/-- Every beginning of the number can be read as a number. -/
def CutsRead (f64 : Str → Option Str) (n' : NumTok) : Prop := ∀ n, NumExt n n' → (toNum f64 n).isSome

theorem toValues_append {f64 : Str → Option Str} {n : Nat} {l r : List Tree} (h : (toValues f64 n (l ++ r)).isSome) :
    (toValues f64 n l).isSome ∧ (toValues f64 n r).isSome := by
  induction l with
  | nil => exact ⟨rfl, h⟩
  | cons t l ih =>
    rw [List.cons_append, toValues] at h
    rw [toValues]
    cases ht : toValue f64 n t with
    | none => rw [ht] at h; cases h
    | some a =>
      rw [ht] at h
      cases hr : toValues f64 n (l ++ r) with
      | none => simp [hr] at h
      | some b =>
        obtain ⟨h1, h2⟩ := ih (by rw [hr]; rfl)
        refine ⟨?_, h2⟩
        obtain ⟨x, hx⟩ := Option.isSome_iff_exists.1 h1
        simp [hx]

theorem toMembers_append {f64 : Str → Option Str} {n : Nat} {m r : List (StrTok × Tree)} {acc : List (Str × Value)}
    (h : (toMembers f64 n (m ++ r) acc).isSome) :
    ∃ acc', toMembers f64 n m acc = some acc' ∧ (toMembers f64 n r acc').isSome := by
  induction m generalizing acc with
  | nil => exact ⟨acc, rfl, h⟩
  | cons q m ih =>
    obtain ⟨k, t⟩ := q
    rw [List.cons_append, toMembers] at h
    rw [toMembers]
    cases hk : k.val with
    | none => rw [hk] at h; cases h
    | some s =>
      cases ht : toValue f64 n t with
      | none => rw [hk, ht] at h; cases h
      | some v =>
        rw [hk, ht] at h
        exact ih h

theorem steady_value {f64 : Str → Option Str} (hp : ∀ n, p n → CutsRead f64 n) (n : Nat) :
    Steady p (fun t => (toValue f64 n t).isSome) (earlyValue f64 n) := by
  intro c t hb
  induction hb generalizing n with
  | nothing => intros; rw [earlyValue]
  | scalar => intros; rw [earlyValue]
  | @num k k' hk =>
    intro hn h
    have := hp k' (hn k' (.here _)) k hk
    rw [earlyValue]
    simp only [Option.isNone_eq_false_iff]; exact this
  | str is is' e =>
    intro hn h
    rw [earlyValue]
    refine lone_val (e := e) (is' := is') ?_
    simp only [toValue] at h
    simpa using h
  | arr l r =>
    intro hn h
    simp only [toValue] at h
    by_cases h1 : n ≤ 1
    · rw [if_pos h1] at h; cases h
    · rw [if_neg h1] at h
      obtain ⟨x, hx⟩ := Option.isSome_iff_exists.1 (toValues_append (l := l) (r := r) (by simpa using h)).1
      rw [earlyValue]; simp [h1, hx]
  | @arrNext l r c t hc ih =>
    intro hn h
    simp only [toValue] at h
    by_cases h1 : n ≤ 1
    · rw [if_pos h1] at h; cases h
    · rw [if_neg h1] at h
      obtain ⟨g1, g2⟩ := toValues_append (l := l) (r := t :: r) (by simpa using h)
      obtain ⟨x, hx⟩ := Option.isSome_iff_exists.1 g1
      have ht : (toValue f64 (n - 1) t).isSome := by
        rw [toValues] at g2
        cases hd : toValue f64 (n - 1) t with
        | none => rw [hd] at g2; cases g2
        | some a => rfl
      have := ih (n - 1) (hn.elem (by simp)) ht
      rw [earlyValue]; simp [h1, hx, this]
  | obj m r =>
    intro hn h
    simp only [toValue] at h
    by_cases h1 : n ≤ 1
    · rw [if_pos h1] at h; cases h
    · rw [if_neg h1] at h
      obtain ⟨x, hx, -⟩ := toMembers_append (m := m) (r := r) (by simpa using h)
      rw [earlyValue]; simp [h1, hx]
  | objKey m r is is' e t =>
    intro hn h
    simp only [toValue] at h
    by_cases h1 : n ≤ 1
    · rw [if_pos h1] at h; cases h
    · rw [if_neg h1] at h
      obtain ⟨x, hx, g⟩ := toMembers_append (m := m) (r := (strTok e (is ++ is'), t) :: r) (by simpa using h)
      have hk : (strTok e (is ++ is')).val.isSome := by
        rw [toMembers] at g
        cases hd : (strTok e (is ++ is')).val with
        | none => rw [hd] at g; cases g
        | some a => rfl
      rw [earlyValue]; simp [h1, hx, lone_val hk]
  | @objVal m r k c t hc ih =>
    intro hn h
    simp only [toValue] at h
    by_cases h1 : n ≤ 1
    · rw [if_pos h1] at h; cases h
    · rw [if_neg h1] at h
      obtain ⟨x, hx, g⟩ := toMembers_append (m := m) (r := (k, t) :: r) (by simpa using h)
      rw [toMembers] at g
      cases hk : k.val with
      | none => rw [hk] at g; cases g
      | some s =>
        cases hd : toValue f64 (n - 1) t with
        | none => rw [hk, hd] at g; cases g
        | some v =>
          have := ih (n - 1) (hn.member (k := k) (by simp)) (by simp only [hd]; rfl)
          rw [earlyValue]; simp [h1, hx, hk, this]

/-! ## Structs -/

/-- The members that are fields occur once, with a value that fits, or not at all. -/
def Filled (fs : List Fld) (m : List (Str × Tree)) : Prop :=
  ∀ f ∈ fs, field m f.name = some none ∨ ∃ t, field m f.name = some (some t) ∧ f.fits t = true

theorem field_once {m : List (Str × Tree)} {name : Str} {t : Tree} (h : (name, t) ∈ m) (hf : (field m name).isSome) :
    m.filter (fun q => q.1 == name) = [(name, t)] ∧ field m name = some (some t) := by
  have hm : (name, t) ∈ m.filter (fun q => q.1 == name) := List.mem_filter.2 ⟨h, by simp⟩
  unfold field at hf ⊢
  split at hf
  · rename_i he; rw [he] at hm; cases hm
  · rename_i k t' he
    rw [he] at hm ⊢
    simp only [List.mem_singleton, Prod.mk.injEq] at hm
    obtain ⟨rfl, rfl⟩ := hm
    exact ⟨rfl, rfl⟩
  · cases hf

theorem Filled.mem {fs : List Fld} {m : List (Str × Tree)} (h : Filled fs m) {f : Fld} (hf : f ∈ fs) {t : Tree} (ht : (f.name, t) ∈ m) :
    m.filter (fun q => q.1 == f.name) = [(f.name, t)] ∧ f.fits t = true := by
  rcases h f hf with e | ⟨t', e, h'⟩
  · have := (field_once ht (by rw [e]; rfl)).2
    rw [this] at e; cases e
  · have := field_once ht (by rw [e]; rfl)
    rw [this.2] at e; cases e
    exact ⟨this.1, h'⟩

theorem filter_twice {k : Str} {t t' : Tree} {m1 m2 : List (Str × Tree)} (h : (k, t) ∈ m1)
    (hf : (m1 ++ (k, t') :: m2).filter (fun q => q.1 == k) = [(k, t')]) : False := by
  rw [List.filter_append, List.filter_cons_of_pos (by simp)] at hf
  have h1 : (k, t) ∈ m1.filter (fun q => q.1 == k) := List.mem_filter.2 ⟨h, by simp⟩
  have := congrArg List.length hf
  simp only [List.length_append, List.length_cons, List.length_nil] at this
  have h2 : (m1.filter (fun q => q.1 == k)).length = 0 := by omega
  rw [List.length_eq_zero_iff.1 h2] at h1
  cases h1

theorem find_known {fs : List Fld} {k : Str} {f : Fld} (h : fs.find? (fun f => f.name == k) = some f) : f ∈ fs ∧ f.name = k :=
  ⟨List.mem_of_find?_eq_some h, by simpa using List.find?_some h⟩

theorem find_unknown {fs : List Fld} {k : Str} (h : fs.find? (fun f => f.name == k) = none) : ∀ f ∈ fs, f.name ≠ k := by
  intro f hf e
  have := List.find?_eq_none.1 h f hf
  simp [e] at this

theorem decKeys_append {a b : List (StrTok × Tree)} {m : List (Str × Tree)} (h : decKeys (a ++ b) = some m) :
    ∃ m1 m2, decKeys a = some m1 ∧ decKeys b = some m2 ∧ m = m1 ++ m2 := by
  induction a generalizing m with
  | nil => exact ⟨[], m, rfl, h, rfl⟩
  | cons q a ih =>
    obtain ⟨k, t⟩ := q
    rw [List.cons_append, decKeys] at h
    cases hk : k.val with
    | none => rw [hk] at h; cases h
    | some s =>
      cases hr : decKeys (a ++ b) with
      | none => rw [hk, hr] at h; cases h
      | some x =>
        rw [hk, hr] at h
        cases h
        obtain ⟨m1, m2, e1, e2, rfl⟩ := ih hr
        refine ⟨(s, t) :: m1, m2, ?_, e2, rfl⟩
        rw [decKeys, hk, e1]; rfl

theorem decKeys_mem {a : List (StrTok × Tree)} {m : List (Str × Tree)} (h : decKeys a = some m) {k : Str} {t : Tree} (hm : (k, t) ∈ m) :
    ∃ q, (q, t) ∈ a ∧ q.val = some k := by
  induction a generalizing m with
  | nil => cases h; cases hm
  | cons q a ih =>
    obtain ⟨s, u⟩ := q
    rw [decKeys] at h
    cases hk : s.val with
    | none => rw [hk] at h; cases h
    | some x =>
      cases hr : decKeys a with
      | none => rw [hk, hr] at h; cases h
      | some y =>
        rw [hk, hr] at h
        cases h
        rcases List.mem_cons.1 hm with e | e
        · cases e; exact ⟨s, List.mem_cons_self, hk⟩
        · obtain ⟨q, h1, h2⟩ := ih hr e
          exact ⟨q, List.mem_cons_of_mem _ h1, h2⟩

theorem readMembers_some {fs : List Fld} {other : Fld} (a : List (StrTok × Tree)) (m0 m1 m2 : List (Str × Tree)) (h : decKeys a = some m1)
    (hf : Filled fs (m0 ++ m1 ++ m2)) (ho : ∀ q ∈ m1, (∀ f ∈ fs, f.name ≠ q.1) → other.fits q.2 = true) (seen : List Str)
    (hs : ∀ k ∈ seen, ∃ t, (k, t) ∈ m0) :
    ∃ seen', readMembers fs other seen a = some seen' ∧ ∀ k ∈ seen', ∃ t, (k, t) ∈ m0 ++ m1 := by
  induction a generalizing m0 m1 seen with
  | nil =>
    cases h
    exact ⟨seen, rfl, by simpa using hs⟩
  | cons q a ih =>
    obtain ⟨kt, t⟩ := q
    rw [decKeys] at h
    cases hk : kt.val with
    | none => rw [hk] at h; cases h
    | some k =>
      cases hr : decKeys a with
      | none => rw [hk, hr] at h; cases h
      | some m1' =>
        rw [hk, hr] at h
        cases h
        rw [readMembers]
        simp only [hk, bind, Option.bind]
        have e1 : m0 ++ (k, t) :: m1' ++ m2 = m0 ++ (k, t) :: (m1' ++ m2) := by simp
        have e2 : m0 ++ (k, t) :: m1' ++ m2 = (m0 ++ [(k, t)]) ++ m1' ++ m2 := by simp
        have e3 : m0 ++ (k, t) :: m1' = (m0 ++ [(k, t)]) ++ m1' := by simp
        cases hfind : fs.find? (fun f => f.name == k) with
        | some f =>
          obtain ⟨hmem, rfl⟩ := find_known hfind
          obtain ⟨h1, h2⟩ := hf.mem hmem (t := t) (by simp)
          have hns : seen.contains f.name = false := by
            rw [Bool.eq_false_iff]
            intro hc
            obtain ⟨t0, ht0⟩ := hs _ (List.contains_iff_mem.1 hc)
            rw [e1] at h1
            exact filter_twice ht0 h1
          simp only [hns, h2, Bool.not_true, Bool.or_self, Bool.false_eq_true, if_false]
          rw [e3]
          refine ih (m0 ++ [(f.name, t)]) m1' hr (by rw [← e2]; exact hf) (fun q hq => ho q (List.mem_cons_of_mem _ hq)) _ ?_
          intro k hk
          rcases List.mem_cons.1 hk with rfl | hk
          · exact ⟨t, by simp⟩
          · obtain ⟨t', ht'⟩ := hs k hk
            exact ⟨t', by simp [ht']⟩
        | none =>
          have := ho (k, t) List.mem_cons_self (find_unknown hfind)
          simp only [this, if_true]
          rw [e3]
          refine ih (m0 ++ [(k, t)]) m1' hr (by rw [← e2]; exact hf) (fun q hq => ho q (List.mem_cons_of_mem _ hq)) _ ?_
          intro k hk
          obtain ⟨t', ht'⟩ := hs k hk
          exact ⟨t', by simp [ht']⟩

/-- All fields are steady. -/
def AllSteady (p : NumTok → Prop) (fs : List Fld) : Prop := ∀ f ∈ fs, Steady p f.fits f.early

/-- A value that a map fits is not refused before its end. -/
theorem steady_map {fs : List Fld} {other : Fld} {n : Nat} {c : Cut} {t : Tree} (hb : Begins c t) (hp : Nums p t)
    {m : List (Str × Tree)} (hm : asMap n t = some m) (hf : Filled fs m)
    (hs : AllSteady p fs) (hso : Steady p other.fits other.early)
    (ho : ∀ q ∈ m, (∀ f ∈ fs, f.name ≠ q.1) → other.fits q.2 = true) : earlyMap fs other n c = false := by
  cases t with
  | obj a =>
    simp only [asMap] at hm
    by_cases hn : n ≤ 1
    · rw [if_pos hn] at hm; cases hm
    rw [if_neg hn] at hm
    have key : ∀ a1 a2, a = a1 ++ a2 → ∃ m1 m2 seen, decKeys a1 = some m1 ∧ decKeys a2 = some m2 ∧ m = m1 ++ m2 ∧
        readMembers fs other [] a1 = some seen ∧ ∀ k ∈ seen, ∃ t, (k, t) ∈ m1 := by
      rintro a1 a2 rfl
      obtain ⟨m1, m2, e1, e2, rfl⟩ := decKeys_append hm
      obtain ⟨seen, h1, h2⟩ := readMembers_some a1 [] m1 m2 e1 hf (fun q hq => ho q (List.mem_append_left _ hq)) [] (by simp)
      exact ⟨m1, m2, seen, e1, e2, rfl, h1, h2⟩
    generalize ht : Tree.obj a = t at hb hp
    cases hb with
    | nothing => rfl
    | scalar => rfl
    | obj a1 a2 =>
      cases ht
      obtain ⟨m1, m2, seen, -, -, -, h1, -⟩ := key a1 a2 rfl
      simp [earlyMap, hn, h1]
    | objKey a1 a2 is is' e u =>
      cases ht
      obtain ⟨m1, m2, seen, -, h2, -, h1, -⟩ := key a1 _ rfl
      have hk : (strTok e (is ++ is')).val.isSome := by
        rw [decKeys] at h2
        cases hd : (strTok e (is ++ is')).val with
        | none => rw [hd] at h2; cases h2
        | some a => rfl
      simp [earlyMap, hn, h1, lone_val hk]
    | @objVal a1 a2 k c u hc =>
      cases ht
      obtain ⟨m1, m2, seen, -, h2, rfl, h1, h3⟩ := key a1 _ rfl
      rw [decKeys] at h2
      cases hk : k.val with
      | none => rw [hk] at h2; cases h2
      | some s =>
        cases hr : decKeys a2 with
        | none => rw [hk, hr] at h2; cases h2
        | some m2' =>
          rw [hk, hr] at h2
          cases h2
          have hu : Nums p u := hp.member (k := k) (by simp)
          simp only [earlyMap, hn, h1, hk, decide_false, Bool.false_or]
          cases hfind : fs.find? (fun f => f.name == s) with
          | some f =>
            obtain ⟨hmem, rfl⟩ := find_known hfind
            obtain ⟨g1, g2⟩ := hf.mem hmem (t := u) (by simp)
            have hns : seen.contains f.name = false := by
              rw [Bool.eq_false_iff]
              intro hc
              obtain ⟨t0, ht0⟩ := h3 _ (List.contains_iff_mem.1 hc)
              exact filter_twice ht0 g1
            simp only [hns, hs f hmem c u hc hu g2, Bool.or_self]
          | none => exact hso c u hc hu (ho (s, u) (by simp) (find_unknown hfind))
    | num => cases ht
    | str => cases ht
    | arr => cases ht
    | arrNext => cases ht
  | _ => cases hm

/-- The elements fit the fields, one by one. -/
inductive FitAll : List Fld → List Tree → Prop
  | nil : FitAll [] []
  | cons {f : Fld} {fs : List Fld} {t : Tree} {l : List Tree} (h : f.fits t = true) (hr : FitAll fs l) : FitAll (f :: fs) (t :: l)

theorem fitAll : ∀ (fs : List Fld) (l : List Tree), l.length = fs.length → (fs.map Fld.name).Nodup →
    Filled fs ((fs.map Fld.name).zip l) → FitAll fs l
  | [], [], _, _, _ => .nil
  | f :: fs, t :: l, hl, hn, hf => by
    simp only [List.map_cons, List.zip_cons_cons, List.nodup_cons] at hf hn
    refine .cons (hf.mem (f := f) List.mem_cons_self (t := t) List.mem_cons_self).2
      (fitAll fs l (by simpa using hl) hn.2 fun g hg => ?_)
    have hne : f.name ≠ g.name := fun e => hn.1 (e ▸ List.mem_map.2 ⟨g, hg, rfl⟩)
    have := hf g (List.mem_cons_of_mem _ hg)
    have hfield : ∀ m : List (Str × Tree), field ((f.name, t) :: m) g.name = field m g.name := by
      intro m
      unfold field
      rw [List.filter_cons_of_neg (by simpa using hne)]
    rwa [hfield] at this
  | [], _ :: _, hl, _, _ => by cases hl
  | _ :: _, [], hl, _, _ => by cases hl

theorem FitAll.read {fs : List Fld} {l r : List Tree} (h : FitAll fs (l ++ r)) : ∃ fs' pre, readElems fs l = some fs' ∧ FitAll fs' r ∧ fs = pre ++ fs' := by
  induction l generalizing fs with
  | nil => exact ⟨fs, [], by rw [readElems], h, rfl⟩
  | cons t l ih =>
    cases h with
    | @cons f fs _ _ hf hr =>
      obtain ⟨fs', pre, e1, e2, rfl⟩ := ih hr
      exact ⟨fs', f :: pre, by rw [readElems, if_pos hf, e1], e2, rfl⟩

/-- A value that a struct fits is not refused before its end. -/
theorem steady_struct {fs : List Fld} {n : Nat} {c : Cut} {t : Tree} (hb : Begins c t) (hp : Nums p t) (hn : (fs.map Fld.name).Nodup)
    {m : List (Str × Tree)} (hm : asStruct (fs.map Fld.name) n t = some m) (hf : Filled fs m)
    (hs : AllSteady p fs) : earlyStruct fs n c = false := by
  have map : asMap n t = some m → earlyMap fs .ignored n c = false := fun h =>
    steady_map hb hp h hf hs (fun _ _ _ _ _ => rfl) (fun _ _ _ => rfl)
  cases t with
  | obj a =>
    have := map hm
    cases c with
    | arr l => cases hb
    | arrNext l c => cases hb
    | _ => exact this
  | arr l =>
    simp only [asStruct] at hm
    by_cases h1 : n ≤ 1
    · rw [if_pos h1] at hm; cases hm
    rw [if_neg h1] at hm
    split at hm
    · rename_i hl
      cases hm
      have fit := fitAll fs l (by simpa using hl) hn hf
      cases hb with
      | nothing => rfl
      | scalar => rfl
      | arr l r =>
        obtain ⟨fs', _, e, -, -⟩ := fit.read
        simp [earlyStruct, h1, e]
      | @arrNext l r c u hc =>
        obtain ⟨fs', pre, e, e2, rfl⟩ := fit.read
        cases e2 with
        | @cons f fs' _ _ hf hr =>
          have := hs f (by simp) c u hc (hp.elem (by simp)) hf
          simp [earlyStruct, h1, e, this]
    · cases hm
  | _ => cases hm

end DIDComm
