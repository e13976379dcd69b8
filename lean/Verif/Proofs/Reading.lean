import Verif.Spec.Reading
import Verif.Proofs.Grammar
import Verif.Proofs.StrOrder
import Verif.Proofs.JsonDecode

/-!
# The typed decoders read what the specification says
-/

set_option autoImplicit false

namespace DIDComm

/-! ## Contents of texts -/

mutual
/-- The digits of all numbers are digits. -/
def Tree.Ok : Tree → Prop
  | .num n => ∀ b ∈ n.digits, Digit b
  | .arr l => Tree.OkL l
  | .obj m => Tree.OkM m
  | _ => True
def Tree.OkL : List Tree → Prop
  | [] => True
  | t :: r => t.Ok ∧ Tree.OkL r
def Tree.OkM : List (StrTok × Tree) → Prop
  | [] => True
  | (_, t) :: r => t.Ok ∧ Tree.OkM r
end

mutual
theorem Spells.ok {t : Tree} {s : Str} : Spells t s → t.Ok
  | .null => trivial
  | .tru => trivial
  | .fls => trivial
  | .num ⟨_, _, _, h, _⟩ => h.1.2
  | .str _ => trivial
  | .emptyArr _ => trivial
  | .arr h => h.ok
  | .emptyObj _ => trivial
  | .obj h => h.ok
theorem SpellsElems.ok {l : List Tree} {s : Str} : SpellsElems l s → Tree.OkL l
  | .one _ h _ => ⟨h.ok, trivial⟩
  | .more _ h _ hr => ⟨h.ok, hr.ok⟩
theorem SpellsMembers.ok {m : List (StrTok × Tree)} {s : Str} : SpellsMembers m s → Tree.OkM m
  | .one _ _ _ _ h _ => ⟨h.ok, trivial⟩
  | .more _ _ _ _ h _ hr => ⟨h.ok, hr.ok⟩
end

theorem JsonText.ok {t : Tree} {s : Str} (h : JsonText t s) : t.Ok := by
  obtain ⟨_, _, _, _, _, h, _⟩ := h
  exact h.ok

theorem okL_mem : ∀ {l : List Tree} {t : Tree}, Tree.OkL l → t ∈ l → t.Ok
  | _ :: _, _, h, .head _ => h.1
  | _ :: _, _, h, .tail _ hm => okL_mem h.2 hm

theorem okM_mem : ∀ {m : List (StrTok × Tree)} {p : StrTok × Tree}, Tree.OkM m → p ∈ m → p.2.Ok
  | _ :: _, _, h, .head _ => h.1
  | _ :: _, _, h, .tail _ hm => okM_mem h.2 hm

/-! ## Digits -/

theorem decimal_val {s : Str} {n : Nat} (h : Decimal s n) : digitsVal s = n := by
  induction h with
  | nil => rfl
  | snoc h hd ih =>
    rename_i s n d
    rw [digitsVal_append, ih]
    simp only [List.foldl_cons, List.foldl_nil, UInt8.toNat_ofNat']
    omega

theorem decimal_more {a ds : Str} {n : Nat} (ha : Decimal a n) (h : ∀ b ∈ ds, Digit b) :
    Decimal (a ++ ds) (ds.foldl (fun a d => a * 10 + (d.toNat - 48)) n) := by
  induction ds generalizing a n with
  | nil => simpa using ha
  | cons b ds ih =>
    have hb := h b (by simp)
    have h1 : 48 ≤ b.toNat := UInt8.le_iff_toNat_le.1 hb.1
    have h2 : b.toNat ≤ 57 := UInt8.le_iff_toNat_le.1 hb.2
    have e : UInt8.ofNat (48 + (b.toNat - 48)) = b := by
      rw [show 48 + (b.toNat - 48) = b.toNat by omega]; exact UInt8.ofNat_toNat
    have key : Decimal (a ++ [b]) (n * 10 + (b.toNat - 48)) := by
      have := Decimal.snoc (d := b.toNat - 48) ha (by omega)
      rw [e, Nat.mul_comm] at this
      exact this
    have := ih key (fun c hc => h c (by simp [hc]))
    rw [List.append_assoc] at this
    exact this

theorem decimal_iff {ds : Str} (h : ∀ b ∈ ds, Digit b) (n : Nat) : Decimal ds n ↔ digitsVal ds = n := by
  constructor
  · exact decimal_val
  · rintro rfl
    have := decimal_more .nil h
    exact this

/-! ## Maps -/

theorem lastOf_nil {α : Type} {k : Str} {v : α} : ¬ LastOf [] k v := by
  rintro ⟨a, b, h, -⟩
  cases a <;> cases h

theorem lastOf_mem {α : Type} {l : List (Str × α)} {k : Str} {v : α} (h : LastOf l k v) : k ∈ l.map Prod.fst := by
  obtain ⟨a, b, rfl, -⟩ := h
  simp

theorem lastOf_cons {α : Type} {l : List (Str × α)} {k k' : Str} {v v' : α} :
    LastOf ((k, v) :: l) k' v' ↔ LastOf l k' v' ∨ (k' = k ∧ v' = v ∧ k' ∉ l.map Prod.fst) := by
  constructor
  · rintro ⟨a, b, h, hb⟩
    cases a with
    | nil => cases h; exact .inr ⟨rfl, rfl, hb⟩
    | cons p a => cases h; exact .inl ⟨a, b, rfl, hb⟩
  · rintro (⟨a, b, rfl, hb⟩ | ⟨rfl, rfl, hb⟩)
    · exact ⟨(k, v) :: a, b, rfl, hb⟩
    · exact ⟨[], l, rfl, hb⟩

theorem mem_btInsert_iff {α : Type} {k k' : Str} {v v' : α} {m : List (Str × α)} (h : SortedKeys m) :
    (k', v') ∈ btInsert k v m ↔ (k' = k ∧ v' = v) ∨ (k' ≠ k ∧ (k', v') ∈ m) := by
  induction m with
  | nil => simp [btInsert]
  | cons p m ih =>
    obtain ⟨k0, v0⟩ := p
    have hs := List.pairwise_cons.1 h
    have hlt : ∀ v'', (k0, v'') ∉ m := fun v'' hm => (hs.1 _ hm).ne rfl
    unfold btInsert
    split
    · rename_i e; subst e
      simp only [List.mem_cons, Prod.mk.injEq]
      constructor
      · rintro (h | hm)
        · exact .inl h
        · refine .inr ⟨?_, .inr hm⟩
          rintro rfl; exact hlt _ hm
      · rintro (h | ⟨hn, h | h⟩)
        · exact .inl h
        · exact absurd h.1 hn
        · exact .inr h
    · rename_i hne
      split
      · rename_i hle
        simp only [List.mem_cons, Prod.mk.injEq]
        constructor
        · rintro (h | h | h)
          · exact .inl h
          · exact .inr ⟨fun e => hne (e.symm.trans h.1), .inl h⟩
          · refine .inr ⟨?_, .inr h⟩
            rintro rfl
            have := (hs.1 _ h)
            exact hne (strLe_antisymm hle this.le)
        · rintro (h | ⟨-, h | h⟩)
          · exact .inl h
          · exact .inr (.inl h)
          · exact .inr (.inr h)
      · simp only [List.mem_cons, Prod.mk.injEq, ih hs.2]
        constructor
        · rintro (h | h | ⟨hn, h⟩)
          · exact .inr ⟨fun e => hne (e.symm.trans h.1), .inl h⟩
          · exact .inl h
          · exact .inr ⟨hn, .inr h⟩
        · rintro (h | ⟨hn, h | h⟩)
          · exact .inr (.inl h)
          · exact .inl h
          · exact .inr (.inr ⟨hn, h⟩)

theorem bt_fold {α : Type} (l : List (Str × α)) : ∀ (acc : List (Str × α)), SortedKeys acc →
    SortedKeys (l.foldl (fun a p => btInsert p.1 p.2 a) acc) ∧
    ∀ k v, (k, v) ∈ l.foldl (fun a p => btInsert p.1 p.2 a) acc ↔ LastOf l k v ∨ (k ∉ l.map Prod.fst ∧ (k, v) ∈ acc) := by
  induction l with
  | nil =>
    intro acc h
    refine ⟨h, fun k v => ?_⟩
    simp [lastOf_nil]
  | cons p l ih =>
    intro acc h
    obtain ⟨k0, v0⟩ := p
    have := ih (btInsert k0 v0 acc) (btInsert_sorted _ _ _ h)
    refine ⟨this.1, fun k v => ?_⟩
    rw [List.foldl_cons, this.2 k v, mem_btInsert_iff h, lastOf_cons]
    simp only [List.map_cons, List.mem_cons, not_or]
    constructor
    · rintro (h | ⟨h1, h | h⟩)
      · exact .inl (.inl h)
      · exact .inl (.inr ⟨h.1, h.2, h1⟩)
      · exact .inr ⟨⟨h.1, h1⟩, h.2⟩
    · rintro ((h | ⟨h1, h2, h3⟩) | ⟨⟨h1, h2⟩, h3⟩)
      · exact .inl h
      · exact .inr ⟨h3, .inl ⟨h1, h2⟩⟩
      · exact .inr ⟨h2, .inr ⟨h1, h3⟩⟩

theorem sorted_ext {α : Type} : ∀ {x y : List (Str × α)}, SortedKeys x → SortedKeys y →
    (∀ k v, (k, v) ∈ x ↔ (k, v) ∈ y) → x = y
  | [], [], _, _, _ => rfl
  | [], p :: y, _, _, h => absurd ((h p.1 p.2).2 (.head _)) (by simp)
  | p :: x, [], _, _, h => absurd ((h p.1 p.2).1 (.head _)) (by simp)
  | (k, v) :: x, (k', v') :: y, hx, hy, h => by
    have hx' := List.pairwise_cons.1 hx
    have hy' := List.pairwise_cons.1 hy
    have e : (k, v) = (k', v') := by
      rcases List.mem_cons.1 ((h k v).1 (.head _)) with e | hm
      · exact e
      · rcases List.mem_cons.1 ((h k' v').2 (.head _)) with e | hm'
        · exact e.symm
        · have h1 := hy'.1 _ hm
          have h2 := hx'.1 _ hm'
          exact absurd (strLe_antisymm h1.le h2.le) h1.ne
    cases e
    have := sorted_ext hx'.2 hy'.2 (fun k2 v2 => by
      have := h k2 v2
      simp only [List.mem_cons, Prod.mk.injEq] at this
      constructor
      · intro hm
        rcases this.1 (.inr hm) with e | hm'
        · exact absurd e.1.symm (hx'.1 _ hm).ne
        · exact hm'
      · intro hm
        rcases this.2 (.inr hm) with e | hm'
        · exact absurd e.1.symm (hy'.1 _ hm).ne
        · exact hm')
    rw [this]

/-! ## JSON values -/

theorem toNum_iff {f64 : Str → Option Str} {t : NumTok} (h : ∀ b ∈ t.digits, Digit b) (x : Num) :
    toNum f64 t = some x ↔ IsNum f64 t x := by
  obtain ⟨neg, ds, tail⟩ := t
  have hd := decimal_iff h
  simp only at hd
  unfold toNum
  simp only
  by_cases ht : tail = []
  · subst ht
    rw [if_pos rfl]
    cases neg with
    | true =>
      simp only [if_true]
      by_cases hn : 0 < digitsVal ds ∧ digitsVal ds ≤ 2 ^ 63
      · rw [if_pos hn]
        cases x with
        | pos n => simp [IsNum]
        | neg n =>
          simp only [IsNum, hd, Option.some.injEq, Num.neg.injEq, true_and]
          constructor
          · rintro rfl; exact ⟨rfl, hn⟩
          · exact fun h => h.1
        | flt y =>
          simp only [IsNum, hd, reduceCtorEq, false_iff, Option.some.injEq]
          rintro ⟨h1, -⟩
          have := h1 trivial _ rfl
          simp only [if_true] at this
          omega
      · rw [if_neg hn]
        cases x with
        | pos n => simp [IsNum]
        | neg n =>
          simp only [IsNum, hd, Option.map_eq_some_iff, reduceCtorEq, and_false, exists_false, false_iff]
          rintro ⟨-, -, rfl, h⟩; exact hn h
        | flt y =>
          simp only [IsNum, hd, Option.map_eq_some_iff, Num.flt.injEq, exists_eq_right]
          constructor
          · intro h
            refine ⟨fun _ n e => ?_, h⟩
            simp only [if_true]
            omega
          · exact fun h => h.2
    | false =>
      simp only [Bool.false_eq_true, if_false]
      by_cases hn : digitsVal ds < 2 ^ 64
      · rw [if_pos hn]
        cases x with
        | neg n => simp [IsNum]
        | pos n =>
          simp only [IsNum, hd, Option.some.injEq, Num.pos.injEq, true_and]
          constructor
          · rintro rfl; exact ⟨rfl, hn⟩
          · exact fun h => h.1
        | flt y =>
          simp only [IsNum, hd, reduceCtorEq, false_iff, Option.some.injEq]
          rintro ⟨h1, -⟩
          have := h1 trivial _ rfl
          simp only [Bool.false_eq_true, if_false] at this
          omega
      · rw [if_neg hn]
        cases x with
        | neg n => simp [IsNum]
        | pos n =>
          simp only [IsNum, hd, Option.map_eq_some_iff, reduceCtorEq, and_false, exists_false, false_iff]
          rintro ⟨-, -, rfl, h⟩; exact hn h
        | flt y =>
          simp only [IsNum, hd, Option.map_eq_some_iff, Num.flt.injEq, exists_eq_right]
          constructor
          · intro h
            refine ⟨fun _ n e => ?_, h⟩
            simp only [Bool.false_eq_true, if_false]
            omega
          · exact fun h => h.2
  · rw [if_neg ht]
    cases x with
    | pos n => simp [IsNum, ht]
    | neg n => simp [IsNum, ht]
    | flt y =>
      simp only [IsNum, Option.map_eq_some_iff, Num.flt.injEq, exists_eq_right]
      exact ⟨fun h => ⟨fun e => absurd e ht, h⟩, fun h => h.2⟩

mutual
theorem toValue_iff (f64 : Str → Option Str) : ∀ (t : Tree) (n : Nat) (v : Value), t.Ok → 0 < n →
    (toValue f64 n t = some v ↔ MeansWithin f64 n t v)
  | .null, n, v, _, hn => by
    simp only [toValue, MeansWithin, Means, Tree.depth, Option.some.injEq]
    exact ⟨fun h => ⟨h.symm, hn⟩, fun h => h.1.symm⟩
  | .bool b, n, v, _, hn => by
    simp only [toValue, MeansWithin, Means, Tree.depth, Option.some.injEq]
    exact ⟨fun h => ⟨h.symm, hn⟩, fun h => h.1.symm⟩
  | .num t, n, v, h, hn => by
    simp only [toValue, MeansWithin, Means, Tree.depth, Option.map_eq_some_iff]
    constructor
    · rintro ⟨x, hx, rfl⟩; exact ⟨⟨x, rfl, (toNum_iff h x).1 hx⟩, hn⟩
    · rintro ⟨⟨x, rfl, hx⟩, -⟩; exact ⟨x, (toNum_iff h x).2 hx, rfl⟩
  | .str s, n, v, _, hn => by
    simp only [toValue, MeansWithin, Means, Tree.depth, Option.map_eq_some_iff]
    constructor
    · rintro ⟨x, hx, rfl⟩; exact ⟨⟨x, rfl, hx⟩, hn⟩
    · rintro ⟨⟨x, rfl, hx⟩, -⟩; exact ⟨x, hx, rfl⟩
  | .arr l, n, v, h, hn => by
    simp only [toValue, MeansWithin, Means, Tree.depth]
    by_cases h1 : n ≤ 1
    · rw [if_pos h1]
      simp only [reduceCtorEq, false_iff]
      rintro ⟨-, hd⟩; omega
    · rw [if_neg h1]
      simp only [Option.map_eq_some_iff]
      constructor
      · rintro ⟨x, hx, rfl⟩
        obtain ⟨h2, h3⟩ := (toValues_iff f64 l (n - 1) x h (by omega)).1 hx
        exact ⟨⟨x, rfl, h2⟩, by omega⟩
      · rintro ⟨⟨x, rfl, h2⟩, h3⟩
        exact ⟨x, (toValues_iff f64 l (n - 1) x h (by omega)).2 ⟨h2, by omega⟩, rfl⟩
  | .obj m, n, v, h, hn => by
    simp only [toValue, MeansWithin, Means, Tree.depth]
    by_cases h1 : n ≤ 1
    · rw [if_pos h1]
      simp only [reduceCtorEq, false_iff]
      rintro ⟨-, hd⟩; omega
    · rw [if_neg h1]
      simp only [Option.map_eq_some_iff]
      constructor
      · rintro ⟨x, hx, rfl⟩
        obtain ⟨l, h2, h3, rfl⟩ := (toMembers_iff f64 m (n - 1) [] x h (by omega)).1 hx
        have hf := bt_fold l [] List.Pairwise.nil
        refine ⟨⟨_, l, rfl, h2, hf.1, fun k y => ?_⟩, by omega⟩
        rw [hf.2]; simp
      · rintro ⟨⟨x, l, rfl, h2, hs, hx⟩, h3⟩
        refine ⟨x, (toMembers_iff f64 m (n - 1) [] x h (by omega)).2 ⟨l, h2, by omega, ?_⟩, rfl⟩
        have hf := bt_fold l [] List.Pairwise.nil
        refine sorted_ext hs hf.1 (fun k y => ?_)
        rw [hf.2, hx]; simp
theorem toValues_iff (f64 : Str → Option Str) : ∀ (l : List Tree) (n : Nat) (x : List Value), Tree.OkL l → 0 < n →
    (toValues f64 n l = some x ↔ MeansAll f64 l x ∧ Tree.depthL l < n)
  | [], n, x, _, hn => by
    simp only [toValues, MeansAll, Tree.depthL, Option.some.injEq]
    exact ⟨fun h => ⟨h.symm, hn⟩, fun h => h.1.symm⟩
  | t :: r, n, x, h, hn => by
    simp only [toValues, MeansAll, Tree.depthL, Option.bind_eq_bind, Option.bind_eq_some_iff, Option.some.injEq]
    constructor
    · rintro ⟨v, hv, r', hr, rfl⟩
      obtain ⟨a1, a2⟩ := (toValue_iff f64 t n v h.1 hn).1 hv
      obtain ⟨b1, b2⟩ := (toValues_iff f64 r n r' h.2 hn).1 hr
      exact ⟨⟨v, r', rfl, a1, b1⟩, by omega⟩
    · rintro ⟨⟨v, r', rfl, a1, b1⟩, hd⟩
      exact ⟨v, (toValue_iff f64 t n v h.1 hn).2 ⟨a1, by omega⟩, r', (toValues_iff f64 r n r' h.2 hn).2 ⟨b1, by omega⟩, rfl⟩
theorem toMembers_iff (f64 : Str → Option Str) : ∀ (m : List (StrTok × Tree)) (n : Nat) (acc x : List (Str × Value)), Tree.OkM m → 0 < n →
    (toMembers f64 n m acc = some x ↔
      ∃ l, MeansMembers f64 m l ∧ Tree.depthM m < n ∧ x = l.foldl (fun a p => btInsert p.1 p.2 a) acc)
  | [], n, acc, x, _, hn => by
    simp only [toMembers, MeansMembers, Tree.depthM, Option.some.injEq]
    constructor
    · rintro rfl; exact ⟨[], rfl, hn, rfl⟩
    · rintro ⟨_, rfl, -, rfl⟩; rfl
  | (k, t) :: r, n, acc, x, h, hn => by
    simp only [toMembers, MeansMembers, Tree.depthM, Option.bind_eq_bind, Option.bind_eq_some_iff]
    constructor
    · rintro ⟨k', hk, v, hv, hr⟩
      obtain ⟨a1, a2⟩ := (toValue_iff f64 t n v h.1 hn).1 hv
      obtain ⟨l, b1, b2, rfl⟩ := (toMembers_iff f64 r n _ x h.2 hn).1 hr
      exact ⟨(k', v) :: l, ⟨k', v, l, rfl, hk, a1, b1⟩, by omega, rfl⟩
    · rintro ⟨_, ⟨k', v, l, rfl, hk, a1, b1⟩, hd, rfl⟩
      exact ⟨k', hk, v, (toValue_iff f64 t n v h.1 hn).2 ⟨a1, by omega⟩,
        (toMembers_iff f64 r n _ _ h.2 hn).2 ⟨l, b1, by omega, rfl⟩⟩
end

/-! ## Members -/

/-- The decoder reads what the relation says. -/
def Decodes {α : Type} (d : Tree → Option α) (R : Tree → α → Prop) : Prop := ∀ t, t.Ok → ∀ x, d t = some x ↔ R t x

def MembersOk (m : List (Str × Tree)) : Prop := ∀ p ∈ m, p.2.Ok

theorem decodes_str : Decodes dStr IsText := by
  intro t _ x
  unfold dStr IsText
  split
  · simp only [Option.some.injEq, Tree.str.injEq, StrTok.mk.injEq]
    exact ⟨fun h => ⟨_, rfl, h⟩, fun ⟨_, _, h⟩ => h⟩
  · rename_i hn
    simp only [reduceCtorEq, false_iff]
    rintro ⟨e, rfl⟩
    exact hn e x rfl

theorem decodes_raw : Decodes dBorrow IsRaw := by
  intro t _ x
  unfold dBorrow IsRaw
  split
  · rename_i s
    simp only [Option.some.injEq, Tree.str.injEq, StrTok.mk.injEq, true_and]
  · rename_i hn
    simp only [reduceCtorEq, false_iff]
    rintro rfl
    exact hn x rfl

theorem decodes_u64 : Decodes dU64 IsU64 := by
  intro t ht x
  unfold dU64 IsU64
  split
  · rename_i ds
    have hd := decimal_iff (ds := ds) ht
    split
    · rename_i hlt
      simp only [Option.some.injEq]
      constructor
      · rintro rfl
        refine ⟨ds, rfl, (hd _).2 ?_⟩
        rw [UInt64.toNat_ofNat']
        exact (Nat.mod_eq_of_lt hlt).symm
      · rintro ⟨_, e, h⟩
        cases e
        rw [decimal_val h]
        exact UInt64.ofNat_toNat
    · rename_i hge
      simp only [reduceCtorEq, false_iff]
      rintro ⟨_, e, h⟩
      cases e
      rw [decimal_val h] at hge
      exact hge x.toNat_lt
  · rename_i hn
    simp only [reduceCtorEq, false_iff]
    rintro ⟨ds, rfl, -⟩
    exact hn ds rfl

theorem decodes_value {f64 : Str → Option Str} {n : Nat} (hn : 0 < n) : Decodes (toValue f64 n) (MeansWithin f64 n) :=
  fun t ht v => toValue_iff f64 t n v ht hn

theorem decAll_iff {α : Type} {d : Tree → Option α} {R : Tree → α → Prop} (hd : Decodes d R) :
    ∀ (ts : List Tree) (l : List α), Tree.OkL ts →
      (decAll d ts = some l ↔ ts.length = l.length ∧ ∀ p ∈ ts.zip l, R p.1 p.2)
  | [], l, _ => by
    cases l with
    | nil => simp [decAll]
    | cons a l => simp [decAll]
  | t :: ts, l, h => by
    simp only [decAll, Option.bind_eq_bind, Option.bind_eq_some_iff, Option.some.injEq]
    constructor
    · rintro ⟨a, ha, l', hl, rfl⟩
      obtain ⟨h1, h2⟩ := (decAll_iff hd ts l' h.2).1 hl
      refine ⟨by simp [h1], ?_⟩
      intro p hp
      rcases List.mem_cons.1 hp with rfl | hp
      · exact (hd t h.1 a).1 ha
      · exact h2 p hp
    · rintro ⟨h1, h2⟩
      cases l with
      | nil => cases h1
      | cons a l =>
        exact ⟨a, (hd t h.1 a).2 (h2 (t, a) (by simp)), l,
          (decAll_iff hd ts l h.2).2 ⟨by simpa using h1, fun p hp => h2 p (by simp [hp])⟩, rfl⟩

theorem decodes_list {α : Type} {d : Nat → Tree → Option α} {R : Tree → α → Prop} {n : Nat} (hn : 1 < n) (hd : Decodes (d (n - 1)) R) :
    Decodes (dVec d n) (IsList R) := by
  intro t ht l
  unfold dVec IsList
  split
  · rename_i ts
    rw [if_neg (by omega), decAll_iff hd ts l ht]
    constructor
    · rintro ⟨h1, h2⟩; exact ⟨ts, rfl, h1, h2⟩
    · rintro ⟨_, e, h1, h2⟩; cases e; exact ⟨h1, h2⟩
  · rename_i hne
    simp only [reduceCtorEq, false_iff]
    rintro ⟨ts, rfl, -⟩
    exact hne ts rfl

theorem decKeys_iff : ∀ (l : List (StrTok × Tree)) (m : List (Str × Tree)), decKeys l = some m ↔ Named l m
  | [], m => by
    unfold decKeys Named
    cases m <;> simp
  | (k, t) :: r, m => by
    unfold decKeys
    simp only [Option.bind_eq_bind, Option.bind_eq_some_iff, Option.some.injEq]
    constructor
    · rintro ⟨k', hk, r', hr, rfl⟩
      have := (decKeys_iff r r').1 hr
      unfold Named at this ⊢
      simp [this, hk]
    · intro h
      cases m with
      | nil => simp [Named] at h
      | cons p m =>
        obtain ⟨k', t'⟩ := p
        simp only [Named, List.map_cons, List.cons.injEq, Prod.mk.injEq] at h
        obtain ⟨⟨hk, rfl⟩, h⟩ := h
        exact ⟨k', hk, m, (decKeys_iff r m).2 h, rfl⟩

theorem asMap_iff {n : Nat} (hn : 1 < n) (t : Tree) (m : List (Str × Tree)) : asMap n t = some m ↔ IsMap t m := by
  unfold asMap IsMap
  split
  · rename_i l
    rw [if_neg (by omega), decKeys_iff]
    constructor
    · intro h; exact ⟨l, rfl, h⟩
    · rintro ⟨_, e, h⟩; cases e; exact h
  · rename_i hne
    simp only [reduceCtorEq, false_iff]
    rintro ⟨l, rfl, -⟩
    exact hne l rfl

theorem asStruct_iff {names : List Str} {n : Nat} (hn : 1 < n) (t : Tree) (m : List (Str × Tree)) :
    asStruct names n t = some m ↔ IsStruct names t m := by
  unfold asStruct IsStruct IsMap
  split
  · rename_i l
    rw [if_neg (by omega), decKeys_iff]
    constructor
    · intro h; exact .inl ⟨l, rfl, h⟩
    · rintro (⟨_, e, h⟩ | ⟨_, e, _⟩)
      · cases e; exact h
      · cases e
  · rename_i l
    rw [if_neg (by omega)]
    constructor
    · intro h
      split at h
      · rename_i hl; cases h; exact .inr ⟨l, rfl, hl, rfl⟩
      · cases h
    · rintro (⟨_, e, h⟩ | ⟨_, e, hl, rfl⟩)
      · cases e
      · cases e; rw [if_pos hl]
  · rename_i hne1 hne2
    simp only [reduceCtorEq, false_iff]
    rintro (⟨l, rfl, -⟩ | ⟨l, rfl, -⟩)
    · exact hne1 l rfl
    · exact hne2 l rfl

theorem named_mem {l : List (StrTok × Tree)} {m : List (Str × Tree)} (h : Named l m) {k : Str} {t : Tree} (hp : (k, t) ∈ m) :
    ∃ k', (k', t) ∈ l := by
  have : (some k, t) ∈ l.map (fun p => (p.1.val, p.2)) := by
    rw [h]; exact List.mem_map.2 ⟨(k, t), hp, rfl⟩
  obtain ⟨⟨k', t'⟩, hm, e⟩ := List.mem_map.1 this
  simp only [Prod.mk.injEq] at e
  obtain ⟨-, rfl⟩ := e
  exact ⟨k', hm⟩

theorem IsMap.ok {t : Tree} {m : List (Str × Tree)} (h : IsMap t m) (ht : t.Ok) : MembersOk m := by
  obtain ⟨l, rfl, h⟩ := h
  intro p hp
  obtain ⟨k', hk⟩ := named_mem h (k := p.1) (t := p.2) hp
  exact okM_mem ht hk

theorem IsStruct.ok {names : List Str} {t : Tree} {m : List (Str × Tree)} (h : IsStruct names t m) (ht : t.Ok) : MembersOk m := by
  rcases h with h | ⟨l, rfl, -, rfl⟩
  · exact h.ok ht
  · intro p hp
    exact okL_mem ht (List.of_mem_zip hp).2

theorem field_some {m : List (Str × Tree)} {k : Str} {t : Tree} : field m k = some (some t) ↔ Once m k t := by
  unfold field Once
  constructor
  · intro h
    split at h
    · cases h
    · rename_i k' t' hf
      cases h
      obtain ⟨a, b, rfl, h1, h2, h3⟩ := List.filter_eq_cons_iff.1 hf
      have hk : k' = k := by simpa using h2
      subst hk
      refine ⟨a, b, rfl, ?_, ?_⟩
      · intro hm
        obtain ⟨p, hp, e⟩ := List.mem_map.1 hm
        exact h1 p hp (by simp [e])
      · intro hm
        obtain ⟨p, hp, e⟩ := List.mem_map.1 hm
        have := List.filter_eq_nil_iff.1 h3 p hp
        exact this (by simp [e])
    · cases h
  · rintro ⟨a, b, rfl, h1, h2⟩
    have e1 : a.filter (fun p => p.1 == k) = [] := by
      rw [List.filter_eq_nil_iff]
      intro p hp hk
      exact h1 (List.mem_map.2 ⟨p, hp, by simpa using hk⟩)
    have e2 : b.filter (fun p => p.1 == k) = [] := by
      rw [List.filter_eq_nil_iff]
      intro p hp hk
      exact h2 (List.mem_map.2 ⟨p, hp, by simpa using hk⟩)
    rw [List.filter_append, e1, List.filter_cons, if_pos (by simp), e2]
    rfl

theorem field_none {m : List (Str × Tree)} {k : Str} : field m k = some none ↔ Absent m k := by
  unfold field Absent
  constructor
  · intro h
    split at h
    · rename_i hf
      intro hm
      obtain ⟨p, hp, e⟩ := List.mem_map.1 hm
      exact List.filter_eq_nil_iff.1 hf p hp (by simp [e])
    · cases h
    · cases h
  · intro h
    have e : m.filter (fun p => p.1 == k) = [] := by
      rw [List.filter_eq_nil_iff]
      intro p hp hk
      exact h (List.mem_map.2 ⟨p, hp, by simpa using hk⟩)
    rw [e]

theorem Once.mem {m : List (Str × Tree)} {k : Str} {t : Tree} (h : Once m k t) : (k, t) ∈ m := by
  obtain ⟨a, b, rfl, -⟩ := h
  simp

theorem reqField_iff {α : Type} {m : List (Str × Tree)} {k : Str} {d : Tree → Option α} {R : Tree → α → Prop} (hm : MembersOk m)
    (hd : Decodes d R) (x : α) : reqField m k d = some x ↔ Req m k R x := by
  unfold reqField Req
  simp only [Option.bind_eq_bind, Option.bind_eq_some_iff]
  constructor
  · rintro ⟨_, hf, t, rfl, hx⟩
    have := field_some.1 hf
    exact ⟨t, this, (hd t (hm _ this.mem) x).1 hx⟩
  · rintro ⟨t, h, hx⟩
    exact ⟨_, field_some.2 h, t, rfl, (hd t (hm _ h.mem) x).2 hx⟩

theorem optField_iff {α : Type} {m : List (Str × Tree)} {k : Str} {d : Tree → Option α} {R : Tree → α → Prop} (hm : MembersOk m)
    (hd : Decodes d R) (hnull : ∀ x, ¬ R .null x) (o : Option α) : optField m k d = some o ↔ Opt m k R o := by
  unfold optField
  simp only [Option.bind_eq_bind, Option.bind_eq_some_iff]
  constructor
  · rintro ⟨f, hf, h⟩
    cases f with
    | none => cases h; exact .inl (field_none.1 hf)
    | some t =>
      have ho := field_some.1 hf
      simp only at h
      unfold dOpt at h
      split at h
      · cases h; exact .inr ho
      · obtain ⟨x, hx, rfl⟩ := Option.map_eq_some_iff.1 h
        exact ⟨t, ho, (hd t (hm _ ho.mem) x).1 hx⟩
  · intro h
    cases o with
    | none =>
      rcases h with h | h
      · exact ⟨none, field_none.2 h, rfl⟩
      · exact ⟨some .null, field_some.2 h, rfl⟩
    | some x =>
      obtain ⟨t, ho, hx⟩ := h
      refine ⟨some t, field_some.2 ho, ?_⟩
      simp only
      unfold dOpt
      split
      · exact absurd hx (hnull x)
      · rw [(hd _ (hm _ ho.mem) x).2 hx]; rfl

theorem isText_null (x : Str) : ¬ IsText .null x := by rintro ⟨_, h⟩; cases h
theorem isRaw_null (x : Str) : ¬ IsRaw .null x := by intro h; cases h
theorem isU64_null (x : UInt64) : ¬ IsU64 .null x := by rintro ⟨_, h, _⟩; cases h
theorem isList_null {α : Type} {R : Tree → α → Prop} (x : List α) : ¬ IsList R .null x := by rintro ⟨_, h, _⟩; cases h

end DIDComm
