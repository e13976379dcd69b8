import Verif.Proofs.JsonPrint
import Verif.Proofs.StrOrder

/-! # Decoding the tree of a printed value -/

set_option autoImplicit false

namespace DIDComm

theorem digitsVal_append (a b : Str) :
    digitsVal (a ++ b) = b.foldl (fun a d => a * 10 + (d.toNat - 48)) (digitsVal a) := by
  simp [digitsVal, List.foldl_append]

theorem digitsVal_decimalAux (f n : Nat) (h : n < 10 ^ f) : digitsVal (decimalAux f n) = n := by
  induction f generalizing n with
  | zero => simp at h; subst h; rfl
  | succ f ih =>
    simp only [decimalAux]
    split
    · rename_i h10
      simp only [digitsVal, List.foldl_cons, List.foldl_nil, (digit_facts n h10).2]
      omega
    · have h1 : n / 10 < 10 ^ f := by
        rw [Nat.pow_succ] at h; omega
      have h2 : n % 10 < 10 := Nat.mod_lt _ (by omega)
      rw [digitsVal_append, ih _ h1]
      simp only [List.foldl_cons, List.foldl_nil, (digit_facts _ h2).2]
      omega

theorem digitsVal_decimal (n : Nat) : digitsVal (decimal n) = n :=
  digitsVal_decimalAux _ _ (lt_ten_pow n)

theorem spanDigits_eq {s d r : Str} (h : spanDigits s = (d, r)) : s = d ++ r := by
  have h3 := (spanDigits_spec s).1
  rw [h] at h3; exact h3

/-- The text of a number token is put together again from its parts. -/
theorem parseNum_text {neg : Bool} {s r : Str} {tok : NumTok} (h : parseNum neg s = .ok (tok, r)) :
    s = tok.digits ++ tok.tail ++ r ∧ tok.neg = neg := by
  unfold parseNum at h
  obtain ⟨⟨i, r1⟩, h1, h⟩ := except_bind_ok.1 h
  obtain ⟨⟨f, r2⟩, h2, h⟩ := except_bind_ok.1 h
  obtain ⟨⟨e, r3⟩, h3, h⟩ := except_bind_ok.1 h
  cases h
  have hi : s = i ++ r1 := by
    unfold parseIntPart at h1
    split at h1
    · cases h1
    · split at h1
      · split at h1
        · split at h1
          · cases h1
          · cases h1; rfl
        · cases h1; rfl
      · split at h1
        · exact spanDigits_eq (Except.ok.inj h1)
        · cases h1
  have hdig : ∀ {s d r : Str}, digits1 s = .ok (d, r) → s = d ++ r := by
    intro s d r h
    unfold digits1 at h
    split at h
    · cases h
    · split at h
      · exact spanDigits_eq (Except.ok.inj h)
      · cases h
  have hf : r1 = f ++ r2 := by
    unfold parseFrac at h2
    split at h2
    · split at h2
      · rename_i hb
        obtain ⟨⟨d, rest⟩, hd, h2⟩ := except_bind_ok.1 h2
        cases h2; rw [hdig hd, hb]; rfl
      · cases h2; rfl
    · cases h2; rfl
  have he : r2 = e ++ r := by
    unfold parseExp at h3
    split at h3
    · split at h3
      · split at h3
        · split at h3
          · obtain ⟨⟨d, rest⟩, hd, h3⟩ := except_bind_ok.1 h3
            cases h3; rw [hdig hd]; rfl
          · obtain ⟨⟨d, rest⟩, hd, h3⟩ := except_bind_ok.1 h3
            cases h3; rw [hdig hd]; rfl
        · cases h3
      · cases h3; rfl
    · cases h3; rfl
  refine ⟨?_, rfl⟩
  rw [hi, hf, he]; simp

theorem fltTok_text {t : Str} {tok : NumTok} (h : fltTok t = some tok) :
    (if tok.neg then [0x2D] else []) ++ tok.digits ++ tok.tail = t ∧ tok.tail ≠ [] := by
  have htail : tok.tail ≠ [] := by
    unfold fltTok at h
    split at h
    · cases h
    · split at h
      · split at h
        · cases h
        · rename_i ht; cases h; exact ht
      · cases h
  refine ⟨?_, htail⟩
  rcases fltTok_some h with ⟨r, rfl, hp⟩ | ⟨b, r, rfl, -, hp⟩
  · have := parseNum_text hp
    rw [this.2, this.1]; simp
  · have := parseNum_text hp
    rw [this.2, this.1]; simp

variable {f64 : Str → Option Str}

theorem Num.WF.ok {n : Num} (h : n.WF f64) : n.Ok := by
  cases n with
  | pos n => rfl
  | neg n => rfl
  | flt t => exact h.1

theorem toNum_tok {n : Num} (h : n.WF f64) :
    toNum f64 ((numTok n).getD ⟨false, [], []⟩) = some n := by
  cases n with
  | pos n => simp only [Num.WF] at h; simp [numTok, toNum, digitsVal_decimal, h]
  | neg n => simp only [Num.WF] at h; simp [numTok, toNum, digitsVal_decimal, h]
  | flt t =>
    obtain ⟨h1, h2⟩ := h
    obtain ⟨tok, h1⟩ := Option.isSome_iff_exists.1 h1
    have := fltTok_text h1
    simp [numTok, h1, toNum, this.2]
    have h3 := this.1
    rw [List.append_assoc] at h3
    rw [h3, h2]

mutual
theorem Value.WF.numsOk : ∀ {v : Value}, v.WF f64 → v.NumsOk
  | .null, _ => trivial
  | .bool _, _ => trivial
  | .num n, h => by simp only [Value.WF] at h; exact h.ok
  | .str _, _ => trivial
  | .arr l, h => by simp only [Value.WF] at h; exact Value.WFL.numsOk h
  | .obj m, h => by simp only [Value.WF] at h; exact Value.WFM.numsOk h.2
theorem Value.WFL.numsOk : ∀ {l : List Value}, Value.WFL f64 l → Value.NumsOkL l
  | [], _ => trivial
  | v :: l, h => by
    simp only [Value.WFL] at h
    exact ⟨h.1.numsOk, Value.WFL.numsOk h.2⟩
theorem Value.WFM.numsOk : ∀ {l : List (Str × Value)}, Value.WFM f64 l → Value.NumsOkM l
  | [], _ => trivial
  | (k, v) :: l, h => by
    simp only [Value.WFM] at h
    exact ⟨h.2.1.numsOk, Value.WFM.numsOk h.2.2⟩
end

theorem strTokOf_val {s : Str} (h : validUtf8 s = true) : (strTokOf s).val = some s := by
  simp [strTokOf, h]

mutual
/-- Decoding the tree of an ordinary value gives the value. -/
theorem toValue_tree : ∀ (v : Value) (n : Nat), v.WF f64 → v.depth < n →
    toValue f64 n v.tree = some v
  | .null, n, h, hn => by simp [Value.tree, toValue]
  | .bool b, n, h, hn => by simp [Value.tree, toValue]
  | .num k, n, h, hn => by
    simp only [Value.WF] at h
    simp [Value.tree, toValue, toNum_tok h]
  | .str s, n, h, hn => by
    simp only [Value.WF] at h
    simp [Value.tree, toValue, strTokOf_val h]
  | .arr l, n, h, hn => by
    simp only [Value.WF] at h
    simp only [Value.depth] at hn
    have h1 : ¬ n ≤ 1 := by omega
    simp [Value.tree, toValue, h1, toValues_trees l (n - 1) h (by omega)]
  | .obj m, n, h, hn => by
    simp only [Value.WF] at h
    simp only [Value.depth] at hn
    have h1 : ¬ n ≤ 1 := by omega
    have := toMembers_trees m (n - 1) [] h.2 (by omega) (by simpa using h.1)
    simp [Value.tree, toValue, h1, this]
theorem toValues_trees : ∀ (l : List Value) (n : Nat), Value.WFL f64 l → Value.depthL l < n →
    toValues f64 n (Value.trees l) = some l
  | [], n, h, hn => by simp [Value.trees, toValues]
  | v :: l, n, h, hn => by
    simp only [Value.WFL] at h
    simp only [Value.depthL] at hn
    simp [Value.trees, toValues, toValue_tree v n h.1 (by omega), toValues_trees l n h.2 (by omega)]
theorem toMembers_trees : ∀ (m : List (Str × Value)) (n : Nat) (acc : List (Str × Value)),
    Value.WFM f64 m → Value.depthM m < n → SortedKeys (acc ++ m) →
    toMembers f64 n (Value.treeMembers m) acc = some (acc ++ m)
  | [], n, acc, h, hn, hs => by simp [Value.treeMembers, toMembers]
  | (k, v) :: m, n, acc, h, hn, hs => by
    simp only [Value.WFM] at h
    simp only [Value.depthM] at hn
    have hlast : btInsert k v acc = acc ++ [(k, v)] := by
      apply btInsert_last
      intro p hp
      unfold SortedKeys at hs
      rw [List.pairwise_append] at hs
      exact hs.2.2 p hp (k, v) (by simp)
    have ih := toMembers_trees m n (acc ++ [(k, v)]) h.2.2 (by omega) (by simpa using hs)
    simp [Value.treeMembers, toMembers, strTokOf_val h.1, toValue_tree v n h.2.1 (by omega), hlast, ih]
end

/-! ## Struct members -/

/-- All keys of a member list are UTF-8. -/
def KeysUtf8 (m : List (Str × Value)) : Prop := ∀ p ∈ m, validUtf8 p.1 = true

theorem decKeys_tree (m : List (Str × Value)) (h : KeysUtf8 m) :
    decKeys (Value.treeMembers m) = some (m.map fun p => (p.1, p.2.tree)) := by
  induction m with
  | nil => simp [Value.treeMembers, decKeys]
  | cons p m ih =>
    obtain ⟨k, v⟩ := p
    have hk : validUtf8 k = true := h (k, v) (by simp)
    simp [Value.treeMembers, decKeys, strTokOf_val hk, ih (fun p hp => h p (by simp [hp]))]

theorem asMap_tree (m : List (Str × Value)) (n : Nat) (hn : 1 < n) (h : KeysUtf8 m) :
    asMap n (Value.obj m).tree = some (m.map fun p => (p.1, p.2.tree)) := by
  simp [Value.tree, asMap, decKeys_tree m h]; omega

theorem asStruct_tree (names : List Str) (m : List (Str × Value)) (n : Nat) (hn : 1 < n) (h : KeysUtf8 m) :
    asStruct names n (Value.obj m).tree = some (m.map fun p => (p.1, p.2.tree)) := by
  simp [Value.tree, asStruct, decKeys_tree m h]; omega

/-- The members with a given name. -/
def named (name : Str) (m : List (Str × Value)) : List Value :=
  (m.filter (fun p => p.1 == name)).map Prod.snd

@[simp] theorem named_nil (name : Str) : named name [] = [] := rfl
@[simp] theorem named_append (name : Str) (a b : List (Str × Value)) :
    named name (a ++ b) = named name a ++ named name b := by simp [named]
@[simp] theorem named_cons (name k : Str) (v : Value) (m : List (Str × Value)) :
    named name ((k, v) :: m) = if k == name then v :: named name m else named name m := by
  unfold named
  by_cases h : (k == name) = true <;> simp [h]
@[simp] theorem named_optMember {α : Type} (name k : Str) (f : α → Value) (o : Option α) :
    named name (optMember k f o) = if k == name then (o.map f).toList else [] := by
  cases o <;> simp [optMember]

theorem named_of_not_mem {name : Str} {m : List (Str × Value)} (h : name ∉ m.map Prod.fst) :
    named name m = [] := by
  induction m with
  | nil => rfl
  | cons p m ih =>
    obtain ⟨k, v⟩ := p
    simp only [List.map_cons, List.mem_cons, not_or] at h
    have : ¬ k = name := fun e => h.1 e.symm
    simp [this, ih h.2]

theorem field_tree (m : List (Str × Value)) (name : Str) :
    field (m.map fun p => (p.1, p.2.tree)) name =
      match named name m with
      | [] => some none
      | [v] => some (some v.tree)
      | _ => none := by
  unfold field named
  rw [List.filter_map]
  generalize hq : m.filter ((fun p => p.1 == name) ∘ fun p => (p.1, p.2.tree)) = q
  have : m.filter (fun p => p.1 == name) = q := by rw [← hq]; rfl
  rw [this]
  match q with
  | [] => rfl
  | [_] => rfl
  | _ :: _ :: _ => rfl

theorem reqField_tree {α : Type} {m : List (Str × Value)} {name : Str} {v : Value} {d : Tree → Option α}
    (h : named name m = [v]) : reqField (m.map fun p => (p.1, p.2.tree)) name d = d v.tree := by
  simp [reqField, field_tree, h]

theorem optField_tree_none {α : Type} {m : List (Str × Value)} {name : Str} {d : Tree → Option α}
    (h : named name m = []) : optField (m.map fun p => (p.1, p.2.tree)) name d = some none := by
  simp [optField, field_tree, h]

theorem optField_tree_some {α : Type} {m : List (Str × Value)} {name : Str} {v : Value} {d : Tree → Option α}
    (h : named name m = [v]) : optField (m.map fun p => (p.1, p.2.tree)) name d = dOpt d v.tree := by
  simp [optField, field_tree, h]

theorem dStr_tree {s : Str} (h : validUtf8 s = true) : dStr (Value.str s).tree = some s := by
  simp [Value.tree, strTokOf, dStr, h]

theorem dBorrow_tree {s : Str} (h : validUtf8 s = true) (he : needsEsc s = false) :
    dBorrow (Value.str s).tree = some s := by
  simp [Value.tree, strTokOf, dBorrow, h, he]

theorem dU64_tree (n : UInt64) : dU64 (u64Json n).tree = some n := by
  have : n.toNat < 2 ^ 64 := n.toNat_lt
  simp only [u64Json, Value.tree, numTok, Option.getD_some, dU64, digitsVal_decimal, this, if_true]
  simp

theorem dOpt_dStr_tree {s : Str} (h : validUtf8 s = true) :
    dOpt dStr (Value.str s).tree = some (some s) := by
  have := dStr_tree h
  simp only [Value.tree] at this ⊢
  simp [dOpt, this]

theorem dOpt_dBorrow_tree {s : Str} (h : validUtf8 s = true) (he : needsEsc s = false) :
    dOpt dBorrow (Value.str s).tree = some (some s) := by
  have := dBorrow_tree h he
  simp only [Value.tree] at this ⊢
  simp [dOpt, this]

theorem dOpt_dU64_tree (n : UInt64) : dOpt dU64 (u64Json n).tree = some (some n) := by
  have := dU64_tree n
  simp only [u64Json, Value.tree] at this ⊢
  simp [dOpt, this]

/-- An optional string member. -/
theorem optField_str {m : List (Str × Value)} {name : Str} {o : Option Str} (ho : OptUtf8 o)
    (h : named name m = (o.map Value.str).toList) :
    optField (m.map fun p => (p.1, p.2.tree)) name dStr = some o := by
  cases o with
  | none => exact optField_tree_none h
  | some s => rw [optField_tree_some h, dOpt_dStr_tree (ho s rfl)]

/-- An optional borrowed string member. -/
theorem optField_borrow {m : List (Str × Value)} {name : Str} {o : Option Str} (ho : OptUtf8 o)
    (he : ∀ s, o = some s → needsEsc s = false)
    (h : named name m = (o.map Value.str).toList) :
    optField (m.map fun p => (p.1, p.2.tree)) name dBorrow = some o := by
  cases o with
  | none => exact optField_tree_none h
  | some s => rw [optField_tree_some h, dOpt_dBorrow_tree (ho s rfl) (he s rfl)]

/-- An optional integer member. -/
theorem optField_u64 {m : List (Str × Value)} {name : Str} {o : Option UInt64}
    (h : named name m = (o.map u64Json).toList) :
    optField (m.map fun p => (p.1, p.2.tree)) name dU64 = some o := by
  cases o with
  | none => exact optField_tree_none h
  | some s => rw [optField_tree_some h, dOpt_dU64_tree s]

theorem trees_map {α : Type} (f : α → Value) (l : List α) :
    Value.trees (l.map f) = l.map fun a => (f a).tree := by
  induction l with
  | nil => simp [Value.trees]
  | cons a l ih => simp [Value.trees, ih]

theorem decAll_map {α β : Type} (d : Tree → Option β) (f : α → Tree) (g : α → β) (l : List α)
    (h : ∀ a ∈ l, d (f a) = some (g a)) : decAll d (l.map f) = some (l.map g) := by
  induction l with
  | nil => rfl
  | cons a l ih =>
    simp [decAll, h a (by simp), ih (fun a ha => h a (by simp [ha]))]

/-- A vector whose elements decode. -/
theorem dVec_tree {α : Type} (d : Nat → Tree → Option α) (f : α → Value) (n : Nat) (l : List α) (hn : 1 < n)
    (h : ∀ a ∈ l, d (n - 1) (f a).tree = some a) : dVec d n (Value.arr (l.map f)).tree = some l := by
  have hn' : ¬ n ≤ 1 := by omega
  simp only [Value.tree, trees_map, dVec, hn', if_false]
  rw [decAll_map (d (n - 1)) (fun a => (f a).tree) id l h]
  simp

theorem dOpt_dVec_tree {α : Type} (d : Nat → Tree → Option α) (f : α → Value) (n : Nat) (l : List α) (hn : 1 < n)
    (h : ∀ a ∈ l, d (n - 1) (f a).tree = some a) :
    dOpt (dVec d n) (Value.arr (l.map f)).tree = some (some l) := by
  have := dVec_tree d f n l hn h
  simp only [Value.tree] at this ⊢
  simp [dOpt, this]

/-- An optional vector member. -/
theorem optField_vec {α : Type} {m : List (Str × Value)} {name : Str} {o : Option (List α)}
    (d : Nat → Tree → Option α) (f : α → Value) (n : Nat) (hn : 1 < n)
    (hd : ∀ l, o = some l → ∀ a ∈ l, d (n - 1) (f a).tree = some a)
    (h : named name m = (o.map fun l => Value.arr (l.map f)).toList) :
    optField (m.map fun p => (p.1, p.2.tree)) name (dVec d n) = some o := by
  cases o with
  | none => exact optField_tree_none h
  | some l => rw [optField_tree_some h, dOpt_dVec_tree d f n l hn (hd l rfl)]

end DIDComm
