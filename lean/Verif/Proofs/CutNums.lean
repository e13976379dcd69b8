import Verif.Proofs.Early
import Verif.Proofs.Reading
import Verif.Proofs.Typed

/-! # The beginnings of numbers, in particular of printed numbers -/

set_option autoImplicit false

namespace DIDComm

variable {f64 : Str → Option Str}

theorem NumSpells.text {n : NumTok} {u : Str} (h : NumSpells n u) : u = (if n.neg then b!"-" else []) ++ n.digits ++ n.tail := by
  obtain ⟨f, e, rfl, -, -, -, ht⟩ := h
  rw [ht]; simp

theorem NumSpells.digit {n : NumTok} {u : Str} (h : NumSpells n u) : ∀ b ∈ n.digits, Digit b := by
  obtain ⟨f, e, -, h, -⟩ := h
  exact h.1.2

theorem NumExt.text {n n' : NumTok} (h : NumExt n n') :
    ∃ s x, NumSpells n s ∧ (if n'.neg then b!"-" else []) ++ n'.digits ++ n'.tail = s ++ x := by
  obtain ⟨⟨u, hu⟩, h1, h2⟩ := h
  refine ⟨u, ?_⟩
  rw [hu.text, h1]
  rw [hu.text, h1] at hu
  rcases h2 with ⟨e, x, hx⟩ | ⟨e, x, hx⟩
  · refine ⟨x ++ n'.tail, hu, ?_⟩
    rw [e, ← hx]; simp
  · refine ⟨x, hu, ?_⟩
    rw [e, ← hx]; simp

/-- The specification's condition on a number is the one that the decoders need. -/
theorem cutsRead {n : NumTok} (h : CutsReadable f64 ((if n.neg then b!"-" else []) ++ n.digits ++ n.tail)) : CutsRead f64 n := by
  intro k hk
  obtain ⟨s, x, h1, h2⟩ := hk.text
  obtain ⟨v, hv⟩ := h s x k h2 h1
  rw [(toNum_iff h1.digit v).2 hv]; rfl

/-- With doubles without limits every number stands for something. -/
theorem isNum_all {n : NumTok} {u : Str} (h : NumSpells n u) : ∃ v, IsNum (fun t => some t) n v := by
  have : (toNum (fun t => some t) n).isSome := by
    unfold toNum
    simp only
    split
    · split <;> split <;> rfl
    · rfl
  obtain ⟨v, hv⟩ := Option.isSome_iff_exists.1 this
  exact ⟨v, (toNum_iff h.digit v).1 hv⟩

theorem numbersCut_nums {t : Tree} (h : NumbersCut f64 t) : Nums (CutsRead f64) t := fun n hn => cutsRead (h n hn)

/-! ## Printed numbers -/

theorem decimal_prefix {ds : Str} {n : Nat} (h : ds <+: decimal n) : digitsVal ds ≤ n := by
  have := digitsVal_prefix h
  rwa [digitsVal_decimal] at this

theorem digitsVal_head {b : UInt8} {r : Str} (h : Digit b) (hb : b ≠ 0x30) : 0 < digitsVal (b :: r) := by
  unfold digitsVal
  rw [List.foldl_cons]
  refine Nat.lt_of_lt_of_le ?_ (foldl_ge _ _)
  have h1 : (0x30 : UInt8).toNat ≤ b.toNat := UInt8.le_iff_toNat_le.1 h.1
  have h2 : b.toNat ≠ (0x30 : UInt8).toNat := fun e => hb (UInt8.toNat_inj.1 e)
  have h3 : (0x30 : UInt8).toNat = 48 := rfl
  omega

/-- Every beginning of a number that was printed can be read. -/
theorem num_cutsRead (hf : FloatCuts f64) {n : Num} (h : n.WF f64) : CutsRead f64 ((numTok n).getD ⟨false, [], []⟩) := by
  cases n with
  | pos n =>
    intro k hk
    obtain ⟨neg, ds, tl⟩ := k
    obtain ⟨-, h1, h2⟩ := hk
    simp only [numTok, Option.getD_some] at h1 h2
    have ht : tl = [] := by
      rcases h2 with ⟨h2, -⟩ | ⟨-, h2⟩
      · exact h2
      · exact List.prefix_nil.1 h2
    have hd : ds <+: decimal n := by
      rcases h2 with ⟨-, h2⟩ | ⟨h2, -⟩
      · exact h2
      · rw [h2]; exact List.prefix_refl _
    subst h1 ht
    have := decimal_prefix hd
    simp only [Num.WF] at h
    simp only [toNum, if_true, Bool.false_eq_true, if_false]
    rw [if_pos (by omega)]; rfl
  | neg n =>
    intro k hk
    obtain ⟨neg, ds, tl⟩ := k
    obtain ⟨⟨u, hu⟩, h1, h2⟩ := hk
    simp only [numTok, Option.getD_some] at h1 h2
    have ht : tl = [] := by
      rcases h2 with ⟨h2, -⟩ | ⟨-, h2⟩
      · exact h2
      · exact List.prefix_nil.1 h2
    have hd : ds <+: decimal n := by
      rcases h2 with ⟨-, h2⟩ | ⟨h2, -⟩
      · exact h2
      · rw [h2]; exact List.prefix_refl _
    subst h1 ht
    have hle := decimal_prefix hd
    simp only [Num.WF] at h
    have hpos : 0 < digitsVal ds := by
      obtain ⟨_, _, -, hi, -⟩ := hu
      simp only at hi
      obtain ⟨b, r, hb, -, hz⟩ := decimal_head n
      cases ds with
      | nil => exact absurd rfl hi.1.1
      | cons c ds =>
        rw [hb] at hd
        obtain ⟨rfl, -⟩ := List.cons_prefix_cons.1 hd
        refine digitsVal_head (hi.1.2 _ List.mem_cons_self) (fun e => ?_)
        have := (hz e).1
        omega
    simp only [toNum, if_true]
    rw [if_pos (by omega)]; rfl
  | flt t =>
    obtain ⟨h1, h2⟩ := h
    obtain ⟨tok, h1⟩ := Option.isSome_iff_exists.1 h1
    simp only [numTok, h1, Option.getD_some]
    refine cutsRead ?_
    have := (fltTok_text h1).1
    rw [show b!"-" = [0x2D] from rfl, this]
    exact hf t h2

mutual
/-- All numbers in a value are ordinary. -/
def Value.NumsWF (f64 : Str → Option Str) : Value → Prop
  | .null => True
  | .bool _ => True
  | .num n => n.WF f64
  | .str _ => True
  | .arr l => Value.NumsWFL f64 l
  | .obj m => Value.NumsWFM f64 m
/-- See `Value.NumsWF`. -/
def Value.NumsWFL (f64 : Str → Option Str) : List Value → Prop
  | [] => True
  | v :: r => v.NumsWF f64 ∧ Value.NumsWFL f64 r
/-- See `Value.NumsWF`. -/
def Value.NumsWFM (f64 : Str → Option Str) : List (Str × Value) → Prop
  | [] => True
  | (_, v) :: r => v.NumsWF f64 ∧ Value.NumsWFM f64 r
end

mutual
theorem Value.WF.numsWF : ∀ {v : Value}, v.WF f64 → v.NumsWF f64
  | .null, _ => by simp [Value.NumsWF]
  | .bool _, _ => by simp [Value.NumsWF]
  | .num n, h => by simpa only [Value.NumsWF, Value.WF] using h
  | .str _, _ => by simp [Value.NumsWF]
  | .arr l, h => by simp only [Value.WF] at h; simp only [Value.NumsWF]; exact Value.WFL.numsWF h
  | .obj m, h => by simp only [Value.WF] at h; simp only [Value.NumsWF]; exact Value.WFM.numsWF h.2
theorem Value.WFL.numsWF : ∀ {l : List Value}, Value.WFL f64 l → Value.NumsWFL f64 l
  | [], _ => by simp [Value.NumsWFL]
  | v :: r, h => by
    simp only [Value.WFL] at h
    exact ⟨h.1.numsWF, Value.WFL.numsWF h.2⟩
theorem Value.WFM.numsWF : ∀ {l : List (Str × Value)}, Value.WFM f64 l → Value.NumsWFM f64 l
  | [], _ => by simp [Value.NumsWFM]
  | (k, v) :: r, h => by
    simp only [Value.WFM] at h
    exact ⟨h.2.1.numsWF, Value.WFM.numsWF h.2.2⟩
end

mutual
theorem Value.NumsWF.cuts (hf : FloatCuts f64) : ∀ {v : Value}, v.NumsWF f64 → Nums (CutsRead f64) v.tree
  | .null, _ => by rw [Value.tree]; intro n hn; cases hn
  | .bool _, _ => by rw [Value.tree]; intro n hn; cases hn
  | .num k, h => by
    rw [Value.tree]; intro n hn
    cases hn
    exact num_cutsRead hf (by simpa only [Value.NumsWF] using h)
  | .str _, _ => by rw [Value.tree]; intro n hn; cases hn
  | .arr l, h => by
    rw [Value.tree]; intro n hn
    simp only [Value.NumsWF] at h
    cases hn with
    | elem ht hn => exact Value.NumsWFL.cuts hf h _ ht n hn
  | .obj m, h => by
    rw [Value.tree]; intro n hn
    simp only [Value.NumsWF] at h
    cases hn with
    | member ht hn => exact Value.NumsWFM.cuts hf h _ ht n hn
theorem Value.NumsWFL.cuts (hf : FloatCuts f64) : ∀ {l : List Value}, Value.NumsWFL f64 l → ∀ t ∈ Value.trees l, Nums (CutsRead f64) t
  | [], _ => by rw [Value.trees]; intro t ht; cases ht
  | v :: r, h => by
    rw [Value.trees]; intro t ht
    rw [Value.NumsWFL] at h
    rcases List.mem_cons.1 ht with rfl | ht
    · exact h.1.cuts hf
    · exact Value.NumsWFL.cuts hf h.2 t ht
theorem Value.NumsWFM.cuts (hf : FloatCuts f64) : ∀ {l : List (Str × Value)}, Value.NumsWFM f64 l → ∀ q ∈ Value.treeMembers l, Nums (CutsRead f64) q.2
  | [], _ => by rw [Value.treeMembers]; intro t ht; cases ht
  | (k, v) :: r, h => by
    rw [Value.treeMembers]; intro t ht
    rw [Value.NumsWFM] at h
    rcases List.mem_cons.1 ht with rfl | ht
    · exact h.1.cuts hf
    · exact Value.NumsWFM.cuts hf h.2 t ht
end

/-! ## Printed messages -/

theorem numsWF_optStr (k : Str) (o : Option Str) : Value.NumsWFM f64 (optMember k .str o) := by
  cases o <;> simp [optMember, Value.NumsWFM, Value.NumsWF]

theorem numsWF_optU64 (k : Str) (o : Option UInt64) : Value.NumsWFM f64 (optMember k u64Json o) := by
  cases o with
  | none => simp [optMember, Value.NumsWFM]
  | some n => simp only [optMember, Value.NumsWFM, Value.NumsWF, u64Json, Num.WF, and_true]; exact n.toNat_lt

theorem numsWFM_append {a b : List (Str × Value)} : Value.NumsWFM f64 (a ++ b) ↔ Value.NumsWFM f64 a ∧ Value.NumsWFM f64 b := by
  induction a with
  | nil => simp [Value.NumsWFM]
  | cons p a ih => obtain ⟨k, v⟩ := p; simp [Value.NumsWFM, ih, and_assoc]

theorem numsWFL_map {α : Type} (f : α → Value) (l : List α) (h : ∀ a ∈ l, (f a).NumsWF f64) : Value.NumsWFL f64 (l.map f) := by
  induction l with
  | nil => simp [Value.NumsWFL]
  | cons a l ih =>
    simp only [List.map_cons, Value.NumsWFL]
    exact ⟨h a List.mem_cons_self, ih fun b hb => h b (List.mem_cons_of_mem _ hb)⟩

theorem numsWFL_map_str (l : List Str) : Value.NumsWFL f64 (l.map .str) := numsWFL_map _ _ (fun _ _ => by simp [Value.NumsWF])

theorem AttachmentData.numsWF {d : AttachmentData} (h : d.WF f64) : d.toJson.NumsWF f64 := by
  cases d with
  | base64 b jws =>
    simp only [AttachmentData.toJson, Value.NumsWF, numsWFM_append]
    simp [Value.NumsWFM, Value.NumsWF, numsWF_optStr]
  | json v jws =>
    simp only [AttachmentData.toJson, Value.NumsWF, numsWFM_append]
    simp [Value.NumsWFM, numsWF_optStr, h.1.numsWF]
  | links l x jws =>
    simp only [AttachmentData.toJson, Value.NumsWF, numsWFM_append]
    simp [Value.NumsWFM, Value.NumsWF, numsWF_optStr, numsWFL_map_str]

theorem Attachment.numsWF {a : Attachment} (h : a.WF f64) : a.toJson.NumsWF f64 := by
  simp only [Attachment.toJson, Value.NumsWF, numsWFM_append]
  simp [Value.NumsWFM, numsWF_optStr, numsWF_optU64, AttachmentData.numsWF h.data]

theorem Message.numsWF {m : Message} (h : m.WF f64) : m.toJson.NumsWF f64 := by
  have h1 : Value.NumsWFM f64 (optMember b!"to" (fun l => Value.arr (l.map .str)) m.to) := by
    cases m.to <;> simp [optMember, Value.NumsWFM, Value.NumsWF, numsWFL_map_str]
  have h2 : Value.NumsWFM f64 (optMember b!"attachments" (fun l => Value.arr (l.map Attachment.toJson)) m.attachments) := by
    cases ha : m.attachments with
    | none => simp [optMember, Value.NumsWFM]
    | some l =>
      simp only [optMember, Value.NumsWFM, Value.NumsWF, and_true]
      exact numsWFL_map _ _ (fun a hx => Attachment.numsWF (h.attachments l ha a hx))
  simp only [Message.toJson, Value.NumsWF, numsWFM_append]
  simp [Value.NumsWFM, Value.NumsWF, numsWF_optStr, numsWF_optU64, h.body.numsWF, h.extra.numsWF, h1, h2]

end DIDComm
