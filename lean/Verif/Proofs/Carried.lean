import Verif.Proofs.SendOn
import Verif.Proofs.Layout
import Verif.Proofs.Shrink
import Verif.Proofs.Cut

/-!
# What survives when a text is read as a JSON value and printed again
-/

set_option autoImplicit false

namespace DIDComm

/-! ## Strings without escapes -/

/-- The value of a string is UTF-8, and if the string is written without escapes, its value is printed without any. -/
def StrTok.Fair (k : StrTok) : Prop := ∀ v, k.val = some v → validUtf8 v = true ∧ (k.esc = false → needsEsc v = false)

theorem strForm_bytes {s : Str} {e : Bool} (h : StrForm s e) : e = false → needsEsc s = false := by
  induction h with
  | nil => intro _; rfl
  | plain b h1 h2 h3 h ih =>
    intro he
    unfold needsEsc at ih ⊢
    rw [List.any_cons, ih he, Bool.or_false]
    have h3 : ¬ b < 0x20 := UInt8.not_lt.2 h3
    simp [escaped, h1, h2, h3]
  | short hb h ih => intro he; cases he
  | unit hu h ih => intro he; cases he

theorem strText_plain {s : Str} {cs : List Char} (h : StrText s cs) : needsEsc s = false → s = utf8 cs := by
  induction h with
  | nil => intro _; rfl
  | @plain t cs c h1 h2 h3 h ih =>
    intro hn
    unfold needsEsc at ih hn
    rw [List.any_append, Bool.or_eq_false_iff] at hn
    rw [ih hn.2]
    rfl
  | short hb h ih => intro hn; cases hn
  | unit he h ih =>
    intro hn
    obtain ⟨a, b, c, d, x, y, z, w, rfl, -⟩ := he
    cases hn
  | pair h1 h2 hu hv hc h ih =>
    intro hn
    obtain ⟨a, b, c, d, x, y, z, w, rfl, -⟩ := h1
    cases hn

theorem StrSpells.fair {k : StrTok} {s : Str} (h : StrSpells k s) : k.Fair := by
  intro v hv
  refine ⟨h.utf8 v hv, fun he => ?_⟩
  obtain ⟨cs, h1, rfl⟩ := (h.2 v).1 hv
  have := strForm_bytes h.1 he
  rwa [← strText_plain h1 this]

mutual
/-- All strings are fair. -/
def Tree.Fair : Tree → Prop
  | .str k => k.Fair
  | .arr l => Tree.FairL l
  | .obj m => Tree.FairM m
  | _ => True
def Tree.FairL : List Tree → Prop
  | [] => True
  | t :: r => t.Fair ∧ Tree.FairL r
def Tree.FairM : List (StrTok × Tree) → Prop
  | [] => True
  | (k, t) :: r => k.Fair ∧ t.Fair ∧ Tree.FairM r
end

mutual
theorem Spells.fair {t : Tree} {s : Str} : Spells t s → t.Fair
  | .null => trivial
  | .tru => trivial
  | .fls => trivial
  | .num _ => trivial
  | .str h => h.fair
  | .emptyArr _ => trivial
  | .arr h => h.fair
  | .emptyObj _ => trivial
  | .obj h => h.fair
theorem SpellsElems.fair {l : List Tree} {s : Str} : SpellsElems l s → Tree.FairL l
  | .one _ h _ => ⟨h.fair, trivial⟩
  | .more _ h _ hr => ⟨h.fair, hr.fair⟩
theorem SpellsMembers.fair {m : List (StrTok × Tree)} {s : Str} : SpellsMembers m s → Tree.FairM m
  | .one _ hk _ _ h _ => ⟨hk.fair, h.fair, trivial⟩
  | .more _ hk _ _ h _ hr => ⟨hk.fair, h.fair, hr.fair⟩
end

theorem JsonText.fair {t : Tree} {s : Str} (h : JsonText t s) : t.Fair := by
  obtain ⟨_, _, _, _, _, h, _⟩ := h
  exact h.fair

/-! ## Members -/

variable {f64 : Str → Option Str}

/-- What the relation says of a content it says of the printed value of the content too. -/
def Survives {α : Type} (f64 : Str → Option Str) (R : Tree → α → Prop) : Prop :=
  ∀ t v x, t.Fair → Means f64 t v → R t x → R v.tree x

/-- The members have the same names, and the second ones are printed values of the first. -/
inductive PrintedMembers (f64 : Str → Option Str) : List (Str × Tree) → List (Str × Tree) → Prop
  | nil : PrintedMembers f64 [] []
  | cons {k : Str} {t : Tree} {v : Value} {m m' : List (Str × Tree)} (ht : t.Fair) (hv : Means f64 t v) (h : PrintedMembers f64 m m') :
      PrintedMembers f64 ((k, t) :: m) ((k, v.tree) :: m')

theorem PrintedMembers.keys {m m' : List (Str × Tree)} (h : PrintedMembers f64 m m') : m'.map Prod.fst = m.map Prod.fst := by
  induction h with
  | nil => rfl
  | cons ht hv h ih => simp [ih]

theorem PrintedMembers.once {k : Str} {t : Tree} {b : List (Str × Tree)} : ∀ {a m' : List (Str × Tree)}, PrintedMembers f64 (a ++ (k, t) :: b) m' →
    k ∉ a.map Prod.fst → k ∉ b.map Prod.fst → ∃ v, t.Fair ∧ Means f64 t v ∧ Once m' k v.tree
  | [], _, .cons (v := v) ht hv h, _, hb => ⟨v, ht, hv, [], _, rfl, by simp, by rw [h.keys]; exact hb⟩
  | (k', t') :: a, _, .cons (v := w) (m' := m') _ _ h, ha, hb => by
    rw [List.map_cons, List.mem_cons, not_or] at ha
    obtain ⟨v, h1, h2, c, d, rfl, h3, h4⟩ := h.once ha.2 hb
    refine ⟨v, h1, h2, (k', w.tree) :: c, d, rfl, ?_, h4⟩
    rw [List.map_cons, List.mem_cons, not_or]
    exact ⟨ha.1, h3⟩

theorem printed_zip : ∀ (names : List Str) (l : List Tree) (x : List Value), Tree.FairL l → MeansAll f64 l x →
    PrintedMembers f64 (names.zip l) (names.zip (Value.trees x))
  | [], _, _, _, _ => by simp only [List.zip_nil_left]; exact .nil
  | _ :: _, [], _, _, h => by
    simp only [MeansAll] at h
    subst h
    exact .nil
  | n :: names, t :: l, _, hl, h => by
    simp only [MeansAll] at h
    obtain ⟨v, r, rfl, h1, h2⟩ := h
    simp only [Tree.FairL] at hl
    simp only [Value.trees, List.zip_cons_cons]
    exact .cons hl.1 h1 (printed_zip names l r hl.2 h2)

theorem meansAll_length : ∀ (l : List Tree) (x : List Value), MeansAll f64 l x → (Value.trees x).length = l.length
  | [], _, h => by
    simp only [MeansAll] at h
    subst h
    rfl
  | t :: l, _, h => by
    simp only [MeansAll] at h
    obtain ⟨v, r, rfl, -, h2⟩ := h
    simp [Value.trees, meansAll_length l r h2]

/-- The last member of a name is printed as the last member of that name. -/
theorem lastOf_means : ∀ (l : List (StrTok × Tree)) (m : List (Str × Tree)) (l' : List (Str × Value)), Tree.FairM l → Named l m →
    MeansMembers f64 l l' → l'.map Prod.fst = m.map Prod.fst ∧ (∀ k v, (k, v) ∈ l' → validUtf8 k = true) ∧
      ∀ k t, LastOf m k t → ∃ v, t.Fair ∧ Means f64 t v ∧ LastOf l' k v
  | [], m, _, _, hn, h => by
    simp only [MeansMembers] at h
    subst h
    have : m = [] := by
      cases m with
      | nil => rfl
      | cons p m => cases hn
    subst this
    refine ⟨rfl, by simp, ?_⟩
    rintro k t ⟨a, b, h, -⟩
    cases a <;> cases h
  | (k, t) :: l, m, _, hl, hn, h => by
    simp only [MeansMembers] at h
    obtain ⟨x, v, r, rfl, h1, h2, h3⟩ := h
    simp only [Tree.FairM] at hl
    cases m with
    | nil => cases hn
    | cons p m =>
      obtain ⟨k', t'⟩ := p
      unfold Named at hn
      simp only [List.map_cons, List.cons.injEq, Prod.mk.injEq] at hn
      obtain ⟨⟨e1, rfl⟩, hn⟩ := hn
      rw [h1] at e1
      cases e1
      obtain ⟨i1, i2, i3⟩ := lastOf_means l m r hl.2.2 hn h3
      refine ⟨by simp [i1], ?_, ?_⟩
      · intro k2 v2 hm
        rcases List.mem_cons.1 hm with hm | hm
        · cases hm; exact (hl.1 _ h1).1
        · exact i2 _ _ hm
      · intro k2 t2 hl2
        rcases lastOf_cons.1 hl2 with hl2 | ⟨rfl, rfl, hk⟩
        · obtain ⟨v2, a, b, c⟩ := i3 _ _ hl2
          exact ⟨v2, a, b, lastOf_cons.2 (.inl c)⟩
        · exact ⟨v, hl.2.1, h2, lastOf_cons.2 (.inr ⟨rfl, rfl, by rw [i1]; exact hk⟩)⟩

theorem named_tree : ∀ (x : List (Str × Value)), KeysUtf8 x → Named (Value.treeMembers x) (x.map fun p => (p.1, p.2.tree))
  | [], _ => rfl
  | (k, v) :: x, h => by
    have hk : validUtf8 k = true := h (k, v) (by simp)
    have ih := named_tree x fun p hp => h p (by simp [hp])
    unfold Named at ih ⊢
    simp only [Value.treeMembers, List.map_cons, ih, strTokOf_val hk]

theorem sorted_nodup {α : Type} {x : List (Str × α)} (h : SortedKeys x) : (x.map Prod.fst).Nodup :=
  List.pairwise_map.2 (h.imp fun hlt => hlt.ne)

/-- An object, or an array of fields, is printed as one with the same members. -/
theorem struct_printed {names : List Str} {t : Tree} {v : Value} {m : List (Str × Tree)} (ht : t.Fair) (hv : Means f64 t v)
    (h : IsStruct names t m) :
    ∃ m', IsStruct names v.tree m' ∧ ∀ k u, Once m k u → ∃ w, u.Fair ∧ Means f64 u w ∧ Once m' k w.tree := by
  rcases h with ⟨l, rfl, hn⟩ | ⟨l, rfl, hl, rfl⟩
  · simp only [Means] at hv
    obtain ⟨x, l', rfl, h1, h2, h3⟩ := hv
    simp only [Tree.Fair] at ht
    obtain ⟨-, i2, i3⟩ := lastOf_means l m l' ht hn h1
    have hk : KeysUtf8 x := fun p hp => i2 p.1 p.2 ((h3 _ _).1 hp).mem
    refine ⟨x.map fun p => (p.1, p.2.tree), .inl ⟨_, rfl, named_tree x hk⟩, ?_⟩
    rintro k u ⟨a, b, rfl, -, hb⟩
    obtain ⟨w, a1, a2, a3⟩ := i3 k u ⟨a, b, rfl, hb⟩
    refine ⟨w, a1, a2, once_of_nodup ?_ (List.mem_map.2 ⟨(k, w), (h3 _ _).2 a3, rfl⟩)⟩
    rw [List.map_map]
    exact sorted_nodup h2
  · simp only [Means] at hv
    obtain ⟨x, rfl, h1⟩ := hv
    simp only [Tree.Fair] at ht
    refine ⟨names.zip (Value.trees x), .inr ⟨_, rfl, by rw [meansAll_length l x h1]; exact hl, rfl⟩, ?_⟩
    rintro k u ⟨a, b, he, ha, hb⟩
    have := printed_zip names l x ht h1
    rw [he] at this
    exact this.once ha hb

theorem req_printed {α : Type} {m m' : List (Str × Tree)} (h : ∀ k u, Once m k u → ∃ w, u.Fair ∧ Means f64 u w ∧ Once m' k w.tree)
    {R : Tree → α → Prop} (hR : Survives f64 R) {k : Str} {x : α} (hx : Req m k R x) : Req m' k R x := by
  obtain ⟨t, h1, h2⟩ := hx
  obtain ⟨w, a, b, c⟩ := h k t h1
  exact ⟨w.tree, c, hR t w x a b h2⟩

/-! ## Envelopes -/

theorem raw_survives : Survives f64 IsRaw := by
  rintro t v x ht hv rfl
  simp only [Means] at hv
  obtain ⟨y, rfl, hy⟩ := hv
  cases hy
  simp only [Tree.Fair] at ht
  obtain ⟨h1, h2⟩ := ht x rfl
  simp only [IsRaw, Value.tree, strTokOf, h1, h2 rfl, if_true]

theorem list_survives {α : Type} {R : Tree → α → Prop} (hR : Survives f64 R) : Survives f64 (IsList R) := by
  rintro _ v x ht hv ⟨ts, rfl, hl, h⟩
  simp only [Means] at hv
  obtain ⟨y, rfl, hy⟩ := hv
  simp only [Tree.Fair] at ht
  refine ⟨Value.trees y, rfl, by rw [meansAll_length ts y hy]; exact hl, ?_⟩
  have key : ∀ (ts : List Tree) (y : List Value) (x : List α), Tree.FairL ts → MeansAll f64 ts y → (∀ p ∈ ts.zip x, R p.1 p.2) →
      ∀ p ∈ (Value.trees y).zip x, R p.1 p.2 := by
    intro ts
    induction ts with
    | nil =>
      intro y x _ hy _ p hp
      simp only [MeansAll] at hy
      subst hy
      simp [Value.trees] at hp
    | cons t ts ih =>
      intro y x ht hy h p hp
      simp only [MeansAll] at hy
      obtain ⟨v, r, rfl, h1, h2⟩ := hy
      simp only [Tree.FairL] at ht
      cases x with
      | nil => simp at hp
      | cons a x =>
        simp only [Value.trees, List.zip_cons_cons, List.mem_cons] at hp
        rcases hp with rfl | hp
        · exact hR t v a ht.1 h1 (h (t, a) (by simp))
        · exact ih r x ht.2 h2 (fun p hp => h p (by simp [hp])) p hp
  exact key ts y x ht hy h

theorem kidHeader_survives : Survives f64 IsKidHeader := by
  rintro t v x ht hv ⟨m, h, h1⟩
  obtain ⟨m', h', hm⟩ := struct_printed ht hv h
  exact ⟨m', h', req_printed hm raw_survives h1⟩

theorem recipient_survives : Survives f64 IsRecipient := by
  rintro t v x ht hv ⟨m, h, h1, h2⟩
  obtain ⟨m', h', hm⟩ := struct_printed ht hv h
  exact ⟨m', h', req_printed hm kidHeader_survives h1, req_printed hm raw_survives h2⟩

theorem encrypted_survives : Survives f64 IsEncrypted := by
  rintro t v x ht hv ⟨m, h, h1, h2, h3, h4, h5⟩
  obtain ⟨m', h', hm⟩ := struct_printed ht hv h
  exact ⟨m', h', req_printed hm raw_survives h1, req_printed hm (list_survives recipient_survives) h2,
    req_printed hm raw_survives h3, req_printed hm raw_survives h4, req_printed hm raw_survives h5⟩

theorem signature_survives : Survives f64 IsSignature := by
  rintro t v x ht hv ⟨m, h, h1, h2, h3⟩
  obtain ⟨m', h', hm⟩ := struct_printed ht hv h
  exact ⟨m', h', req_printed hm kidHeader_survives h1, req_printed hm raw_survives h2, req_printed hm raw_survives h3⟩

theorem signed_survives : Survives f64 IsSigned := by
  rintro t v x ht hv ⟨m, h, h1, h2⟩
  obtain ⟨m', h', hm⟩ := struct_printed ht hv h
  exact ⟨m', h', req_printed hm (list_survives signature_survives) h1, req_printed hm raw_survives h2⟩

end DIDComm
