import Verif.Spec.Carried
import Verif.Proofs.Carried

/-!
# What exactly a printed JSON value is read as
-/

set_option autoImplicit false

namespace DIDComm

variable {f64 : Str → Option Str}

/-- The first relation holds of the printed value of a content if and only if the second holds of the content. -/
def Carries {α : Type} (f64 : Str → Option Str) (R R' : Tree → α → Prop) : Prop :=
  ∀ t v x, t.Fair → Means f64 t v → (R v.tree x ↔ R' t x)

/-- The last members of the first are the members of the second, printed. -/
structure LastPrinted (f64 : Str → Option Str) (m m' : List (Str × Tree)) : Prop where
  to : ∀ k u, LastOf m k u → ∃ w, u.Fair ∧ Means f64 u w ∧ Once m' k w.tree
  back : ∀ k u', Once m' k u' → ∃ u w, LastOf m k u ∧ u.Fair ∧ Means f64 u w ∧ u' = w.tree

theorem Once.last {m : List (Str × Tree)} {k : Str} {t : Tree} (h : Once m k t) : LastOf m k t := by
  obtain ⟨a, b, e, -, hb⟩ := h
  exact ⟨a, b, e, hb⟩

theorem lastOf_back : ∀ (l : List (StrTok × Tree)) (m : List (Str × Tree)) (l' : List (Str × Value)), Tree.FairM l → Named l m →
    MeansMembers f64 l l' → ∀ k v, LastOf l' k v → ∃ t, LastOf m k t ∧ t.Fair ∧ Means f64 t v
  | [], m, _, _, _, h => by
    simp only [MeansMembers] at h
    subst h
    rintro k v ⟨a, b, h, -⟩
    cases a <;> cases h
  | (k, t) :: l, m, _, hl, hn, h => by
    simp only [MeansMembers] at h
    obtain ⟨x, v, r, rfl, h1, h2, h3⟩ := h
    simp only [Tree.FairM] at hl
    cases m with
    | nil => cases hn
    | cons p m =>
      obtain ⟨k', t'⟩ := p
      unfold Named at hn
      simp only [List.map_cons, List.cons.injEq, Prod.mk.injEq] at hn
      obtain ⟨⟨e1, rfl⟩, hn⟩ := hn
      rw [h1] at e1
      cases e1
      have i1 := (lastOf_means l m r hl.2.2 hn h3).1
      intro k2 v2 hl2
      rcases lastOf_cons.1 hl2 with hl2 | ⟨rfl, rfl, hk⟩
      · obtain ⟨t2, a, b⟩ := lastOf_back l m r hl.2.2 hn h3 _ _ hl2
        exact ⟨t2, lastOf_cons.2 (.inl a), b⟩
      · exact ⟨t, lastOf_cons.2 (.inr ⟨rfl, rfl, by rw [← i1]; exact hk⟩), hl.2.1, h2⟩

theorem named_exists : ∀ (l : List (StrTok × Tree)) (l' : List (Str × Value)), MeansMembers f64 l l' → ∃ m, Named l m
  | [], _, _ => ⟨[], rfl⟩
  | (k, t) :: l, _, h => by
    simp only [MeansMembers] at h
    obtain ⟨x, v, r, rfl, h1, -, h3⟩ := h
    obtain ⟨m, hm⟩ := named_exists l r h3
    refine ⟨(x, t) :: m, ?_⟩
    unfold Named at hm ⊢
    simp only [List.map_cons, h1, hm]

theorem named_unique : ∀ {l : List (StrTok × Tree)} {m m' : List (Str × Tree)}, Named l m → Named l m' → m = m' := by
  intro l m m' h h'
  unfold Named at h h'
  rw [h] at h'
  have := congrArg (List.map fun p : Option Str × Tree => (p.1.getD [], p.2)) h'
  simpa [List.map_map, Function.comp_def] using this

theorem PrintedMembers.back {m m' : List (Str × Tree)} (h : PrintedMembers f64 m m') : ∀ {k : Str} {u' : Tree}, Once m' k u' →
    ∃ u w, Once m k u ∧ u.Fair ∧ Means f64 u w ∧ u' = w.tree := by
  induction h with
  | nil =>
    rintro k u' ⟨a, b, h, -⟩
    cases a <;> cases h
  | @cons k0 t v m m' ht hv h ih =>
    rintro k u' ⟨a, b, e, ha, hb⟩
    cases a with
    | nil =>
      cases e
      exact ⟨t, v, ⟨[], m, rfl, by simp, by rw [← h.keys]; exact hb⟩, ht, hv, rfl⟩
    | cons p a =>
      cases e
      rw [List.map_cons, List.mem_cons, not_or] at ha
      obtain ⟨u, w, ⟨c, d, rfl, h1, h2⟩, h3⟩ := ih ⟨a, b, rfl, ha.2, hb⟩
      exact ⟨u, w, ⟨(k0, t) :: c, d, rfl, by rw [List.map_cons, List.mem_cons, not_or]; exact ⟨ha.1, h1⟩, h2⟩, h3⟩

theorem zip_sublist : ∀ (names : List Str) (l : List Tree), List.Sublist ((names.zip l).map Prod.fst) names
  | [], _ => by simp
  | _ :: _, [] => by simp
  | n :: names, _ :: l => by simpa using zip_sublist names l

theorem zip_nodup {names : List Str} {l : List Tree} (h : names.Nodup) : ((names.zip l).map Prod.fst).Nodup :=
  (zip_sublist names l).nodup h

theorem members_last {l : List (StrTok × Tree)} {m : List (Str × Tree)} {l' x : List (Str × Value)} (hl : Tree.FairM l) (hn : Named l m)
    (h1 : MeansMembers f64 l l') (h2 : SortedKeys x) (h3 : ∀ k y, (k, y) ∈ x ↔ LastOf l' k y) :
    KeysUtf8 x ∧ LastPrinted f64 m (x.map fun p => (p.1, p.2.tree)) := by
  obtain ⟨-, i2, i3⟩ := lastOf_means l m l' hl hn h1
  have hd : ((x.map fun p => (p.1, p.2.tree)).map Prod.fst).Nodup := by
    rw [List.map_map]
    exact sorted_nodup h2
  refine ⟨fun p hp => i2 p.1 p.2 ((h3 _ _).1 hp).mem, fun k u hu => ?_, fun k u' hu => ?_⟩
  · obtain ⟨w, a1, a2, a3⟩ := i3 k u hu
    exact ⟨w, a1, a2, once_of_nodup hd (List.mem_map.2 ⟨(k, w), (h3 _ _).2 a3, rfl⟩)⟩
  · obtain ⟨⟨k', w⟩, hw, e⟩ := List.mem_map.1 hu.mem
    cases e
    obtain ⟨t, a, b, c⟩ := lastOf_back l m l' hl hn h1 _ w ((h3 _ _).1 hw)
    exact ⟨t, w, a, b, c, rfl⟩

theorem fields_last {names : List Str} {l : List Tree} {x : List Value} (hd : names.Nodup) (hl : Tree.FairL l) (h : MeansAll f64 l x) :
    LastPrinted f64 (names.zip l) (names.zip (Value.trees x)) := by
  have hp := printed_zip names l x hl h
  refine ⟨fun k u hu => ?_, fun k u' hu => ?_⟩
  · obtain ⟨a, b, e, ha, hb⟩ := once_of_nodup (zip_nodup hd) hu.mem
    rw [e] at hp
    exact hp.once ha hb
  · obtain ⟨u, w, a, b⟩ := hp.back hu
    exact ⟨u, w, a.last, b⟩

theorem struct_exact {names : List Str} (hd : names.Nodup) {t : Tree} {v : Value} (ht : t.Fair) (hv : Means f64 t v) :
    (∀ m, IsStruct names t m → ∃ m', IsStruct names v.tree m' ∧ LastPrinted f64 m m') ∧
    ∀ m', IsStruct names v.tree m' → ∃ m, IsStruct names t m ∧ LastPrinted f64 m m' := by
  cases t with
  | obj l =>
    simp only [Means] at hv
    obtain ⟨x, l', rfl, h1, h2, h3⟩ := hv
    simp only [Tree.Fair] at ht
    refine ⟨?_, ?_⟩
    · rintro m (⟨_, e, hn⟩ | ⟨_, e, -⟩)
      · cases e
        obtain ⟨hk, h4⟩ := members_last ht hn h1 h2 h3
        exact ⟨_, .inl ⟨_, rfl, named_tree x hk⟩, h4⟩
      · cases e
    · rintro m' (⟨_, e, hn'⟩ | ⟨_, e, -⟩)
      · obtain ⟨m, hn⟩ := named_exists l l' h1
        obtain ⟨hk, h4⟩ := members_last ht hn h1 h2 h3
        simp only [Value.tree, Tree.obj.injEq] at e
        subst e
        rw [named_unique hn' (named_tree x hk)]
        exact ⟨m, .inl ⟨_, rfl, hn⟩, h4⟩
      · simp only [Value.tree] at e; cases e
  | arr l =>
    simp only [Means] at hv
    obtain ⟨x, rfl, h1⟩ := hv
    simp only [Tree.Fair] at ht
    have hlen := meansAll_length l x h1
    refine ⟨?_, ?_⟩
    · rintro m (⟨_, e, hn⟩ | ⟨_, e, hl, rfl⟩)
      · cases e
      · cases e
        exact ⟨_, .inr ⟨_, rfl, by rw [hlen]; exact hl, rfl⟩, fields_last hd ht h1⟩
    · rintro m (⟨_, e, hn⟩ | ⟨_, e, hl, rfl⟩)
      · simp only [Value.tree] at e; cases e
      · simp only [Value.tree, Tree.arr.injEq] at e
        subst e
        exact ⟨_, .inr ⟨_, rfl, by rw [← hlen]; exact hl, rfl⟩, fields_last hd ht h1⟩
  | null =>
    simp only [Means] at hv
    subst hv
    refine ⟨?_, ?_⟩ <;> rintro m (⟨_, e, _⟩ | ⟨_, e, _⟩) <;> exact absurd e (by simp [Value.tree])
  | bool b =>
    simp only [Means] at hv
    subst hv
    refine ⟨?_, ?_⟩ <;> rintro m (⟨_, e, _⟩ | ⟨_, e, _⟩) <;> exact absurd e (by simp [Value.tree])
  | num n =>
    simp only [Means] at hv
    obtain ⟨x, rfl, -⟩ := hv
    refine ⟨?_, ?_⟩ <;> rintro m (⟨_, e, _⟩ | ⟨_, e, _⟩) <;> exact absurd e (by simp [Value.tree])
  | str s =>
    simp only [Means] at hv
    obtain ⟨x, rfl, -⟩ := hv
    refine ⟨?_, ?_⟩ <;> rintro m (⟨_, e, _⟩ | ⟨_, e, _⟩) <;> exact absurd e (by simp [Value.tree])

theorem LastPrinted.req {α : Type} {m m' : List (Str × Tree)} (h : LastPrinted f64 m m') {R R' : Tree → α → Prop} (hR : Carries f64 R R')
    {k : Str} {x : α} : Req m' k R x ↔ LastReq m k R' x := by
  constructor
  · rintro ⟨u', h1, h2⟩
    obtain ⟨u, w, a, b, c, rfl⟩ := h.back k u' h1
    exact ⟨u, a, (hR u w x b c).1 h2⟩
  · rintro ⟨u, h1, h2⟩
    obtain ⟨w, a, b, c⟩ := h.to k u h1
    exact ⟨w.tree, c, (hR u w x a b).2 h2⟩

/-- A type with named members. -/
theorem carries_struct {α : Type} {names : List Str} (hd : names.Nodup) {P P' : List (Str × Tree) → α → Prop}
    (h : ∀ m m' x, LastPrinted f64 m m' → (P m' x ↔ P' m x)) :
    Carries f64 (fun t x => ∃ m, IsStruct names t m ∧ P m x) (fun t x => ∃ m, IsStruct names t m ∧ P' m x) := by
  intro t v x ht hv
  obtain ⟨h1, h2⟩ := struct_exact hd ht hv
  constructor
  · rintro ⟨m', h3, h4⟩
    obtain ⟨m, h5, h6⟩ := h2 m' h3
    exact ⟨m, h5, (h m m' x h6).1 h4⟩
  · rintro ⟨m, h3, h4⟩
    obtain ⟨m', h5, h6⟩ := h1 m h3
    exact ⟨m', h5, (h m m' x h6).2 h4⟩

theorem needsEsc_iff {s : Str} : needsEsc s = false ↔ ∀ b ∈ s, b ≠ 0x22 ∧ b ≠ 0x5C ∧ 0x20 ≤ b := by
  unfold needsEsc
  rw [List.any_eq_false]
  refine forall₂_congr fun b _ => ?_
  simp only [escaped, Bool.or_eq_true, decide_eq_true_eq, not_or, UInt8.not_lt, and_assoc]

theorem carries_text : Carries f64 IsRaw IsPlainText := by
  intro t v x ht hv
  cases t with
  | str s =>
    simp only [Means] at hv
    obtain ⟨y, rfl, hy⟩ := hv
    simp only [Tree.Fair] at ht
    have hu := (ht y hy).1
    simp only [IsRaw, IsPlainText, IsText, Value.tree, strTokOf, hu, if_true, Tree.str.injEq, StrTok.mk.injEq, Option.some.injEq]
    rw [← needsEsc_iff]
    constructor
    · rintro ⟨h, rfl⟩
      exact ⟨⟨s.esc, by rw [← hy]⟩, h⟩
    · rintro ⟨⟨e, h⟩, h2⟩
      rw [h] at hy
      cases hy
      exact ⟨h2, rfl⟩
  | null => simp only [Means] at hv; subst hv; exact ⟨fun h => (by cases h), fun ⟨⟨_, h⟩, _⟩ => (by cases h)⟩
  | bool b => simp only [Means] at hv; subst hv; exact ⟨fun h => (by cases h), fun ⟨⟨_, h⟩, _⟩ => (by cases h)⟩
  | num n =>
    simp only [Means] at hv
    obtain ⟨y, rfl, -⟩ := hv
    exact ⟨fun h => (by simp only [IsRaw, Value.tree] at h; cases h), fun ⟨⟨_, h⟩, _⟩ => (by cases h)⟩
  | arr l =>
    simp only [Means] at hv
    obtain ⟨y, rfl, -⟩ := hv
    exact ⟨fun h => (by simp only [IsRaw, Value.tree] at h; cases h), fun ⟨⟨_, h⟩, _⟩ => (by cases h)⟩
  | obj m =>
    simp only [Means] at hv
    obtain ⟨y, _, rfl, -⟩ := hv
    exact ⟨fun h => (by simp only [IsRaw, Value.tree] at h; cases h), fun ⟨⟨_, h⟩, _⟩ => (by cases h)⟩

theorem carries_list {α : Type} {R R' : Tree → α → Prop} (hR : Carries f64 R R') : Carries f64 (IsList R) (IsList R') := by
  intro t v x ht hv
  have key : ∀ (ts : List Tree) (y : List Value) (x : List α), Tree.FairL ts → MeansAll f64 ts y →
      ((∀ p ∈ (Value.trees y).zip x, R p.1 p.2) ↔ ∀ p ∈ ts.zip x, R' p.1 p.2) := by
    intro ts
    induction ts with
    | nil =>
      intro y x _ hy
      simp only [MeansAll] at hy
      subst hy
      simp [Value.trees]
    | cons t ts ih =>
      intro y x ht hy
      simp only [MeansAll] at hy
      obtain ⟨v, r, rfl, h1, h2⟩ := hy
      simp only [Tree.FairL] at ht
      cases x with
      | nil => simp
      | cons a x =>
        simp only [Value.trees, List.zip_cons_cons, List.forall_mem_cons]
        rw [ih r x ht.2 h2, hR t v a ht.1 h1]
  cases t with
  | arr ts =>
    simp only [Means] at hv
    obtain ⟨y, rfl, hy⟩ := hv
    simp only [Tree.Fair] at ht
    have hlen := meansAll_length ts y hy
    constructor
    · rintro ⟨_, e, hl, h⟩
      simp only [Value.tree, Tree.arr.injEq] at e
      subst e
      exact ⟨ts, rfl, by rw [← hlen]; exact hl, (key ts y x ht hy).1 h⟩
    · rintro ⟨_, e, hl, h⟩
      cases e
      exact ⟨_, rfl, by rw [hlen]; exact hl, (key ts y x ht hy).2 h⟩
  | null => simp only [Means] at hv; subst hv; exact ⟨fun ⟨_, h, _⟩ => (by cases h), fun ⟨_, h, _⟩ => (by cases h)⟩
  | bool b => simp only [Means] at hv; subst hv; exact ⟨fun ⟨_, h, _⟩ => (by cases h), fun ⟨_, h, _⟩ => (by cases h)⟩
  | num n =>
    simp only [Means] at hv
    obtain ⟨y, rfl, -⟩ := hv
    exact ⟨fun ⟨_, h, _⟩ => (by simp only [Value.tree] at h; cases h), fun ⟨_, h, _⟩ => (by cases h)⟩
  | str s =>
    simp only [Means] at hv
    obtain ⟨y, rfl, -⟩ := hv
    exact ⟨fun ⟨_, h, _⟩ => (by simp only [Value.tree] at h; cases h), fun ⟨_, h, _⟩ => (by cases h)⟩
  | obj m =>
    simp only [Means] at hv
    obtain ⟨y, _, rfl, -⟩ := hv
    exact ⟨fun ⟨_, h, _⟩ => (by simp only [Value.tree] at h; cases h), fun ⟨_, h, _⟩ => (by cases h)⟩

theorem carries_kidHeader : Carries f64 IsKidHeader CarriesKidHeader :=
  carries_struct (by decide) fun _ _ _ h => h.req carries_text

theorem carries_recipient : Carries f64 IsRecipient CarriesRecipient :=
  carries_struct (by decide) fun m m' (x : JweRecipient) h => by rw [h.req carries_kidHeader, h.req carries_text]

theorem carries_encrypted : Carries f64 IsEncrypted CarriesEncrypted :=
  carries_struct (by decide) fun m m' (x : JWE) h => by
    rw [h.req carries_text, h.req (carries_list carries_recipient), h.req carries_text, h.req carries_text, h.req carries_text]

theorem carries_signature : Carries f64 IsSignature CarriesSignature :=
  carries_struct (by decide) fun m m' (x : JwsSig) h => by rw [h.req carries_kidHeader, h.req carries_text, h.req carries_text]

theorem carries_signed : Carries f64 IsSigned CarriesSigned :=
  carries_struct (by decide) fun m m' (x : JWS) h => by rw [h.req (carries_list carries_signature), h.req carries_text]

end DIDComm
