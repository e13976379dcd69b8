import Verif.Spec.SendOn
import Verif.Spec.Documents
import Verif.Spec.ReadingDocs
import Verif.Proofs.Reading
import Verif.Proofs.Utf8Spec

/-!
# What was read is ordinary
-/

set_option autoImplicit false

namespace DIDComm

/-! ## The texts of a content are UTF-8 -/

/-- The value of a string is UTF-8. -/
def StrTok.Utf8 (k : StrTok) : Prop := ∀ v, k.val = some v → validUtf8 v = true

mutual
/-- The values of all strings are UTF-8. -/
def Tree.Texts : Tree → Prop
  | .str k => k.Utf8
  | .arr l => Tree.TextsL l
  | .obj m => Tree.TextsM m
  | _ => True
def Tree.TextsL : List Tree → Prop
  | [] => True
  | t :: r => t.Texts ∧ Tree.TextsL r
def Tree.TextsM : List (StrTok × Tree) → Prop
  | [] => True
  | (k, t) :: r => k.Utf8 ∧ t.Texts ∧ Tree.TextsM r
end

theorem StrSpells.utf8 {k : StrTok} {s : Str} (h : StrSpells k s) : k.Utf8 := by
  intro v hv
  obtain ⟨cs, -, rfl⟩ := (h.2 v).1 hv
  exact (validUtf8_iff _).2 ⟨cs, rfl⟩

mutual
theorem Spells.texts {t : Tree} {s : Str} : Spells t s → t.Texts
  | .null => trivial
  | .tru => trivial
  | .fls => trivial
  | .num _ => trivial
  | .str h => h.utf8
  | .emptyArr _ => trivial
  | .arr h => h.texts
  | .emptyObj _ => trivial
  | .obj h => h.texts
theorem SpellsElems.texts {l : List Tree} {s : Str} : SpellsElems l s → Tree.TextsL l
  | .one _ h _ => ⟨h.texts, trivial⟩
  | .more _ h _ hr => ⟨h.texts, hr.texts⟩
theorem SpellsMembers.texts {m : List (StrTok × Tree)} {s : Str} : SpellsMembers m s → Tree.TextsM m
  | .one _ hk _ _ h _ => ⟨hk.utf8, h.texts, trivial⟩
  | .more _ hk _ _ h _ hr => ⟨hk.utf8, h.texts, hr.texts⟩
end

theorem JsonText.texts {t : Tree} {s : Str} (h : JsonText t s) : t.Texts := by
  obtain ⟨_, _, _, _, _, h, _⟩ := h
  exact h.texts

theorem textsL_mem : ∀ {l : List Tree} {t : Tree}, Tree.TextsL l → t ∈ l → t.Texts
  | _ :: _, _, h, .head _ => h.1
  | _ :: _, _, h, .tail _ hm => textsL_mem h.2 hm

theorem textsM_mem : ∀ {m : List (StrTok × Tree)} {p : StrTok × Tree}, Tree.TextsM m → p ∈ m → p.1.Utf8 ∧ p.2.Texts
  | _ :: _, _, h, .head _ => ⟨h.1, h.2.1⟩
  | _ :: _, _, h, .tail _ hm => textsM_mem h.2.2 hm

theorem depthM_mem : ∀ {m : List (StrTok × Tree)} {p : StrTok × Tree}, p ∈ m → p.2.depth ≤ Tree.depthM m
  | _ :: _, _, .head _ => by rw [Tree.depthM]; omega
  | _ :: _, _, .tail _ hm => by have := depthM_mem hm; rw [Tree.depthM]; omega

/-! ## Values -/

theorem LastOf.mem {α : Type} {l : List (Str × α)} {k : Str} {v : α} (h : LastOf l k v) : (k, v) ∈ l := by
  obtain ⟨a, b, rfl, -⟩ := h
  simp

theorem wfM_of {f64 : Str → Option Str} : ∀ {m : List (Str × Value)}, (∀ k v, (k, v) ∈ m → validUtf8 k = true ∧ v.WF f64) → Value.WFM f64 m
  | [], _ => trivial
  | (k, v) :: _, h => ⟨(h k v (.head _)).1, (h k v (.head _)).2, wfM_of fun k v hm => h k v (.tail _ hm)⟩

theorem depthM_le {n : Nat} : ∀ {m : List (Str × Value)}, (∀ k v, (k, v) ∈ m → v.depth ≤ n) → Value.depthM m ≤ n
  | [], _ => Nat.zero_le _
  | (k, v) :: r, h => by
    have h1 := h k v (.head _)
    have h2 := depthM_le (m := r) fun k v hm => h k v (.tail _ hm)
    rw [Value.depthM]; omega

/-- Printed doubles are numbers. -/
def DoublesPrint (f64 : Str → Option Str) : Prop := ∀ s t, f64 s = some t → (fltTok t).isSome = true

theorem ReadBack.left {f64 : Str → Option Str} {a b : List Str} (h : ReadBack f64 (a ++ b)) : ReadBack f64 a :=
  fun t ht => h t (List.mem_append.2 (.inl ht))

theorem ReadBack.right {f64 : Str → Option Str} {a b : List Str} (h : ReadBack f64 (a ++ b)) : ReadBack f64 b :=
  fun t ht => h t (List.mem_append.2 (.inr ht))

theorem ReadBack.member {f64 : Str → Option Str} : ∀ {m : List (Str × Value)}, ReadBack f64 (Value.doublesM m) → ∀ {k : Str} {v : Value},
    (k, v) ∈ m → ReadBack f64 v.doubles
  | (_, _) :: _, h, _, _, .head _ => by rw [Value.doublesM] at h; exact h.left
  | (_, _) :: _, h, _, _, .tail _ hm => by rw [Value.doublesM] at h; exact h.right.member hm

theorem isNum_wf {f64 : Str → Option Str} (hf : DoublesPrint f64) {n : NumTok} {x : Num} (h : IsNum f64 n x)
    (hb : ReadBack f64 (Value.num x).doubles) : x.WF f64 := by
  obtain ⟨neg, ds, tail⟩ := n
  cases x with
  | pos n => exact h.2.2.2
  | neg n => exact h.2.2.2
  | flt t => exact ⟨hf _ _ h.2, hb t (by simp [Value.doubles])⟩

mutual
theorem means_wf {f64 : Str → Option Str} (hf : DoublesPrint f64) : ∀ (t : Tree) (v : Value), t.Texts → Means f64 t v →
    (ReadBack f64 v.doubles → v.WF f64) ∧ v.depth ≤ t.depth
  | .null, _, _, h => by
    simp only [Means] at h; subst h; exact ⟨fun _ => trivial, Nat.le_refl _⟩
  | .bool _, _, _, h => by
    simp only [Means] at h; subst h; exact ⟨fun _ => trivial, Nat.le_refl _⟩
  | .num n, _, _, h => by
    simp only [Means] at h
    obtain ⟨x, rfl, h⟩ := h
    exact ⟨fun hb => by simp only [Value.WF]; exact isNum_wf hf h hb, Nat.zero_le _⟩
  | .str s, _, ht, h => by
    simp only [Means] at h
    obtain ⟨x, rfl, h⟩ := h
    exact ⟨fun _ => by simp only [Value.WF]; exact ht _ h, Nat.zero_le _⟩
  | .arr l, _, ht, h => by
    simp only [Means] at h
    obtain ⟨x, rfl, h⟩ := h
    obtain ⟨h1, h2⟩ := meansAll_wf hf l x (by simpa only [Tree.Texts] using ht) h
    exact ⟨fun hb => by simp only [Value.doubles] at hb; simpa only [Value.WF] using h1 hb, by rw [Value.depth, Tree.depth]; omega⟩
  | .obj m, _, ht, h => by
    simp only [Means] at h
    obtain ⟨x, l, rfl, h, hs, hx⟩ := h
    have hl := meansMembers_wf hf m l (by simpa only [Tree.Texts] using ht) h
    refine ⟨fun hb => ?_, ?_⟩
    · simp only [Value.WF]
      simp only [Value.doubles] at hb
      exact ⟨hs, wfM_of fun k v hm => ⟨(hl k v ((hx k v).1 hm).mem).1, (hl k v ((hx k v).1 hm).mem).2.1 (hb.member hm)⟩⟩
    · rw [Value.depth, Tree.depth]
      have := depthM_le (n := Tree.depthM m) (m := x) fun k v hm => (hl k v ((hx k v).1 hm).mem).2.2
      omega
theorem meansAll_wf {f64 : Str → Option Str} (hf : DoublesPrint f64) : ∀ (l : List Tree) (x : List Value), Tree.TextsL l → MeansAll f64 l x →
    (ReadBack f64 (Value.doublesL x) → Value.WFL f64 x) ∧ Value.depthL x ≤ Tree.depthL l
  | [], _, _, h => by
    simp only [MeansAll] at h; subst h; exact ⟨fun _ => trivial, Nat.le_refl _⟩
  | t :: r, _, ht, h => by
    simp only [MeansAll] at h
    obtain ⟨v, r', rfl, h1, h2⟩ := h
    simp only [Tree.TextsL] at ht
    obtain ⟨a, b⟩ := means_wf hf t v ht.1 h1
    obtain ⟨c, d⟩ := meansAll_wf hf r r' ht.2 h2
    refine ⟨fun hb => ?_, by rw [Value.depthL, Tree.depthL]; omega⟩
    rw [Value.doublesL] at hb
    simp only [Value.WFL]
    exact ⟨a hb.left, c hb.right⟩
theorem meansMembers_wf {f64 : Str → Option Str} (hf : DoublesPrint f64) : ∀ (m : List (StrTok × Tree)) (l : List (Str × Value)),
    Tree.TextsM m → MeansMembers f64 m l → ∀ k v, (k, v) ∈ l →
      validUtf8 k = true ∧ (ReadBack f64 v.doubles → v.WF f64) ∧ v.depth ≤ Tree.depthM m
  | [], _, _, h => by
    simp only [MeansMembers] at h; subst h; intro k v hm; cases hm
  | (k, t) :: r, _, ht, h => by
    simp only [MeansMembers] at h
    obtain ⟨x, v, r', rfl, h0, h1, h2⟩ := h
    simp only [Tree.TextsM] at ht
    obtain ⟨a, b⟩ := means_wf hf t v ht.2.1 h1
    have ih := meansMembers_wf hf r r' ht.2.2 h2
    intro k' v' hm
    rw [Tree.depthM]
    rcases List.mem_cons.1 hm with hm | hm
    · cases hm
      exact ⟨ht.1 _ h0, a, by omega⟩
    · obtain ⟨c, d, e⟩ := ih k' v' hm
      exact ⟨c, d, by omega⟩
end

/-! ## Members -/

theorem Named.mem {l : List (StrTok × Tree)} {m : List (Str × Tree)} (h : Named l m) {k : Str} {t : Tree} (hm : (k, t) ∈ m) :
    ∃ x, (x, t) ∈ l ∧ x.val = some k := by
  unfold Named at h
  have : (some k, t) ∈ m.map (fun p => (some p.1, p.2)) := List.mem_map.2 ⟨_, hm, rfl⟩
  rw [← h] at this
  obtain ⟨⟨x, t'⟩, h1, h2⟩ := List.mem_map.1 this
  obtain ⟨e1, e2⟩ := Prod.mk.inj h2
  dsimp only at e1 e2
  subst e2
  exact ⟨x, h1, e1⟩

/-- Texts of all members. -/
def TextsOf (m : List (Str × Tree)) : Prop := ∀ k t, (k, t) ∈ m → t.Texts

theorem IsMap.texts {t : Tree} {m : List (Str × Tree)} (h : IsMap t m) (ht : t.Texts) : TextsOf m ∧ ∀ k t, (k, t) ∈ m → validUtf8 k = true := by
  obtain ⟨l, rfl, hn⟩ := h
  simp only [Tree.Texts] at ht
  refine ⟨fun k t hm => ?_, fun k t hm => ?_⟩
  · obtain ⟨x, h1, -⟩ := hn.mem hm
    exact (textsM_mem ht h1).2
  · obtain ⟨x, h1, h2⟩ := hn.mem hm
    exact (textsM_mem ht h1).1 _ h2

theorem zip_texts {names : List Str} {l : List Tree} (ht : (Tree.arr l).Texts) : TextsOf (names.zip l) := by
  simp only [Tree.Texts] at ht
  exact fun k t hm => textsL_mem ht (List.of_mem_zip hm).2

theorem IsStruct.texts {names : List Str} {t : Tree} {m : List (Str × Tree)} (h : IsStruct names t m) (ht : t.Texts) : TextsOf m := by
  rcases h with h | ⟨l, rfl, -, rfl⟩
  · exact (h.texts ht).1
  · exact zip_texts ht

theorem Req.of {α : Type} {m : List (Str × Tree)} {k : Str} {R : Tree → α → Prop} {x : α} {P : α → Prop} (h : Req m k R x) (hm : TextsOf m)
    (hR : ∀ t x, t.Texts → R t x → P x) : P x := by
  obtain ⟨t, h1, h2⟩ := h
  exact hR t x (hm _ _ h1.mem) h2

theorem Opt.of {α : Type} {m : List (Str × Tree)} {k : Str} {R : Tree → α → Prop} {o : Option α} {P : α → Prop} (h : Opt m k R o) (hm : TextsOf m)
    (hR : ∀ t x, t.Texts → R t x → P x) : ∀ x, o = some x → P x := by
  rintro x rfl
  exact Req.of (P := P) h hm hR

theorem isText_utf8 (t : Tree) (s : Str) (ht : t.Texts) (h : IsText t s) : validUtf8 s = true := by
  obtain ⟨e, rfl⟩ := h
  exact ht _ rfl

theorem isList_all {α : Type} {R : Tree → α → Prop} {P : α → Prop} (hR : ∀ t x, t.Texts → R t x → P x) (t : Tree) (l : List α) (ht : t.Texts)
    (h : IsList R t l) : ∀ x ∈ l, P x := by
  obtain ⟨ts, rfl, hl, h⟩ := h
  simp only [Tree.Texts] at ht
  intro x hx
  obtain ⟨i, hi, rfl⟩ := List.mem_iff_getElem.1 hx
  have h2 : (ts[i]'(by omega), l[i]) ∈ ts.zip l := by
    rw [List.mem_iff_getElem]
    exact ⟨i, by simp [List.length_zip]; omega, by simp⟩
  exact hR _ _ (textsL_mem ht (List.of_mem_zip h2).1) (h _ h2)

/-! ## Messages -/

theorem isData_wf {f64 : Str → Option Str} (hf : DoublesPrint f64) (t : Tree) (d : AttachmentData) (ht : t.Texts) (h : IsData f64 t d) :
    ReadBack f64 d.doubles → d.WF f64 := by
  intro hb
  obtain ⟨⟨v, -, hd⟩, m, hm, h⟩ := h
  have hx := (hm.texts ht).1
  have base : ∀ d, IsBase64Data m d → d.WF f64 := by
    rintro _ ⟨b, jws, rfl, h1, h2⟩
    exact ⟨h1.of hx isText_utf8, h2.of hx isText_utf8⟩
  have json : ∀ d, IsJsonData f64 m d → ReadBack f64 d.doubles → d.WF f64 := by
    rintro _ ⟨w, jws, rfl, ⟨u, h1, h3⟩, h2⟩ hb
    obtain ⟨l, rfl, hn⟩ := hm
    obtain ⟨x, hu, -⟩ := hn.mem h1.mem
    obtain ⟨a, b⟩ := means_wf hf u w (hx _ _ h1.mem) h3
    have := depthM_mem hu
    rw [Tree.depth] at hd
    exact ⟨a hb, by dsimp only at this; omega, h2.of hx isText_utf8⟩
  have links : ∀ d, IsLinksData m d → d.WF f64 := by
    rintro _ ⟨l, h, jws, rfl, h1, h2, h3⟩
    exact ⟨h1.of (P := AllUtf8) hx fun t l => isList_all isText_utf8 t l, h2.of hx isText_utf8, h3.of hx isText_utf8⟩
  rcases h with h | ⟨-, h⟩ | ⟨-, -, h⟩
  · exact base d h
  · exact json d h hb
  · exact links d h

theorem isAttachment_wf {f64 : Str → Option Str} (hf : DoublesPrint f64) (t : Tree) (a : Attachment) (ht : t.Texts) (h : IsAttachment f64 t a) :
    ReadBack f64 a.data.doubles → a.WF f64 := by
  intro hb
  obtain ⟨m, hm, h1, h2, h3, h4, h5, h6, -, -⟩ := h
  have hx := hm.texts ht
  exact ⟨h1.of (P := fun d => ReadBack f64 d.doubles → d.WF f64) hx (isData_wf hf) hb, h2.of hx isText_utf8, h3.of hx isText_utf8, h4.of hx isText_utf8, h5.of hx isText_utf8, h6.of hx isText_utf8⟩

theorem isMessage_wf {f64 : Str → Option Str} (hf : DoublesPrint f64) {t : Tree} {x : Message} (ht : t.Texts) (h : IsMessage f64 t x)
    (hb : ReadBack f64 x.doubles) : x.WF f64 := by
  obtain ⟨m, hm, h1, h2, h3, h4, h5, h6, h7, h8, -, -, h9, h10, hn, hall, hx⟩ := h
  obtain ⟨hx', hk⟩ := hm.texts ht
  have extra : ∀ k v, (k, v) ∈ x.extraHeaders → k ∉ standardHeaders ∧ validUtf8 k = true ∧ v.WF f64 ∧ v.depth < 127 := by
    intro k v hkv
    obtain ⟨hs, u, hl, hu⟩ := (hx k v).1 hkv
    obtain ⟨a, b⟩ := means_wf hf u v (hx' _ _ hl.mem) hu
    obtain ⟨_, _, hd⟩ := hall k u hl.mem hs
    exact ⟨hs, hk _ _ hl.mem, a (hb.left.right.member hkv), by omega⟩
  refine ⟨h1.of hx' isText_utf8, ?_, h3.of hx' isText_utf8, h4.of (P := fun v => ReadBack f64 v.doubles → v.WF f64) hx' (fun t v ht h => (means_wf hf t v ht h.1).1) hb.left.left,
    h4.of (P := fun v => v.depth < 127) hx' fun t v ht h => by have := (means_wf hf t v ht h.1).2; have := h.2; omega,
    h5.of hx' isText_utf8, h6.of (P := AllUtf8) hx' fun t l => isList_all isText_utf8 t l, h7.of hx' isText_utf8, h8.of hx' isText_utf8,
    h9.of hx' isText_utf8, wfM_of fun k v h => ⟨(extra k v h).2.1, (extra k v h).2.2.1⟩, ?_, hn, ?_,
    fun l hl a ha => h10.of (P := fun l => ∀ a ∈ l, ReadBack f64 a.data.doubles → Attachment.WF f64 a) hx'
      (fun t l => isList_all (isAttachment_wf hf) t l) l hl a ha ?_⟩
  · rcases h2 with ⟨-, h⟩ | h
    · rw [h]; decide
    · exact h.of hx' isText_utf8
  · have := depthM_le (n := 126) (m := x.extraHeaders) fun k v h => by have := (extra k v h).2.2.2; omega
    omega
  · intro k hk
    obtain ⟨⟨k', v⟩, h1, rfl⟩ := List.mem_map.1 hk
    exact (extra k' v h1).1
  · intro t ht
    exact hb.right t (List.mem_flatMap.2 ⟨a, by rw [hl]; exact ha, ht⟩)

theorem isClaims_wf {t : Tree} {f : FromPrior} (ht : t.Texts) (h : IsClaims t f) : f.WF := by
  obtain ⟨m, hm, h1, h2, h3, -, -, -, h4⟩ := h
  have hx := hm.texts ht
  exact ⟨h1.of hx isText_utf8, h2.of hx isText_utf8, h3.of hx isText_utf8, h4.of hx isText_utf8⟩

/-! ## Documents and secrets -/

theorem isMaterial_wf {f64 : Str → Option Str} (hf : DoublesPrint f64) {jwk multibase base58 : Str} {m : List (Str × Tree)} {x : Material} {n : Nat}
    {names : List Str} (hx : TextsOf m) (ho : OthersMean f64 n names m) (hj : jwk ∉ names) (h : IsMaterial f64 jwk multibase base58 m x)
    (hb : ReadBack f64 x.doubles) : x.WF f64 n := by
  cases x with
  | jwk v =>
    obtain ⟨t, h1, h2⟩ := h
    obtain ⟨a, b⟩ := means_wf hf t v (hx _ _ h1.mem) h2
    obtain ⟨_, _, hd⟩ := ho _ _ h1.mem hj
    exact ⟨a hb, by omega⟩
  | multibase s => exact h.2.of hx isText_utf8
  | base58 s => exact h.2.2.of hx isText_utf8

theorem isMethod_wf {f64 : Str → Option Str} (hf : DoublesPrint f64) (t : Tree) (v : VerificationMethod) (ht : t.Texts) (h : IsMethod f64 t v) :
    ReadBack f64 v.material.doubles → v.WF f64 := by
  intro hb
  obtain ⟨m, hm, h1, -, h2, ho, h3⟩ := h
  have hx := (hm.texts ht).1
  exact ⟨h1.of hx isText_utf8, h2.of hx isText_utf8, isMaterial_wf hf hx ho (by decide) h3 hb⟩

theorem isSecret_wf {f64 : Str → Option Str} (hf : DoublesPrint f64) {t : Tree} {s : Secret} (ht : t.Texts) (h : IsSecret f64 t s)
    (hb : ReadBack f64 s.material.doubles) : s.WF f64 := by
  obtain ⟨m, hm, h1, -, ho, h3⟩ := h
  have hx := (hm.texts ht).1
  exact ⟨h1.of hx isText_utf8, isMaterial_wf hf hx ho (by decide) h3 hb⟩

theorem isEndpoint_wf {f64 : Str → Option Str} (t : Tree) (s : DIDCommMessagingService) (ht : t.Texts) (h : IsEndpoint t s) :
    (ServiceKind.didCommMessaging s).WF f64 := by
  obtain ⟨m, hm, h1, h2, h3⟩ := h
  have hx := (hm.texts ht).1
  refine ⟨h1.of hx isText_utf8, h2.of (P := AllUtf8) hx fun t l => isList_all isText_utf8 t l, ?_⟩
  rcases h3 with ⟨-, h⟩ | h
  · rw [h]; intro s hs; cases hs
  · exact h.of (P := AllUtf8) hx fun t l => isList_all isText_utf8 t l

theorem isService_wf {f64 : Str → Option Str} (hf : DoublesPrint f64) (t : Tree) (s : Service) (ht : t.Texts) (h : IsService f64 t s) :
    ReadBack f64 s.endpoint.doubles → s.WF f64 := by
  intro hb
  obtain ⟨m, hm, h1, ho, h⟩ := h
  have hx := (hm.texts ht).1
  refine ⟨h1.of hx isText_utf8, ?_⟩
  rcases h with ⟨e, he, -, h⟩ | ⟨l, he, -, u, hu, h⟩
  · rw [he]; exact h.of hx fun t e => isEndpoint_wf t e
  · rw [he] at hb ⊢
    obtain ⟨a, b⟩ := means_wf hf u _ (hx _ _ hu.mem) h
    obtain ⟨_, _, hd⟩ := ho _ _ hu.mem (by decide)
    exact ⟨⟨l, rfl⟩, a hb, by omega⟩

theorem isDocument_wf {f64 : Str → Option Str} (hf : DoublesPrint f64) {t : Tree} {d : DIDDoc} (ht : t.Texts) (h : IsDocument f64 t d)
    (hb : ReadBack f64 d.doubles) : d.WF f64 := by
  obtain ⟨m, hm, h1, h2, h3, h4, h5⟩ := h
  have hx := hm.texts ht
  exact ⟨h1.of hx isText_utf8, h2.of (P := AllUtf8) hx fun t l => isList_all isText_utf8 t l,
    h3.of (P := AllUtf8) hx fun t l => isList_all isText_utf8 t l,
    fun v hv => h4.of (P := fun l => ∀ v ∈ l, ReadBack f64 v.material.doubles → VerificationMethod.WF f64 v) hx
      (fun t l => isList_all (isMethod_wf hf) t l) v hv fun t ht => hb.left t (List.mem_flatMap.2 ⟨v, hv, ht⟩),
    fun v hv => h5.of (P := fun l => ∀ v ∈ l, ReadBack f64 v.endpoint.doubles → Service.WF f64 v) hx
      (fun t l => isList_all (isService_wf hf) t l) v hv fun t ht => hb.right t (List.mem_flatMap.2 ⟨v, hv, ht⟩)⟩

end DIDComm
