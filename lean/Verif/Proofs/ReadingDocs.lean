import Verif.Proofs.ReadingTypes
import Verif.Spec.ReadingDocs

/-!
# Documents, secrets and options are read as the specification says
-/

set_option autoImplicit false

namespace DIDComm

variable {f64 : Str → Option Str}

/-! ## Enumerations -/

theorem variant_keyType (s : Str) (a : VmType) : variant vmTypeNames s = some a ↔ NamesKeyType s a := by
  simp only [variant, vmTypeNames, List.find?_cons, List.find?_nil]
  split
  · rename_i h; have h := (beq_iff_eq.1 h).symm; subst h; cases a <;> simp [NamesKeyType]
  · rename_i h1
    split
    · rename_i h; have h := (beq_iff_eq.1 h).symm; subst h; cases a <;> simp [NamesKeyType]
    · rename_i h2
      split
      · rename_i h; have h := (beq_iff_eq.1 h).symm; subst h; cases a <;> simp [NamesKeyType]
      · rename_i h3
        split
        · rename_i h; have h := (beq_iff_eq.1 h).symm; subst h; cases a <;> simp [NamesKeyType]
        · rename_i h4
          split
          · rename_i h; have h := (beq_iff_eq.1 h).symm; subst h; cases a <;> simp [NamesKeyType]
          · rename_i h5
            split
            · rename_i h; have h := (beq_iff_eq.1 h).symm; subst h; cases a <;> simp [NamesKeyType]
            · rename_i h6
              split
              · rename_i h; have h := (beq_iff_eq.1 h).symm; subst h; cases a <;> simp [NamesKeyType]
              · rename_i h7
                simp only [beq_eq_false_iff_ne] at h1 h2 h3 h4 h5 h6 h7
                cases a <;> simp [NamesKeyType, h1.symm, h2.symm, h3.symm, h4.symm, h5.symm, h6.symm, h7.symm]

theorem variant_anon (s : Str) (a : AnonCryptAlg) : variant anonAlgNames s = some a ↔ NamesAnon s a := by
  simp only [variant, anonAlgNames, List.find?_cons, List.find?_nil]
  split
  · rename_i h; have h := (beq_iff_eq.1 h).symm; subst h; cases a <;> simp [NamesAnon]
  · rename_i h1
    split
    · rename_i h; have h := (beq_iff_eq.1 h).symm; subst h; cases a <;> simp [NamesAnon]
    · rename_i h2
      split
      · rename_i h; have h := (beq_iff_eq.1 h).symm; subst h; cases a <;> simp [NamesAnon]
      · rename_i h3
        simp only [beq_eq_false_iff_ne] at h1 h2 h3
        cases a <;> simp [NamesAnon, h1.symm, h2.symm, h3.symm]

theorem variant_auth (s : Str) (a : AuthCryptAlg) : variant authAlgNames s = some a ↔ NamesAuth s a := by
  simp only [variant, authAlgNames, List.find?_cons, List.find?_nil]
  split
  · rename_i h; have h := (beq_iff_eq.1 h).symm; subst h; cases a; simp [NamesAuth]
  · rename_i h1
    simp only [beq_eq_false_iff_ne] at h1
    cases a; simp [NamesAuth, h1.symm]

theorem decodes_variant {α : Type} {names : List (Str × α)} {N : Str → α → Prop} {n : Nat} (hn : 1 < n)
    (h : ∀ s a, variant names s = some a ↔ N s a) : Decodes (dUnit names n) (IsVariant N) := by
  intro t _ a
  unfold dUnit IsVariant IsText
  split
  · rename_i e s _
    rw [h]
    constructor
    · intro hs; exact .inl ⟨s, ⟨e, rfl⟩, hs⟩
    · rintro (⟨s', ⟨e', he⟩, hs⟩ | ⟨_, _, he, _⟩)
      · cases he; exact hs
      · cases he
  · rename_i k _
    rw [if_neg (by omega)]
    simp only [Option.bind_eq_some_iff, h]
    constructor
    · rintro ⟨s, hk, hs⟩; exact .inr ⟨k, s, rfl, hk, hs⟩
    · rintro (⟨s', ⟨e', he⟩, hs⟩ | ⟨_, s, he, hk, hs⟩)
      · cases he
      · cases he; exact ⟨s, hk, hs⟩
  · rename_i h1 h2
    simp only [reduceCtorEq, false_iff]
    rintro (⟨s', ⟨e', he⟩, hs⟩ | ⟨k, s, he, _⟩)
    · exact h1 _ _ he
    · exact h2 _ he

/-! ## Members that are not fields -/

theorem mem_rest {names : List Str} {m : List (Str × Tree)} {p : Str × Tree} : p ∈ rest names m ↔ p ∈ m ∧ p.1 ∉ names := by
  simp [rest]

theorem rest_ok {names : List Str} {m : List (Str × Tree)} (hm : MembersOk m) : MembersOk (rest names m) :=
  fun p hp => hm p (mem_rest.1 hp).1

theorem buffered_iff {n : Nat} (hn : 0 < n) {names : List Str} {m : List (Str × Tree)} (hm : MembersOk m) :
    ¬ buffered f64 n (rest names m) = false ↔ OthersMean f64 n names m := by
  rw [Bool.not_eq_false]
  unfold buffered OthersMean
  rw [List.all_eq_true]
  constructor
  · intro h k t hp hk
    have := h (k, t) (mem_rest.2 ⟨hp, hk⟩)
    obtain ⟨v, hv⟩ := Option.isSome_iff_exists.1 this
    exact ⟨v, (toValue_iff f64 t n v (hm _ hp) hn).1 hv⟩
  · intro h p hp
    obtain ⟨hp, hk⟩ := mem_rest.1 hp
    obtain ⟨v, hv⟩ := h p.1 p.2 hp hk
    rw [(toValue_iff f64 p.2 n v (hm _ hp) hn).2 hv]; rfl

theorem field_rest_mem {names : List Str} {m : List (Str × Tree)} {k : Str} (hk : k ∉ names) : field (rest names m) k = field m k := by
  have : (rest names m).filter (fun p => p.1 == k) = m.filter (fun p => p.1 == k) := by
    unfold rest
    rw [List.filter_filter]
    apply List.filter_congr
    intro p _
    by_cases h : p.1 = k
    · subst h; simp [hk]
    · simp [h]
  unfold field
  rw [this]

theorem reqField_rest_mem {α : Type} {names : List Str} {m : List (Str × Tree)} {k : Str} {d : Tree → Option α} (hk : k ∉ names) :
    reqField (rest names m) k d = reqField m k d := by
  unfold reqField
  rw [field_rest_mem hk]

theorem req_means {n : Nat} {names : List Str} {m : List (Str × Tree)} {k : Str} {v : Value} (ho : OthersMean f64 n names m) (hk : k ∉ names) :
    Req m k (MeansWithin f64 n) v ↔ Req m k (Means f64) v := by
  constructor
  · rintro ⟨t, h, h1⟩; exact ⟨t, h, h1.1⟩
  · rintro ⟨t, h, h1⟩
    obtain ⟨_, hv⟩ := ho k t h.mem hk
    exact ⟨t, h, h1, hv.2⟩

theorem dMaterial_iff {names : MaterialNames} {n : Nat} (hn : 0 < n) {fields : List Str} {m : List (Str × Tree)} (hm : MembersOk m)
    (ho : OthersMean f64 n fields m) (h1 : names.jwk ∉ fields) (h2 : names.multibase ∉ fields) (h3 : names.base58 ∉ fields) (x : Material) :
    dMaterial f64 names n (rest fields m) = some x ↔ IsMaterial f64 names.jwk names.multibase names.base58 m x := by
  unfold dMaterial
  rw [reqField_rest_mem h1, reqField_rest_mem h2, reqField_rest_mem h3]
  have e1 : ∀ v, reqField m names.jwk (toValue f64 n) = some v ↔ Req m names.jwk (Means f64) v := fun v => by
    rw [reqField_iff hm (decodes_value hn), req_means ho h1]
  have e2 : ∀ v, reqField m names.multibase dStr = some v ↔ Req m names.multibase IsText v := reqField_iff hm decodes_str
  have e3 : ∀ v, reqField m names.base58 dStr = some v ↔ Req m names.base58 IsText v := reqField_iff hm decodes_str
  cases hj : reqField m names.jwk (toValue f64 n) with
  | some v =>
    have hv := (e1 v).1 hj
    cases x with
    | jwk w =>
      simp only [IsMaterial, ← e1, hj, Option.some.injEq, Material.jwk.injEq]
    | multibase s =>
      simp only [IsMaterial, Option.some.injEq, reduceCtorEq, false_iff]
      rintro ⟨h, -⟩; exact h v hv
    | base58 s =>
      simp only [IsMaterial, Option.some.injEq, reduceCtorEq, false_iff]
      rintro ⟨h, -⟩; exact h v hv
  | none =>
    have hj' : ∀ v, ¬ Req m names.jwk (Means f64) v := fun v h => by
      have := (e1 v).2 h; rw [hj] at this; cases this
    simp only
    cases hb : reqField m names.multibase dStr with
    | some s =>
      have hs := (e2 s).1 hb
      cases x with
      | jwk w =>
        simp only [IsMaterial, Option.some.injEq, reduceCtorEq, false_iff]
        exact hj' w
      | multibase w =>
        simp only [IsMaterial, ← e2, hb, Option.some.injEq, Material.multibase.injEq]
        exact ⟨fun h => ⟨hj', h⟩, fun h => h.2⟩
      | base58 w =>
        simp only [IsMaterial, Option.some.injEq, reduceCtorEq, false_iff]
        rintro ⟨-, h, -⟩; exact h s hs
    | none =>
      have hb' : ∀ v, ¬ Req m names.multibase IsText v := fun v h => by
        have := (e2 v).2 h; rw [hb] at this; cases this
      simp only [Option.map_eq_some_iff, e3]
      cases x with
      | jwk w =>
        simp only [IsMaterial, reduceCtorEq, and_false, exists_false, false_iff]
        exact hj' w
      | multibase w =>
        simp only [IsMaterial, reduceCtorEq, and_false, exists_false, false_iff]
        rintro ⟨-, h⟩; exact hb' w h
      | base58 w =>
        simp only [IsMaterial, Material.base58.injEq, exists_eq_right]
        exact ⟨fun h => ⟨hj', hb', h⟩, fun h => h.2.2⟩

/-! ## Methods and secrets -/

theorem decodes_method : Decodes (dVerificationMethod f64 126) (IsMethod f64) := by
  intro t ht a
  unfold dVerificationMethod IsMethod
  simp only [Option.bind_eq_bind, Option.bind_eq_some_iff, asMap_iff (show 1 < 126 by omega)]
  constructor
  · rintro ⟨m, hm, id, h1, ty, h2, c, h3, h⟩
    have ho := hm.ok ht
    split at h
    · cases h
    · rename_i hb
      obtain ⟨x, h5, h⟩ := Option.bind_eq_some_iff.1 h
      cases h
      have hb := (buffered_iff (show 0 < 125 by omega) ho).1 hb
      exact ⟨m, hm, (reqField_iff ho decodes_str _).1 h1,
        (reqField_iff ho (decodes_variant (by omega) variant_keyType) _).1 h2, (reqField_iff ho decodes_str _).1 h3, hb,
        (dMaterial_iff (names := publicNames) (by omega) ho hb (by decide) (by decide) (by decide) x).1 h5⟩
  · rintro ⟨m, hm, h1, h2, h3, hb, h5⟩
    have ho := hm.ok ht
    refine ⟨m, hm, a.id, (reqField_iff ho decodes_str _).2 h1, a.type_,
      (reqField_iff ho (decodes_variant (by omega) variant_keyType) _).2 h2, a.controller, (reqField_iff ho decodes_str _).2 h3, ?_⟩
    rw [if_neg ((buffered_iff (show 0 < 125 by omega) ho).2 hb)]
    refine Option.bind_eq_some_iff.2 ⟨a.material,
      (dMaterial_iff (names := publicNames) (by omega) ho hb (by decide) (by decide) (by decide) _).2 h5, rfl⟩

theorem decodes_secret : Decodes (dSecret f64 depthLimit) (IsSecret f64) := by
  intro t ht a
  unfold dSecret IsSecret depthLimit
  simp only [Option.bind_eq_bind, Option.bind_eq_some_iff, asMap_iff (show 1 < 128 by omega)]
  constructor
  · rintro ⟨m, hm, id, h1, ty, h2, h⟩
    have ho := hm.ok ht
    split at h
    · cases h
    · rename_i hb
      obtain ⟨x, h5, h⟩ := Option.bind_eq_some_iff.1 h
      cases h
      have hb := (buffered_iff (show 0 < 127 by omega) ho).1 hb
      exact ⟨m, hm, (reqField_iff ho decodes_str _).1 h1,
        (reqField_iff ho (decodes_variant (by omega) variant_keyType) _).1 h2, hb,
        (dMaterial_iff (names := privateNames) (by omega) ho hb (by decide) (by decide) (by decide) x).1 h5⟩
  · rintro ⟨m, hm, h1, h2, hb, h5⟩
    have ho := hm.ok ht
    refine ⟨m, hm, a.id, (reqField_iff ho decodes_str _).2 h1, a.type_,
      (reqField_iff ho (decodes_variant (by omega) variant_keyType) _).2 h2, ?_⟩
    rw [if_neg ((buffered_iff (show 0 < 127 by omega) ho).2 hb)]
    refine Option.bind_eq_some_iff.2 ⟨a.material,
      (dMaterial_iff (names := privateNames) (by omega) ho hb (by decide) (by decide) (by decide) _).2 h5, rfl⟩

/-! ## Services -/

theorem defField_iff {α : Type} {m : List (Str × Tree)} {k : Str} {dflt : α} {d : Tree → Option α} {R : Tree → α → Prop} (hm : MembersOk m)
    (hd : Decodes d R) (x : α) : defField m k dflt d = some x ↔ Default m k dflt R x := by
  unfold defField Default Req
  simp only [Option.bind_eq_bind, Option.bind_eq_some_iff]
  constructor
  · rintro ⟨f, hf, h⟩
    cases f with
    | none => cases h; exact .inl ⟨field_none.1 hf, rfl⟩
    | some t =>
      have ho := field_some.1 hf
      exact .inr ⟨t, ho, (hd t (hm _ ho.mem) x).1 h⟩
  · rintro (⟨h, rfl⟩ | ⟨t, ho, h⟩)
    · exact ⟨none, field_none.2 h, rfl⟩
    · exact ⟨some t, field_some.2 ho, (hd t (hm _ ho.mem) x).2 h⟩

theorem decodes_endpoint {n : Nat} (hn : 2 < n) : Decodes (dMessagingService n) IsEndpoint := by
  intro t ht a
  unfold dMessagingService IsEndpoint
  simp only [Option.bind_eq_bind, Option.bind_eq_some_iff, Option.some.injEq, asMap_iff (show 1 < n by omega)]
  have hl := decodes_list (d := fun _ => dStr) (show 1 < n - 1 by omega) decodes_str
  constructor
  · rintro ⟨m, hm, _, h1, _, h2, _, h3, rfl⟩
    have ho := hm.ok ht
    exact ⟨m, hm, (reqField_iff ho decodes_str _).1 h1, (optField_iff ho hl isList_null _).1 h2, (defField_iff ho hl _).1 h3⟩
  · rintro ⟨m, hm, h1, h2, h3⟩
    have ho := hm.ok ht
    exact ⟨m, hm, _, (reqField_iff ho decodes_str _).2 h1, _, (optField_iff ho hl isList_null _).2 h2, _, (defField_iff ho hl _).2 h3, rfl⟩

theorem once_unique {m : List (Str × Tree)} {k : Str} {t t' : Tree} (h : Once m k t) (h' : Once m k t') : t = t' := by
  have h1 := field_some.2 h
  have h2 := field_some.2 h'
  rw [h1] at h2
  exact Option.some.inj (Option.some.inj h2)

theorem decodes_service : Decodes (dService f64 126) (IsService f64) := by
  intro t ht a
  unfold dService IsService
  simp only [Option.bind_eq_bind, Option.bind_eq_some_iff, asMap_iff (show 1 < 126 by omega)]
  constructor
  · rintro ⟨m, hm, id, h1, h⟩
    have ho := hm.ok ht
    split at h
    · cases h
    · rename_i hb
      obtain ⟨tag, h3, h⟩ := Option.bind_eq_some_iff.1 h
      obtain ⟨kind, h4, h⟩ := Option.bind_eq_some_iff.1 h
      cases h
      have hb := (buffered_iff (show 0 < 125 by omega) ho).1 hb
      have h3 := (reqField_iff ho decodes_str _).1 h3
      refine ⟨m, hm, (reqField_iff ho decodes_str _).1 h1, hb, ?_⟩
      unfold reqField at h4
      simp only [Option.bind_eq_bind, Option.bind_eq_some_iff] at h4
      obtain ⟨_, hf, u, rfl, h4⟩ := h4
      have hu := field_some.1 hf
      have huo := ho _ hu.mem
      unfold dServiceKind at h4
      split at h4
      · rename_i e; subst e
        obtain ⟨e, he, rfl⟩ := Option.map_eq_some_iff.1 h4
        exact .inl ⟨e, rfl, h3, u, hu, (decodes_endpoint (by omega) u huo e).1 he⟩
      · split at h4
        · rename_i e; subst e
          simp only [Option.bind_eq_bind, Option.bind_eq_some_iff, Option.some.injEq] at h4
          obtain ⟨l, hl, v, hv, rfl⟩ := h4
          obtain ⟨l', rfl, -⟩ := (asMap_iff (by omega) u l).1 hl
          have hv := ((toValue_iff f64 _ _ v huo (by omega)).1 hv).1
          have ⟨x, y, e, _⟩ := hv
          subst e
          exact .inr ⟨x, rfl, h3, _, hu, hv⟩
        · cases h4
  · rintro ⟨m, hm, h1, hb, h⟩
    have ho := hm.ok ht
    refine ⟨m, hm, a.id, (reqField_iff ho decodes_str _).2 h1, ?_⟩
    rw [if_neg ((buffered_iff (show 0 < 125 by omega) ho).2 hb)]
    rcases h with ⟨e, he, h3, u, hu, h4⟩ | ⟨l, he, h3, u, hu, h4⟩
    · rw [(reqField_iff ho decodes_str _).2 h3]
      have : reqField m b!"serviceEndpoint" (dServiceKind f64 125 b!"DIDCommMessaging") = some a.endpoint := by
        unfold reqField
        rw [field_some.2 hu]
        show dServiceKind f64 125 b!"DIDCommMessaging" u = some a.endpoint
        unfold dServiceKind
        rw [if_pos rfl, (decodes_endpoint (by omega) u (ho _ hu.mem) e).2 h4, he]
        rfl
      simp only [Option.bind_some]
      rw [this]; rfl
    · rw [(reqField_iff ho decodes_str _).2 h3]
      have : reqField m b!"serviceEndpoint" (dServiceKind f64 125 b!"Other") = some a.endpoint := by
        unfold reqField
        rw [field_some.2 hu]
        show dServiceKind f64 125 b!"Other" u = some a.endpoint
        unfold dServiceKind
        obtain ⟨_, hv⟩ := hb _ u hu.mem (by decide)
        rw [if_neg (by decide), if_pos rfl, (toValue_iff f64 u 125 _ (ho _ hu.mem) (by omega)).2 ⟨h4, hv.2⟩, he]
        have : ∃ l', asMap 125 u = some l' := by
          cases u with
          | obj ms =>
            have hk : ∃ l', decKeys ms = some l' := by
              obtain ⟨x, l2, -, h5, -⟩ := h4
              clear hv hu h3 he
              induction ms generalizing l2 with
              | nil => exact ⟨[], rfl⟩
              | cons p ms ih =>
                obtain ⟨k, t2⟩ := p
                obtain ⟨k', v, r', -, h6, -, h7⟩ := h5
                obtain ⟨l', hl⟩ := ih r' h7
                exact ⟨(k', t2) :: l', by simp [decKeys, h6, hl]⟩
            obtain ⟨l', hl⟩ := hk
            exact ⟨l', by simp [asMap, hl]⟩
          | null => cases h4
          | bool b => cases h4
          | num n => obtain ⟨_, h, _⟩ := h4; cases h
          | str s => obtain ⟨_, h, _⟩ := h4; cases h
          | arr l => obtain ⟨_, h, _⟩ := h4; cases h
        obtain ⟨l', hl⟩ := this
        rw [hl]; rfl
      simp only [Option.bind_some]
      rw [this]; rfl

theorem decodes_document : Decodes (dDIDDoc f64 depthLimit) (IsDocument f64) := by
  intro t ht a
  unfold dDIDDoc IsDocument depthLimit
  simp only [Option.bind_eq_bind, Option.bind_eq_some_iff, Option.some.injEq, asStruct_iff (show 1 < 128 by omega)]
  have hl := decodes_list (d := fun _ => dStr) (show 1 < 128 - 1 by omega) decodes_str
  have hv := decodes_list (d := dVerificationMethod f64) (show 1 < 128 - 1 by omega) decodes_method
  have hs := decodes_list (d := dService f64) (show 1 < 128 - 1 by omega) decodes_service
  constructor
  · rintro ⟨m, hm, _, h1, _, h2, _, h3, _, h4, _, h5, rfl⟩
    have ho := hm.ok ht
    exact ⟨m, hm, (reqField_iff ho decodes_str _).1 h1, (reqField_iff ho hl _).1 h2, (reqField_iff ho hl _).1 h3,
      (reqField_iff ho hv _).1 h4, (reqField_iff ho hs _).1 h5⟩
  · rintro ⟨m, hm, h1, h2, h3, h4, h5⟩
    have ho := hm.ok ht
    exact ⟨m, hm, _, (reqField_iff ho decodes_str _).2 h1, _, (reqField_iff ho hl _).2 h2, _, (reqField_iff ho hl _).2 h3, _,
      (reqField_iff ho hv _).2 h4, _, (reqField_iff ho hs _).2 h5, rfl⟩

/-! ## Options -/

theorem decodes_bool : Decodes dBool IsBool := by
  intro t _ b
  unfold dBool IsBool
  split
  · simp
  · rename_i h; simp only [reduceCtorEq, false_iff]; rintro rfl; exact h _ rfl

theorem asStructFrom_iff {least n : Nat} {names : List Str} (hn : 1 < n) (t : Tree) (m : List (Str × Tree)) :
    asStructFrom least names n t = some m ↔ IsStructFrom least names t m := by
  unfold asStructFrom IsStructFrom IsMap
  split
  · rename_i l
    rw [if_neg (by omega), decKeys_iff]
    constructor
    · intro h; exact .inl ⟨l, rfl, h⟩
    · rintro (⟨_, e, h⟩ | ⟨_, e, _⟩)
      · cases e; exact h
      · cases e
  · rename_i l
    rw [if_neg (by omega)]
    constructor
    · intro h
      split at h
      · rename_i hl; cases h; exact .inr ⟨l, rfl, hl.1, hl.2, rfl⟩
      · cases h
    · rintro (⟨_, e, h⟩ | ⟨_, e, h1, h2, rfl⟩)
      · cases e
      · cases e; rw [if_pos ⟨h1, h2⟩]
  · rename_i hne1 hne2
    simp only [reduceCtorEq, false_iff]
    rintro (⟨l, rfl, -⟩ | ⟨l, rfl, -⟩)
    · exact hne1 l rfl
    · exact hne2 l rfl

theorem IsStructFrom.ok {least : Nat} {names : List Str} {t : Tree} {m : List (Str × Tree)} (h : IsStructFrom least names t m) (ht : t.Ok) :
    MembersOk m := by
  rcases h with h | ⟨l, rfl, -, -, rfl⟩
  · exact h.ok ht
  · intro p hp
    exact okL_mem ht (List.of_mem_zip hp).2

theorem decodes_unpackOptions : Decodes (dUnpackOptions depthLimit) IsUnpackOptions := by
  intro t ht a
  unfold dUnpackOptions IsUnpackOptions depthLimit
  simp only [Option.bind_eq_bind, Option.bind_eq_some_iff, Option.some.injEq, asStructFrom_iff (show 1 < 128 by omega)]
  constructor
  · rintro ⟨m, hm, _, h1, _, h2, rfl⟩
    have ho := hm.ok ht
    exact ⟨m, hm, (defField_iff ho decodes_bool _).1 h1, (defField_iff ho decodes_bool _).1 h2⟩
  · rintro ⟨m, hm, h1, h2⟩
    have ho := hm.ok ht
    exact ⟨m, hm, _, (defField_iff ho decodes_bool _).2 h1, _, (defField_iff ho decodes_bool _).2 h2, rfl⟩

theorem toHashMap_some {n : Nat} (hn : 0 < n) : ∀ (m : List (Str × Tree)) (acc x : List (Str × Value)), MembersOk m → (acc.map Prod.fst).Nodup →
    toHashMap f64 n m acc = some x →
    (x.map Prod.fst).Nodup ∧ OthersMean f64 n [] m ∧
    ∀ k v, (k, v) ∈ x ↔ (∃ t, LastOf m k t ∧ Means f64 t v) ∨ (k ∉ m.map Prod.fst ∧ (k, v) ∈ acc)
  | [], acc, x, _, ha, h => by
    cases h
    refine ⟨ha, fun k t h => by simp at h, fun k v => ?_⟩
    simp [lastOf_nil]
  | (k0, t0) :: m, acc, x, hm, ha, h => by
    have hm' : MembersOk m := fun p hp => hm p (by simp [hp])
    simp only [toHashMap, Option.bind_eq_bind, Option.bind_eq_some_iff] at h
    obtain ⟨v0, hv, h⟩ := h
    have hv := (toValue_iff f64 t0 n v0 (hm (k0, t0) (by simp)) hn).1 hv
    obtain ⟨h1, h2, h3⟩ := toHashMap_some hn m _ x hm' (nodup_hmInsert ha) h
    refine ⟨h1, fun k t hk hs => ?_, fun k v => ?_⟩
    · rcases List.mem_cons.1 hk with e | hk
      · cases e; exact ⟨v0, hv⟩
      · exact h2 k t hk hs
    · rw [h3, mem_hmInsert_iff ha]
      simp only [lastOf_cons, List.map_cons, List.mem_cons, not_or]
      constructor
      · rintro (⟨t, b, c⟩ | ⟨a, ⟨rfl, rfl⟩ | b⟩)
        · exact .inl ⟨t, .inl b, c⟩
        · exact .inl ⟨t0, .inr ⟨rfl, rfl, a⟩, hv.1⟩
        · exact .inr ⟨⟨b.1, a⟩, b.2⟩
      · rintro (⟨t, b | b, c⟩ | ⟨a, b⟩)
        · exact .inl ⟨t, b, c⟩
        · obtain ⟨rfl, rfl, b⟩ := b
          refine .inr ⟨b, .inl ⟨rfl, ?_⟩⟩
          have e1 := (toValue_iff f64 t n v (hm (k, t) (by simp)) hn).2 ⟨c, hv.2⟩
          have e2 := (toValue_iff f64 t n v0 (hm (k, t) (by simp)) hn).2 hv
          rw [e1] at e2
          exact Option.some.inj e2
        · exact .inr ⟨a.2, .inr ⟨a.1, b⟩⟩

theorem toHashMap_exists {n : Nat} (hn : 0 < n) : ∀ (m : List (Str × Tree)) (acc : List (Str × Value)), MembersOk m →
    OthersMean f64 n [] m → ∃ x, toHashMap f64 n m acc = some x
  | [], acc, _, _ => ⟨acc, rfl⟩
  | (k0, t0) :: m, acc, hm, h => by
    obtain ⟨v, hv⟩ := h k0 t0 (by simp) (by simp)
    obtain ⟨x, hx⟩ := toHashMap_exists hn m (hmInsert k0 v acc) (fun p hp => hm p (by simp [hp])) (fun k t hk hs => h k t (by simp [hk]) hs)
    refine ⟨x, ?_⟩
    simp only [toHashMap, (toValue_iff f64 t0 n v (hm (k0, t0) (by simp)) hn).2 hv, Option.bind_eq_bind, Option.bind_some]
    exact hx

theorem dHeaders_sound {n : Nat} (hn : 1 < n) {t : Tree} (ht : t.Ok) {x : List (Str × Value)} (h : dHeaders f64 n t = some x) :
    IsHeaders f64 (n - 1) t x := by
  unfold dHeaders at h
  simp only [Option.bind_eq_bind, Option.bind_eq_some_iff, asMap_iff hn] at h
  obtain ⟨m, hm, h⟩ := h
  obtain ⟨h1, h2, h3⟩ := toHashMap_some (by omega) m [] x (hm.ok ht) List.nodup_nil h
  exact ⟨m, hm, h2, h1, fun k v => by rw [h3]; simp⟩

theorem dHeaders_complete {n : Nat} (hn : 1 < n) {t : Tree} (ht : t.Ok) {x : List (Str × Value)} (h : IsHeaders f64 (n - 1) t x) :
    ∃ l, dHeaders f64 n t = some l ∧ (l.map Prod.fst).Nodup ∧ ∀ p, p ∈ l ↔ p ∈ x := by
  obtain ⟨m, hm, h1, h2, h3⟩ := h
  obtain ⟨l, hl⟩ := toHashMap_exists (f64 := f64) (show 0 < n - 1 by omega) m [] (hm.ok ht) h1
  have hd : dHeaders f64 n t = some l := by
    unfold dHeaders
    simp only [Option.bind_eq_bind, Option.bind_eq_some_iff, asMap_iff hn]
    exact ⟨m, hm, hl⟩
  obtain ⟨h5, -, h6⟩ := toHashMap_some (by omega) m [] l (hm.ok ht) List.nodup_nil hl
  exact ⟨l, hd, h5, fun ⟨k, v⟩ => by rw [h6, h3]; simp⟩

theorem isHeaders_null {n : Nat} (x : List (Str × Value)) : ¬ IsHeaders f64 n .null x := by
  rintro ⟨m, ⟨l, h, -⟩, -⟩; cases h

theorem optHeaders_sound {m : List (Str × Tree)} {k : Str} (hm : MembersOk m) {o : Option (List (Str × Value))}
    (h : optField m k (dHeaders f64 127) = some o) : Opt m k (IsHeaders f64 126) o := by
  unfold optField at h
  simp only [Option.bind_eq_bind, Option.bind_eq_some_iff] at h
  obtain ⟨f, hf, h⟩ := h
  cases f with
  | none => cases h; exact .inl (field_none.1 hf)
  | some t =>
    have ho := field_some.1 hf
    simp only at h
    unfold dOpt at h
    split at h
    · cases h; exact .inr ho
    · obtain ⟨x, hx, rfl⟩ := Option.map_eq_some_iff.1 h
      exact ⟨t, ho, dHeaders_sound (by omega) (hm _ ho.mem) hx⟩

theorem optHeaders_complete {m : List (Str × Tree)} {k : Str} (hm : MembersOk m) {o : Option (List (Str × Value))}
    (h : Opt m k (IsHeaders f64 126) o) : ∃ o', optField m k (dHeaders f64 127) = some o' ∧ HeadersAlike o o' := by
  unfold optField
  simp only [Option.bind_eq_bind, Option.bind_eq_some_iff]
  cases o with
  | none =>
    rcases h with h | h
    · exact ⟨none, ⟨none, field_none.2 h, rfl⟩, trivial⟩
    · exact ⟨none, ⟨some .null, field_some.2 h, rfl⟩, trivial⟩
  | some x =>
    obtain ⟨t, ho, hx⟩ := h
    obtain ⟨l, hl, h1, h2⟩ := dHeaders_complete (n := 127) (by omega) (hm _ ho.mem) hx
    refine ⟨some l, ⟨some t, field_some.2 ho, ?_⟩, h1, h2⟩
    simp only
    unfold dOpt
    split
    · exact absurd hx (isHeaders_null x)
    · rw [hl]; rfl

theorem dPackOptions_sound {t : Tree} (ht : t.Ok) {o : PackEncryptedOptions} (h : dPackOptions f64 depthLimit t = some o) :
    IsPackOptions f64 t o := by
  unfold dPackOptions depthLimit at h
  simp only [Option.bind_eq_bind, Option.bind_eq_some_iff, Option.some.injEq, asStructFrom_iff (show 1 < 128 by omega)] at h
  obtain ⟨m, hm, _, h1, _, h2, _, h3, _, h4, _, h5, _, h6, rfl⟩ := h
  have ho := hm.ok ht
  exact ⟨m, hm, (defField_iff ho decodes_bool _).1 h1, (defField_iff ho decodes_bool _).1 h2, optHeaders_sound ho h3,
    (optField_iff ho decodes_str isText_null _).1 h4, (defField_iff ho (decodes_variant (by omega) variant_auth) _).1 h5,
    (defField_iff ho (decodes_variant (by omega) variant_anon) _).1 h6⟩

theorem dPackOptions_complete {t : Tree} (ht : t.Ok) {o : PackEncryptedOptions} (h : IsPackOptions f64 t o) :
    ∃ o', dPackOptions f64 depthLimit t = some o' ∧ SameOptions o o' := by
  obtain ⟨m, hm, h1, h2, h3, h4, h5, h6⟩ := h
  have ho := hm.ok ht
  obtain ⟨hs, h3, h3'⟩ := optHeaders_complete ho h3
  refine ⟨{ o with forwardHeaders := hs }, ?_, rfl, rfl, h3', rfl, rfl, rfl⟩
  unfold dPackOptions depthLimit
  simp only [Option.bind_eq_bind, Option.bind_eq_some_iff, Option.some.injEq, asStructFrom_iff (show 1 < 128 by omega)]
  exact ⟨m, hm, _, (defField_iff ho decodes_bool _).2 h1, _, (defField_iff ho decodes_bool _).2 h2, _, h3, _,
    (optField_iff ho decodes_str isText_null _).2 h4, _, (defField_iff ho (decodes_variant (by omega) variant_auth) _).2 h5, _,
    (defField_iff ho (decodes_variant (by omega) variant_anon) _).2 h6, rfl⟩

end DIDComm
