import Verif.Proofs.Reading

/-!
# Messages, attachments, envelopes and claims are read as the specification says
-/

set_option autoImplicit false

namespace DIDComm

variable {f64 : Str → Option Str}

/-! ## Extra headers -/

theorem reserved_eq_standard : reservedHeaders = standardHeaders := rfl

theorem mem_hmInsert_iff {α : Type} {k k' : Str} {v v' : α} {m : List (Str × α)} (h : (m.map Prod.fst).Nodup) :
    (k', v') ∈ hmInsert k v m ↔ (k' = k ∧ v' = v) ∨ (k' ≠ k ∧ (k', v') ∈ m) := by
  induction m with
  | nil => simp [hmInsert]
  | cons p m ih =>
    obtain ⟨k0, v0⟩ := p
    rw [List.map_cons, List.nodup_cons] at h
    unfold hmInsert
    split
    · rename_i e; subst e
      simp only [List.mem_cons, Prod.mk.injEq]
      constructor
      · rintro (h1 | hm)
        · exact .inl h1
        · refine .inr ⟨?_, .inr hm⟩
          rintro rfl; exact h.1 (List.mem_map.2 ⟨_, hm, rfl⟩)
      · rintro (h1 | ⟨hn, h1 | h1⟩)
        · exact .inl h1
        · exact absurd h1.1 hn
        · exact .inr h1
    · rename_i hne
      simp only [List.mem_cons, Prod.mk.injEq, ih h.2]
      constructor
      · rintro (h | h | ⟨hn, h⟩)
        · exact .inr ⟨fun e => hne (e.symm.trans h.1), .inl h⟩
        · exact .inl h
        · exact .inr ⟨hn, .inr h⟩
      · rintro (h | ⟨hn, h | h⟩)
        · exact .inr (.inl h)
        · exact .inl h
        · exact .inr (.inr ⟨hn, h⟩)

theorem nodup_hmInsert {α : Type} {k : Str} {v : α} {m : List (Str × α)} (h : (m.map Prod.fst).Nodup) :
    ((hmInsert k v m).map Prod.fst).Nodup := by
  have hk : ∀ k' (m : List (Str × α)), k' ∈ (hmInsert k v m).map Prod.fst → k' = k ∨ k' ∈ m.map Prod.fst := by
    intro k' m
    induction m with
    | nil => simp [hmInsert]
    | cons p m ih =>
      unfold hmInsert
      split
      · rename_i e; subst e; simp
      · simp only [List.map_cons, List.mem_cons]
        rintro (h | h)
        · exact .inr (.inl h)
        · rcases ih h with h | h
          · exact .inl h
          · exact .inr (.inr h)
  induction m with
  | nil => simp [hmInsert]
  | cons p m ih =>
    obtain ⟨k0, v0⟩ := p
    rw [List.map_cons, List.nodup_cons] at h
    unfold hmInsert
    split
    · rename_i e; subst e
      rw [List.map_cons, List.nodup_cons]; exact h
    · rename_i hne
      rw [List.map_cons, List.nodup_cons]
      refine ⟨fun hm => ?_, ih h.2⟩
      rcases hk _ _ hm with e | hm
      · exact hne e.symm
      · exact h.1 hm

theorem dExtra_some {n : Nat} (hn : 0 < n) : ∀ (m : List (Str × Tree)) (acc x : List (Str × Value)), MembersOk m → (acc.map Prod.fst).Nodup →
    dExtra f64 n m acc = some x →
    (x.map Prod.fst).Nodup ∧ (∀ k t, (k, t) ∈ m → k ∉ standardHeaders → ∃ v, MeansWithin f64 n t v) ∧
    ∀ k v, (k, v) ∈ x ↔ (k ∉ standardHeaders ∧ ∃ t, LastOf m k t ∧ Means f64 t v) ∨
      ((k ∈ standardHeaders ∨ k ∉ m.map Prod.fst) ∧ (k, v) ∈ acc)
  | [], acc, x, _, ha, h => by
    cases h
    refine ⟨ha, by simp, fun k v => ?_⟩
    simp [lastOf_nil]
  | (k0, t0) :: m, acc, x, hm, ha, h => by
    have hm' : MembersOk m := fun p hp => hm p (by simp [hp])
    unfold dExtra at h
    split at h
    · rename_i hr
      have hr : k0 ∈ standardHeaders := reserved_eq_standard ▸ (by simpa using hr)
      obtain ⟨h1, h2, h3⟩ := dExtra_some hn m acc x hm' ha h
      refine ⟨h1, fun k t hk hs => ?_, fun k v => ?_⟩
      · rcases List.mem_cons.1 hk with e | hk
        · cases e; exact absurd hr hs
        · exact h2 k t hk hs
      · rw [h3]
        simp only [lastOf_cons, List.map_cons, List.mem_cons, not_or]
        constructor
        · rintro (⟨a, t, b, c⟩ | ⟨a, b⟩)
          · exact .inl ⟨a, t, .inl b, c⟩
          · refine .inr ⟨?_, b⟩
            by_cases hk : k ∈ standardHeaders
            · exact .inl hk
            · refine .inr ⟨?_, a.resolve_left hk⟩
              rintro rfl; exact hk hr
        · rintro (⟨a, t, b | b, c⟩ | ⟨a, b⟩)
          · exact .inl ⟨a, t, b, c⟩
          · exact absurd hr (b.1 ▸ a)
          · exact .inr ⟨a.imp_right And.right, b⟩
    · rename_i hr
      have hr : k0 ∉ standardHeaders := reserved_eq_standard ▸ (by simpa using hr)
      simp only [Option.bind_eq_bind, Option.bind_eq_some_iff] at h
      obtain ⟨v0, hv, h⟩ := h
      have hv := (toValue_iff f64 t0 n v0 (hm (k0, t0) (by simp)) hn).1 hv
      obtain ⟨h1, h2, h3⟩ := dExtra_some hn m _ x hm' (nodup_hmInsert ha) h
      refine ⟨h1, fun k t hk hs => ?_, fun k v => ?_⟩
      · rcases List.mem_cons.1 hk with e | hk
        · cases e; exact ⟨v0, hv⟩
        · exact h2 k t hk hs
      · rw [h3, mem_hmInsert_iff ha]
        simp only [lastOf_cons, List.map_cons, List.mem_cons, not_or]
        constructor
        · rintro (⟨a, t, b, c⟩ | ⟨a, ⟨rfl, rfl⟩ | b⟩)
          · exact .inl ⟨a, t, .inl b, c⟩
          · exact .inl ⟨hr, t0, .inr ⟨rfl, rfl, a.resolve_left hr⟩, hv.1⟩
          · exact .inr ⟨a.imp_right (fun h => ⟨b.1, h⟩), b.2⟩
        · rintro (⟨a, t, b | b, c⟩ | ⟨a, b⟩)
          · exact .inl ⟨a, t, b, c⟩
          · obtain ⟨rfl, rfl, b⟩ := b
            refine .inr ⟨.inr b, .inl ⟨rfl, ?_⟩⟩
            have e1 := (toValue_iff f64 t n v (hm (k, t) (by simp)) hn).2 ⟨c, hv.2⟩
            have e2 := (toValue_iff f64 t n v0 (hm (k, t) (by simp)) hn).2 hv
            rw [e1] at e2
            exact Option.some.inj e2
          · refine .inr ⟨a.imp_right And.right, .inr ⟨?_, b⟩⟩
            rcases a with a | a
            · rintro rfl; exact hr a
            · exact a.1

theorem dExtra_exists {n : Nat} (hn : 0 < n) : ∀ (m : List (Str × Tree)) (acc : List (Str × Value)), MembersOk m →
    (∀ k t, (k, t) ∈ m → k ∉ standardHeaders → ∃ v, MeansWithin f64 n t v) → ∃ x, dExtra f64 n m acc = some x
  | [], acc, _, _ => ⟨acc, rfl⟩
  | (k0, t0) :: m, acc, hm, h => by
    have hm' : MembersOk m := fun p hp => hm p (by simp [hp])
    have h' : ∀ k t, (k, t) ∈ m → k ∉ standardHeaders → ∃ v, MeansWithin f64 n t v := fun k t hk => h k t (by simp [hk])
    unfold dExtra
    split
    · exact dExtra_exists hn m acc hm' h'
    · rename_i hr
      have hr : k0 ∉ standardHeaders := reserved_eq_standard ▸ (by simpa using hr)
      obtain ⟨v, hv⟩ := h k0 t0 (by simp) hr
      rw [(toValue_iff f64 t0 n v (hm (k0, t0) (by simp)) hn).2 hv]
      exact dExtra_exists hn m _ hm' h'

theorem dExtra_isExtra {m : List (Str × Tree)} {x : List (Str × Value)} (hm : MembersOk m) (h : dExtra f64 127 m [] = some x) :
    IsExtra f64 m x := by
  obtain ⟨h1, h2, h3⟩ := dExtra_some (by omega) m [] x hm List.nodup_nil h
  exact ⟨h1, h2, fun k v => by rw [h3]; simp⟩

/-! ## Attachments -/

theorem Means.depthM_mem : ∀ {l : List (StrTok × Tree)} {p : StrTok × Tree}, p ∈ l → p.2.depth ≤ Tree.depthM l
  | _ :: _, _, .head _ => by simp only [Tree.depthM]; omega
  | _ :: _, _, .tail _ h => by have := Means.depthM_mem h; simp only [Tree.depthM]; omega

theorem dDataBase64_iff {m : List (Str × Tree)} (hm : MembersOk m) (d : AttachmentData) : dDataBase64 m = some d ↔ IsBase64Data m d := by
  unfold dDataBase64 IsBase64Data
  simp only [Option.bind_eq_bind, Option.bind_eq_some_iff, Option.some.injEq, reqField_iff hm decodes_str,
    optField_iff hm decodes_str isText_null]
  constructor
  · rintro ⟨b, h1, j, h2, rfl⟩; exact ⟨b, j, rfl, h1, h2⟩
  · rintro ⟨b, j, rfl, h1, h2⟩; exact ⟨b, h1, j, h2, rfl⟩

theorem dDataJson_iff {n : Nat} (hn : 0 < n) {m : List (Str × Tree)} (hm : MembersOk m) (hd : ∀ p ∈ m, p.2.depth < n) (d : AttachmentData) :
    dDataJson f64 n m = some d ↔ IsJsonData f64 m d := by
  unfold dDataJson IsJsonData
  simp only [Option.bind_eq_bind, Option.bind_eq_some_iff, Option.some.injEq, reqField_iff hm (decodes_value hn),
    optField_iff hm decodes_str isText_null]
  constructor
  · rintro ⟨v, ⟨t, h0, h1⟩, j, h2, rfl⟩; exact ⟨v, j, rfl, ⟨t, h0, h1.1⟩, h2⟩
  · rintro ⟨v, j, rfl, ⟨t, h0, h1⟩, h2⟩; exact ⟨v, ⟨t, h0, h1, hd _ h0.mem⟩, j, h2, rfl⟩

theorem dDataLinks_iff {n : Nat} (hn : 1 < n) {m : List (Str × Tree)} (hm : MembersOk m) (d : AttachmentData) :
    dDataLinks n m = some d ↔ IsLinksData m d := by
  unfold dDataLinks IsLinksData
  simp only [Option.bind_eq_bind, Option.bind_eq_some_iff, Option.some.injEq,
    reqField_iff hm (decodes_list (d := fun _ => dStr) hn decodes_str), reqField_iff hm decodes_str,
    optField_iff hm decodes_str isText_null]
  constructor
  · rintro ⟨l, h1, h, h2, j, h3, rfl⟩; exact ⟨l, h, j, rfl, h1, h2, h3⟩
  · rintro ⟨l, h, j, rfl, h1, h2, h3⟩; exact ⟨l, h1, h, h2, j, h3, rfl⟩

theorem decodes_data : Decodes (dAttachmentData f64 125) (IsData f64) := by
  intro t ht d
  unfold dAttachmentData IsData
  simp only [Option.bind_eq_bind, Option.bind_eq_some_iff, decodes_value (show 0 < 125 by omega) t ht, asMap_iff (show 1 < 125 by omega)]
  have inner : ∀ m v, MeansWithin f64 125 t v → IsMap t m →
      ((match dDataBase64 m with
        | some d => some d
        | none => match dDataJson f64 (125 - 1) m with | some d => some d | none => dDataLinks (125 - 1) m) = some d ↔
      (IsBase64Data m d ∨ ((∀ d', ¬ IsBase64Data m d') ∧ IsJsonData f64 m d) ∨
        ((∀ d', ¬ IsBase64Data m d') ∧ (∀ d', ¬ IsJsonData f64 m d') ∧ IsLinksData m d))) := by
    intro m v hv hmap
    have hm := hmap.ok ht
    have hdep : ∀ p ∈ m, p.2.depth < 125 - 1 := by
      obtain ⟨l, rfl, hl⟩ := hmap
      intro p hp
      obtain ⟨k', hk⟩ := named_mem hl (k := p.1) (t := p.2) hp
      have h1 := Means.depthM_mem hk
      have h2 := hv.2
      simp only [Tree.depth] at h1 h2
      omega
    cases hb : dDataBase64 m with
    | some d' =>
      have hb' := (dDataBase64_iff hm d').1 hb
      simp only [Option.some.injEq]
      constructor
      · rintro rfl; exact .inl hb'
      · rintro (h | ⟨h, -⟩ | ⟨h, -⟩)
        · have := (dDataBase64_iff hm d).2 h
          rw [hb] at this; exact Option.some.inj this
        · exact absurd hb' (h d')
        · exact absurd hb' (h d')
    | none =>
      have hb' : ∀ d', ¬ IsBase64Data m d' := fun d' h => by
        have := (dDataBase64_iff hm d').2 h
        rw [hb] at this; cases this
      simp only
      cases hj : dDataJson f64 (125 - 1) m with
      | some d' =>
        have hj' := (dDataJson_iff (by omega) hm hdep d').1 hj
        simp only [Option.some.injEq]
        constructor
        · rintro rfl; exact .inr (.inl ⟨hb', hj'⟩)
        · rintro (h | ⟨-, h⟩ | ⟨-, h, -⟩)
          · exact absurd h (hb' d)
          · have := (dDataJson_iff (n := 125 - 1) (by omega) hm hdep d).2 h
            rw [hj] at this; exact Option.some.inj this
          · exact absurd hj' (h d')
      | none =>
        have hj' : ∀ d', ¬ IsJsonData f64 m d' := fun d' h => by
          have := (dDataJson_iff (n := 125 - 1) (by omega) hm hdep d').2 h
          rw [hj] at this; cases this
        simp only [dDataLinks_iff (show 1 < 125 - 1 by omega) hm]
        constructor
        · exact fun h => .inr (.inr ⟨hb', hj', h⟩)
        · rintro (h | ⟨-, h⟩ | ⟨-, -, h⟩)
          · exact absurd h (hb' d)
          · exact absurd h (hj' d)
          · exact h
  constructor
  · rintro ⟨v, hv, m, hm, h⟩
    exact ⟨⟨v, hv⟩, m, hm, (inner m v hv hm).1 h⟩
  · rintro ⟨⟨v, hv⟩, m, hm, h⟩
    exact ⟨v, hv, m, hm, (inner m v hv hm).2 h⟩

theorem decodes_attachment : Decodes (dAttachment f64 126) (IsAttachment f64) := by
  intro t ht a
  unfold dAttachment IsAttachment
  simp only [Option.bind_eq_bind, Option.bind_eq_some_iff, Option.some.injEq, asStruct_iff (show 1 < 126 by omega)]
  constructor
  · rintro ⟨m, hm, h⟩
    have ho := hm.ok ht
    simp only [reqField_iff ho decodes_data, optField_iff ho decodes_str isText_null, optField_iff ho decodes_u64 isU64_null] at h
    obtain ⟨_, h1, _, h2, _, h3, _, h4, _, h5, _, h6, _, h7, _, h8, rfl⟩ := h
    exact ⟨m, hm, h1, h2, h3, h4, h5, h6, h7, h8⟩
  · rintro ⟨m, hm, h1, h2, h3, h4, h5, h6, h7, h8⟩
    have ho := hm.ok ht
    refine ⟨m, hm, ?_⟩
    simp only [reqField_iff ho decodes_data, optField_iff ho decodes_str isText_null, optField_iff ho decodes_u64 isU64_null]
    exact ⟨_, h1, _, h2, _, h3, _, h4, _, h5, _, h6, _, h7, _, h8, rfl⟩

/-! ## Messages -/

theorem typ_iff {m : List (Str × Tree)} (hm : MembersOk m) (x : Str) : (∃ o, field m b!"typ" = some o ∧ dTyp o = some x) ↔
    (Absent m b!"typ" ∧ x = b!"application/didcomm-plain+json") ∨ Req m b!"typ" IsText x := by
  constructor
  · rintro ⟨o, ho, h⟩
    cases o with
    | none => cases h; exact .inl ⟨field_none.1 ho, rfl⟩
    | some t =>
      have := field_some.1 ho
      exact .inr ⟨t, this, (decodes_str t (hm _ this.mem) x).1 h⟩
  · rintro (⟨h, rfl⟩ | ⟨t, h, hx⟩)
    · exact ⟨none, field_none.2 h, rfl⟩
    · exact ⟨some t, field_some.2 h, (decodes_str t (hm _ h.mem) x).2 hx⟩

theorem dMessage_sound {t : Tree} (ht : t.Ok) {x : Message} (h : dMessage f64 depthLimit t = some x) : IsMessage f64 t x := by
  unfold dMessage depthLimit at h
  simp only [Option.bind_eq_bind, Option.bind_eq_some_iff, Option.some.injEq, asMap_iff (show 1 < 128 by omega)] at h
  obtain ⟨m, hm, h⟩ := h
  have ho := hm.ok ht
  simp only [reqField_iff ho decodes_str, optField_iff ho decodes_str isText_null, optField_iff ho decodes_u64 isU64_null,
    reqField_iff ho (decodes_value (show 0 < 128 - 1 by omega)),
    optField_iff ho (decodes_list (d := fun _ => dStr) (show 1 < 128 - 1 by omega) decodes_str) isList_null,
    optField_iff ho (decodes_list (show 1 < 128 - 1 by omega) decodes_attachment) isList_null] at h
  obtain ⟨_, h1, o, ho', _, h2, _, h3, _, h4, _, h5, _, h6, _, h7, _, h8, _, h9, _, h10, _, h11, _, h12, _, h13, rfl⟩ := h
  exact ⟨m, hm, h1, (typ_iff ho _).1 ⟨o, ho', h2⟩, h3, h4, h5, h6, h7, h8, h9, h10, h11, h12, dExtra_isExtra ho h13⟩

theorem dMessage_complete {t : Tree} (ht : t.Ok) {x : Message} (h : IsMessage f64 t x) :
    ∃ l, dMessage f64 depthLimit t = some { x with extraHeaders := l } ∧ (l.map Prod.fst).Nodup ∧ ∀ p, p ∈ l ↔ p ∈ x.extraHeaders := by
  obtain ⟨m, hm, h1, h2, h3, h4, h5, h6, h7, h8, h9, h10, h11, h12, h13⟩ := h
  have ho := hm.ok ht
  obtain ⟨o, ho', h2⟩ := (typ_iff ho _).2 h2
  obtain ⟨l, hl⟩ := dExtra_exists (f64 := f64) (show 0 < 127 by omega) m [] ho h13.2.1
  have hx := dExtra_isExtra ho hl
  refine ⟨l, ?_, hx.1, fun ⟨k, v⟩ => by rw [hx.2.2, h13.2.2]⟩
  unfold dMessage depthLimit
  simp only [Option.bind_eq_bind, Option.bind_eq_some_iff, Option.some.injEq, asMap_iff (show 1 < 128 by omega)]
  refine ⟨m, hm, ?_⟩
  simp only [reqField_iff ho decodes_str, optField_iff ho decodes_str isText_null, optField_iff ho decodes_u64 isU64_null,
    reqField_iff ho (decodes_value (show 0 < 128 - 1 by omega)),
    optField_iff ho (decodes_list (d := fun _ => dStr) (show 1 < 128 - 1 by omega) decodes_str) isList_null,
    optField_iff ho (decodes_list (show 1 < 128 - 1 by omega) decodes_attachment) isList_null]
  exact ⟨_, h1, o, ho', _, h2, _, h3, _, h4, _, h5, _, h6, _, h7, _, h8, _, h9, _, h10, _, h11, _, h12, l, hl, rfl⟩

/-! ## Envelopes and claims -/

theorem decodes_kid {n : Nat} (hn : 1 < n) : Decodes (dKidHeader n) IsKidHeader := by
  intro t ht a
  unfold dKidHeader IsKidHeader
  simp only [Option.bind_eq_bind, Option.bind_eq_some_iff, asStruct_iff hn]
  constructor
  · rintro ⟨m, hm, h⟩; exact ⟨m, hm, (reqField_iff (hm.ok ht) decodes_raw _).1 h⟩
  · rintro ⟨m, hm, h⟩; exact ⟨m, hm, (reqField_iff (hm.ok ht) decodes_raw _).2 h⟩

theorem decodes_recipient {n : Nat} (hn : 2 < n) : Decodes (dJweRecipient n) IsRecipient := by
  intro t ht a
  unfold dJweRecipient IsRecipient
  simp only [Option.bind_eq_bind, Option.bind_eq_some_iff, Option.some.injEq, asStruct_iff (show 1 < n by omega)]
  constructor
  · rintro ⟨m, hm, h⟩
    have ho := hm.ok ht
    simp only [reqField_iff ho decodes_raw, reqField_iff ho (decodes_kid (show 1 < n - 1 by omega))] at h
    obtain ⟨_, h1, _, h2, rfl⟩ := h
    exact ⟨m, hm, h1, h2⟩
  · rintro ⟨m, hm, h1, h2⟩
    have ho := hm.ok ht
    refine ⟨m, hm, ?_⟩
    simp only [reqField_iff ho decodes_raw, reqField_iff ho (decodes_kid (show 1 < n - 1 by omega))]
    exact ⟨_, h1, _, h2, rfl⟩

theorem decodes_encrypted : Decodes (dJwe depthLimit) IsEncrypted := by
  intro t ht a
  unfold dJwe IsEncrypted depthLimit
  simp only [Option.bind_eq_bind, Option.bind_eq_some_iff, Option.some.injEq, asStruct_iff (show 1 < 128 by omega)]
  constructor
  · rintro ⟨m, hm, h⟩
    have ho := hm.ok ht
    simp only [reqField_iff ho decodes_raw,
      reqField_iff ho (decodes_list (show 1 < 128 - 1 by omega) (decodes_recipient (show 2 < 128 - 1 - 1 by omega)))] at h
    obtain ⟨_, h1, _, h2, _, h3, _, h4, _, h5, rfl⟩ := h
    exact ⟨m, hm, h1, h2, h3, h4, h5⟩
  · rintro ⟨m, hm, h1, h2, h3, h4, h5⟩
    have ho := hm.ok ht
    refine ⟨m, hm, ?_⟩
    simp only [reqField_iff ho decodes_raw,
      reqField_iff ho (decodes_list (show 1 < 128 - 1 by omega) (decodes_recipient (show 2 < 128 - 1 - 1 by omega)))]
    exact ⟨_, h1, _, h2, _, h3, _, h4, _, h5, rfl⟩

theorem decodes_signature {n : Nat} (hn : 2 < n) : Decodes (dJwsSig n) IsSignature := by
  intro t ht a
  unfold dJwsSig IsSignature
  simp only [Option.bind_eq_bind, Option.bind_eq_some_iff, Option.some.injEq, asStruct_iff (show 1 < n by omega)]
  constructor
  · rintro ⟨m, hm, h⟩
    have ho := hm.ok ht
    simp only [reqField_iff ho decodes_raw, reqField_iff ho (decodes_kid (show 1 < n - 1 by omega))] at h
    obtain ⟨_, h1, _, h2, _, h3, rfl⟩ := h
    exact ⟨m, hm, h1, h2, h3⟩
  · rintro ⟨m, hm, h1, h2, h3⟩
    have ho := hm.ok ht
    refine ⟨m, hm, ?_⟩
    simp only [reqField_iff ho decodes_raw, reqField_iff ho (decodes_kid (show 1 < n - 1 by omega))]
    exact ⟨_, h1, _, h2, _, h3, rfl⟩

theorem decodes_signed : Decodes (dJws depthLimit) IsSigned := by
  intro t ht a
  unfold dJws IsSigned depthLimit
  simp only [Option.bind_eq_bind, Option.bind_eq_some_iff, Option.some.injEq, asStruct_iff (show 1 < 128 by omega)]
  constructor
  · rintro ⟨m, hm, h⟩
    have ho := hm.ok ht
    simp only [reqField_iff ho decodes_raw,
      reqField_iff ho (decodes_list (show 1 < 128 - 1 by omega) (decodes_signature (show 2 < 128 - 1 - 1 by omega)))] at h
    obtain ⟨_, h1, _, h2, rfl⟩ := h
    exact ⟨m, hm, h1, h2⟩
  · rintro ⟨m, hm, h1, h2⟩
    have ho := hm.ok ht
    refine ⟨m, hm, ?_⟩
    simp only [reqField_iff ho decodes_raw,
      reqField_iff ho (decodes_list (show 1 < 128 - 1 by omega) (decodes_signature (show 2 < 128 - 1 - 1 by omega)))]
    exact ⟨_, h1, _, h2, rfl⟩

theorem decodes_claims : Decodes (dFromPrior depthLimit) IsClaims := by
  intro t ht a
  unfold dFromPrior IsClaims depthLimit
  simp only [Option.bind_eq_bind, Option.bind_eq_some_iff, Option.some.injEq, asStruct_iff (show 1 < 128 by omega)]
  constructor
  · rintro ⟨m, hm, h⟩
    have ho := hm.ok ht
    simp only [reqField_iff ho decodes_str, optField_iff ho decodes_str isText_null, optField_iff ho decodes_u64 isU64_null] at h
    obtain ⟨_, h1, _, h2, _, h3, _, h4, _, h5, _, h6, _, h7, rfl⟩ := h
    exact ⟨m, hm, h1, h2, h3, h4, h5, h6, h7⟩
  · rintro ⟨m, hm, h1, h2, h3, h4, h5, h6, h7⟩
    have ho := hm.ok ht
    refine ⟨m, hm, ?_⟩
    simp only [reqField_iff ho decodes_str, optField_iff ho decodes_str isText_null, optField_iff ho decodes_u64 isU64_null]
    exact ⟨_, h1, _, h2, _, h3, _, h4, _, h5, _, h6, _, h7, rfl⟩

/-! ## Protected headers -/

theorem namesSign_iff {s : Str} {a : JwsAlg} : JwsAlg.ofStr s = a ↔ NamesSign s a := by
  unfold JwsAlg.ofStr
  split
  · rename_i h; subst h; cases a <;> simp [NamesSign]
  · split
    · rename_i h; subst h; cases a <;> simp [NamesSign]
    · split
      · rename_i h; subst h; cases a <;> simp [NamesSign]
      · rename_i h1 h2 h3
        cases a <;> simp [NamesSign, h1, h2, h3, eq_comm]

theorem namesAgreement_iff {s : Str} {a : JweAlg} : JweAlg.ofStr s = a ↔ NamesAgreement s a := by
  unfold JweAlg.ofStr
  split
  · rename_i h; subst h; cases a <;> simp [NamesAgreement]
  · split
    · rename_i h; subst h; cases a <;> simp [NamesAgreement]
    · rename_i h1 h2
      cases a <;> simp [NamesAgreement, h1, h2, eq_comm]

theorem namesEncryption_iff {s : Str} {a : EncAlg} : EncAlg.ofStr s = a ↔ NamesEncryption s a := by
  unfold EncAlg.ofStr
  split
  · rename_i h; subst h; cases a <;> simp [NamesEncryption]
  · split
    · rename_i h; subst h; cases a <;> simp [NamesEncryption]
    · split
      · rename_i h; subst h; cases a <;> simp [NamesEncryption]
      · rename_i h1 h2 h3
        cases a <;> simp [NamesEncryption, h1, h2, h3, eq_comm]

theorem req_name {α : Type} {N : Str → α → Prop} {m : List (Str × Tree)} {k : Str} {a : α} :
    Req m k (IsName N) a ↔ ∃ s, Req m k IsText s ∧ N s a :=
  ⟨fun ⟨t, h, s, h1, h2⟩ => ⟨s, ⟨t, h, h1⟩, h2⟩, fun ⟨s, ⟨t, h, h1⟩, h2⟩ => ⟨t, h, s, h1, h2⟩⟩

theorem decodes_jweHeader : Decodes (dJweHeader f64 depthLimit) (IsJweHeader f64) := by
  intro t ht a
  unfold dJweHeader IsJweHeader depthLimit
  simp only [Option.bind_eq_bind, Option.bind_eq_some_iff, Option.some.injEq, asStruct_iff (show 1 < 128 by omega), req_name]
  constructor
  · rintro ⟨m, hm, h⟩
    have ho := hm.ok ht
    simp only [reqField_iff ho decodes_str, optField_iff ho decodes_str isText_null, optField_iff ho decodes_raw isRaw_null,
      reqField_iff ho decodes_raw, reqField_iff ho (decodes_value (show 0 < 128 - 1 by omega))] at h
    obtain ⟨_, h1, _, h2, _, h3, _, h4, _, h5, _, h6, _, h7, rfl⟩ := h
    exact ⟨m, hm, h1, ⟨_, h2, namesAgreement_iff.1 rfl⟩, ⟨_, h3, namesEncryption_iff.1 rfl⟩, h4, h5, h6, h7⟩
  · rintro ⟨m, hm, h1, ⟨_, h2, e2⟩, ⟨_, h3, e3⟩, h4, h5, h6, h7⟩
    have ho := hm.ok ht
    refine ⟨m, hm, ?_⟩
    simp only [reqField_iff ho decodes_str, optField_iff ho decodes_str isText_null, optField_iff ho decodes_raw isRaw_null,
      reqField_iff ho decodes_raw, reqField_iff ho (decodes_value (show 0 < 128 - 1 by omega))]
    refine ⟨_, h1, _, h2, _, h3, _, h4, _, h5, _, h6, _, h7, ?_⟩
    rw [namesAgreement_iff.2 e2, namesEncryption_iff.2 e3]

theorem decodes_jwsHeader : Decodes (dJwsHeader depthLimit) IsJwsHeader := by
  intro t ht a
  unfold dJwsHeader IsJwsHeader depthLimit
  simp only [Option.bind_eq_bind, Option.bind_eq_some_iff, Option.some.injEq, asStruct_iff (show 1 < 128 by omega), req_name]
  constructor
  · rintro ⟨m, hm, h⟩
    have ho := hm.ok ht
    simp only [reqField_iff ho decodes_str] at h
    obtain ⟨_, h1, _, h2, rfl⟩ := h
    exact ⟨m, hm, h1, ⟨_, h2, namesSign_iff.1 rfl⟩⟩
  · rintro ⟨m, hm, h1, ⟨_, h2, e2⟩⟩
    have ho := hm.ok ht
    refine ⟨m, hm, ?_⟩
    simp only [reqField_iff ho decodes_str]
    refine ⟨_, h1, _, h2, ?_⟩
    rw [namesSign_iff.2 e2]

theorem decodes_compactHeader : Decodes (dCompactHeader depthLimit) IsCompactHeader := by
  intro t ht a
  unfold dCompactHeader IsCompactHeader depthLimit
  simp only [Option.bind_eq_bind, Option.bind_eq_some_iff, Option.some.injEq, asStruct_iff (show 1 < 128 by omega), req_name]
  constructor
  · rintro ⟨m, hm, h⟩
    have ho := hm.ok ht
    simp only [reqField_iff ho decodes_str, reqField_iff ho decodes_raw] at h
    obtain ⟨_, h1, _, h2, _, h3, rfl⟩ := h
    exact ⟨m, hm, h1, ⟨_, h2, namesSign_iff.1 rfl⟩, h3⟩
  · rintro ⟨m, hm, h1, ⟨_, h2, e2⟩, h3⟩
    have ho := hm.ok ht
    refine ⟨m, hm, ?_⟩
    simp only [reqField_iff ho decodes_str, reqField_iff ho decodes_raw]
    refine ⟨_, h1, _, h2, _, h3, ?_⟩
    rw [namesSign_iff.2 e2]

end DIDComm
