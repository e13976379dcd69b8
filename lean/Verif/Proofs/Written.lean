import Verif.Spec.Written
import Verif.Proofs.Layout
import Verif.Spec.ReadingDocs

/-!
# Decoders without borrowed strings do not see how a text is written

Two steps for each: they read `t.unescaped` as they read `t`, and contents that are `Alike` alike.
-/

set_option autoImplicit false

namespace DIDComm

variable {f64 : Str → Option Str}

/-! ## Escapes -/

/-- The decoder does not see escapes. -/
def Deaf {α : Type} (d : Tree → Option α) : Prop := ∀ t, d t.unescaped = d t

/-- Members with their contents unescaped. -/
def unescapedFields (m : List (Str × Tree)) : List (Str × Tree) := m.map fun p => (p.1, p.2.unescaped)

mutual
theorem toValue_unescaped : ∀ (n : Nat) (t : Tree), toValue f64 n t.unescaped = toValue f64 n t
  | _, .null => by simp only [Tree.unescaped]
  | _, .bool _ => by simp only [Tree.unescaped]
  | _, .num _ => by simp only [Tree.unescaped]
  | _, .str _ => by simp only [Tree.unescaped, toValue]
  | n, .arr l => by simp only [Tree.unescaped, toValue, toValues_unescaped (n - 1) l]
  | n, .obj m => by simp only [Tree.unescaped, toValue, toMembers_unescaped (n - 1) m]
theorem toValues_unescaped : ∀ (n : Nat) (l : List Tree), toValues f64 n (unescapedAll l) = toValues f64 n l
  | _, [] => by simp only [unescapedAll]
  | n, t :: l => by simp only [unescapedAll, toValues, toValue_unescaped n t, toValues_unescaped n l]
theorem toMembers_unescaped : ∀ (n : Nat) (m : List (StrTok × Tree)) (acc : List (Str × Value)),
    toMembers f64 n (unescapedMembers m) acc = toMembers f64 n m acc
  | _, [], _ => by simp only [unescapedMembers]
  | n, (k, t) :: m, acc => by
    simp only [unescapedMembers, toMembers, toValue_unescaped n t]
    cases k.val with
    | none => rfl
    | some k =>
      cases toValue f64 n t with
      | none => rfl
      | some v => exact toMembers_unescaped n m _
end

theorem toValue_deaf (n : Nat) : Deaf (toValue f64 n) := toValue_unescaped n

theorem decKeys_unescaped : ∀ m : List (StrTok × Tree), decKeys (unescapedMembers m) = (decKeys m).map unescapedFields
  | [] => by simp [unescapedMembers, decKeys, unescapedFields]
  | (k, t) :: m => by
    simp only [unescapedMembers, decKeys, decKeys_unescaped m]
    cases k.val with
    | none => rfl
    | some k => cases decKeys m <;> rfl

theorem asMap_unescaped (n : Nat) (t : Tree) : asMap n t.unescaped = (asMap n t).map unescapedFields := by
  cases t <;> simp only [Tree.unescaped, asMap, Option.map_none]
  split
  · rfl
  · exact decKeys_unescaped _

theorem unescapedAll_length : ∀ l : List Tree, (unescapedAll l).length = l.length
  | [] => by simp [unescapedAll]
  | t :: l => by simp [unescapedAll, unescapedAll_length l]

theorem zip_unescaped : ∀ (names : List Str) (l : List Tree), names.zip (unescapedAll l) = unescapedFields (names.zip l)
  | [], l => by simp [unescapedFields]
  | _ :: _, [] => by simp [unescapedAll, unescapedFields]
  | k :: names, t :: l => by
    have := zip_unescaped names l
    simp only [unescapedAll, List.zip_cons_cons, unescapedFields, List.map_cons] at this ⊢
    rw [this]

theorem asStruct_unescaped (names : List Str) (n : Nat) (t : Tree) :
    asStruct names n t.unescaped = (asStruct names n t).map unescapedFields := by
  cases t <;> simp only [Tree.unescaped, asStruct, Option.map_none]
  · rw [unescapedAll_length, zip_unescaped]
    split
    · rfl
    · split <;> rfl
  · split
    · rfl
    · exact decKeys_unescaped _

theorem asStructFrom_unescaped (least : Nat) (names : List Str) (n : Nat) (t : Tree) :
    asStructFrom least names n t.unescaped = (asStructFrom least names n t).map unescapedFields := by
  cases t <;> simp only [Tree.unescaped, asStructFrom, Option.map_none]
  · rw [unescapedAll_length, zip_unescaped]
    split
    · rfl
    · split <;> rfl
  · split
    · rfl
    · exact decKeys_unescaped _

theorem field_unescaped (m : List (Str × Tree)) (k : Str) : field (unescapedFields m) k = (field m k).map (Option.map Tree.unescaped) := by
  unfold field unescapedFields
  rw [List.filter_map]
  have e : ((fun p : Str × Tree => p.1 == k) ∘ fun p => (p.1, p.2.unescaped)) = fun p : Str × Tree => p.1 == k := rfl
  rw [e]
  generalize m.filter (fun p => p.1 == k) = l
  match l with
  | [] => rfl
  | [_] => rfl
  | _ :: _ :: _ => rfl

theorem reqField_unescaped {α : Type} {d : Tree → Option α} (hd : Deaf d) (m : List (Str × Tree)) (k : Str) :
    reqField (unescapedFields m) k d = reqField m k d := by
  unfold reqField
  rw [field_unescaped]
  cases field m k with
  | none => rfl
  | some o =>
    cases o with
    | none => rfl
    | some t => exact hd t

theorem dOpt_deaf {α : Type} {d : Tree → Option α} (hd : Deaf d) : Deaf (dOpt d) := by
  intro t
  have := hd t
  cases t <;> simp only [Tree.unescaped, dOpt] at this ⊢ <;> rw [this]

theorem optField_unescaped {α : Type} {d : Tree → Option α} (hd : Deaf d) (m : List (Str × Tree)) (k : Str) :
    optField (unescapedFields m) k d = optField m k d := by
  unfold optField
  rw [field_unescaped]
  cases field m k with
  | none => rfl
  | some o =>
    cases o with
    | none => rfl
    | some t => exact dOpt_deaf hd t

theorem defField_unescaped {α : Type} {d : Tree → Option α} (hd : Deaf d) (m : List (Str × Tree)) (k : Str) (x : α) :
    defField (unescapedFields m) k x d = defField m k x d := by
  unfold defField
  rw [field_unescaped]
  cases field m k with
  | none => rfl
  | some o =>
    cases o with
    | none => rfl
    | some t => exact hd t

theorem rest_unescaped (F : List Str) (m : List (Str × Tree)) : rest F (unescapedFields m) = unescapedFields (rest F m) := by
  unfold rest unescapedFields
  rw [List.filter_map]
  rfl

theorem buffered_unescaped (n : Nat) (m : List (Str × Tree)) : buffered f64 n (unescapedFields m) = buffered f64 n m := by
  simp only [buffered, unescapedFields, List.all_map, Function.comp_def, toValue_unescaped]

theorem dStr_deaf : Deaf dStr := fun t => by
  cases t with
  | str k => obtain ⟨_, _ | _⟩ := k <;> rfl
  | _ => rfl

theorem dMaterial_unescaped (N : MaterialNames) (n : Nat) (m : List (Str × Tree)) :
    dMaterial f64 N n (unescapedFields m) = dMaterial f64 N n m := by
  simp only [dMaterial, reqField_unescaped (toValue_deaf n), reqField_unescaped dStr_deaf]

theorem dBool_deaf : Deaf dBool := fun t => by cases t <;> rfl
theorem dU64_deaf : Deaf dU64 := fun t => by cases t <;> rfl

theorem decAll_unescaped {α : Type} {d : Tree → Option α} (hd : Deaf d) : ∀ l, decAll d (unescapedAll l) = decAll d l
  | [] => by simp only [unescapedAll]
  | t :: l => by simp only [unescapedAll, decAll, hd t, decAll_unescaped hd l]

theorem dVec_deaf {α : Type} {d : Nat → Tree → Option α} (hd : ∀ n, Deaf (d n)) (n : Nat) : Deaf (dVec d n) := by
  intro t
  cases t <;> simp only [Tree.unescaped, dVec, decAll_unescaped (hd _)]

theorem dUnit_two {α : Type} (N : List (Str × α)) (n : Nat) (p q : StrTok × Tree) (m : List (StrTok × Tree)) :
    dUnit N n (.obj (p :: q :: m)) = none := by
  obtain ⟨k, t⟩ := p
  cases t <;> rfl

theorem dUnit_deaf {α : Type} (N : List (Str × α)) (n : Nat) : Deaf (dUnit N n) := by
  intro t
  cases t with
  | obj m =>
    match m with
    | [] => simp only [Tree.unescaped, unescapedMembers]
    | [(k, t)] => cases t <;> simp only [Tree.unescaped, unescapedMembers, dUnit]
    | (k, t) :: p :: m =>
      obtain ⟨k', t'⟩ := p
      simp only [Tree.unescaped, unescapedMembers, dUnit_two]
  | str k => obtain ⟨_, _ | _⟩ := k <;> rfl
  | _ => simp only [Tree.unescaped, dUnit]

theorem dVerificationMethod_deaf (n : Nat) : Deaf (dVerificationMethod f64 n) := by
  intro t
  unfold dVerificationMethod
  rw [asMap_unescaped]
  cases asMap n t with
  | none => rfl
  | some m =>
    simp only [Option.map_some, Option.bind_eq_bind, Option.bind_some, reqField_unescaped dStr_deaf, reqField_unescaped (dUnit_deaf _ _),
      rest_unescaped, buffered_unescaped, dMaterial_unescaped]

theorem dSecret_deaf (n : Nat) : Deaf (dSecret f64 n) := by
  intro t
  unfold dSecret
  rw [asMap_unescaped]
  cases asMap n t with
  | none => rfl
  | some m =>
    simp only [Option.map_some, Option.bind_eq_bind, Option.bind_some, reqField_unescaped dStr_deaf, reqField_unescaped (dUnit_deaf _ _),
      rest_unescaped, buffered_unescaped, dMaterial_unescaped]

theorem dMessagingService_deaf (n : Nat) : Deaf (dMessagingService n) := by
  intro t
  unfold dMessagingService
  rw [asMap_unescaped]
  cases asMap n t with
  | none => rfl
  | some m =>
    simp only [Option.map_some, Option.bind_eq_bind, Option.bind_some, reqField_unescaped dStr_deaf,
      optField_unescaped (dVec_deaf (fun _ => dStr_deaf) _), defField_unescaped (dVec_deaf (fun _ => dStr_deaf) _)]

theorem dServiceKind_deaf (n : Nat) (tag : Str) : Deaf (dServiceKind f64 n tag) := by
  intro t
  unfold dServiceKind
  rw [dMessagingService_deaf, asMap_unescaped, toValue_unescaped]
  cases asMap n t <;> rfl

theorem dService_deaf (n : Nat) : Deaf (dService f64 n) := by
  intro t
  unfold dService
  rw [asMap_unescaped]
  cases asMap n t with
  | none => rfl
  | some m =>
    simp only [Option.map_some, Option.bind_eq_bind, Option.bind_some, reqField_unescaped dStr_deaf, rest_unescaped, buffered_unescaped,
      reqField_unescaped (dServiceKind_deaf _ _)]

theorem dDIDDoc_deaf (n : Nat) : Deaf (dDIDDoc f64 n) := by
  intro t
  unfold dDIDDoc
  rw [asStruct_unescaped]
  cases asStruct [b!"id", b!"keyAgreement", b!"authentication", b!"verificationMethod", b!"service"] n t with
  | none => rfl
  | some m =>
    simp only [Option.map_some, Option.bind_eq_bind, Option.bind_some, reqField_unescaped dStr_deaf,
      reqField_unescaped (dVec_deaf (fun _ => dStr_deaf) _), reqField_unescaped (dVec_deaf dVerificationMethod_deaf _),
      reqField_unescaped (dVec_deaf dService_deaf _)]

theorem dUnpackOptions_deaf (n : Nat) : Deaf (dUnpackOptions n) := by
  intro t
  unfold dUnpackOptions
  rw [asStructFrom_unescaped]
  cases asStructFrom 0 [b!"expect_decrypt_by_all_keys", b!"unwrap_re_wrapping_forward"] n t with
  | none => rfl
  | some m => simp only [Option.map_some, Option.bind_eq_bind, Option.bind_some, defField_unescaped dBool_deaf]

theorem toHashMap_unescaped (n : Nat) : ∀ (m : List (Str × Tree)) (acc : List (Str × Value)),
    toHashMap f64 n (unescapedFields m) acc = toHashMap f64 n m acc
  | [], _ => rfl
  | (k, t) :: m, acc => by
    have ih := toHashMap_unescaped n m
    simp only [unescapedFields] at ih
    simp only [unescapedFields, List.map_cons, toHashMap, toValue_unescaped]
    cases toValue f64 n t with
    | none => rfl
    | some v => exact ih _

theorem dHeaders_deaf (n : Nat) : Deaf (dHeaders f64 n) := by
  intro t
  unfold dHeaders
  rw [asMap_unescaped]
  cases asMap n t with
  | none => rfl
  | some m => simp only [Option.map_some, Option.bind_eq_bind, Option.bind_some, toHashMap_unescaped]

theorem dPackOptions_deaf (n : Nat) : Deaf (dPackOptions f64 n) := by
  intro t
  unfold dPackOptions
  rw [asStructFrom_unescaped]
  cases asStructFrom 4 [b!"protect_sender", b!"forward", b!"forward_headers", b!"messaging_service", b!"enc_alg_auth",
    b!"enc_alg_anon"] n t with
  | none => rfl
  | some m =>
    simp only [Option.map_some, Option.bind_eq_bind, Option.bind_some, defField_unescaped dBool_deaf, defField_unescaped (dUnit_deaf _ _),
      optField_unescaped (dHeaders_deaf _), optField_unescaped dStr_deaf]

theorem dDataBase64_unescaped (m : List (Str × Tree)) : dDataBase64 (unescapedFields m) = dDataBase64 m := by
  simp only [dDataBase64, reqField_unescaped dStr_deaf, optField_unescaped dStr_deaf]
theorem dDataJson_unescaped (n : Nat) (m : List (Str × Tree)) : dDataJson f64 n (unescapedFields m) = dDataJson f64 n m := by
  simp only [dDataJson, reqField_unescaped (toValue_deaf _), optField_unescaped dStr_deaf]
theorem dDataLinks_unescaped (n : Nat) (m : List (Str × Tree)) : dDataLinks n (unescapedFields m) = dDataLinks n m := by
  simp only [dDataLinks, reqField_unescaped (dVec_deaf (fun _ => dStr_deaf) _), reqField_unescaped dStr_deaf, optField_unescaped dStr_deaf]

theorem dAttachmentData_deaf (n : Nat) : Deaf (dAttachmentData f64 n) := by
  intro t
  unfold dAttachmentData
  rw [toValue_unescaped, asMap_unescaped]
  cases asMap n t with
  | none => rfl
  | some m =>
    simp only [Option.map_some, Option.bind_eq_bind, Option.bind_some, dDataBase64_unescaped, dDataJson_unescaped, dDataLinks_unescaped]

theorem dAttachment_deaf (n : Nat) : Deaf (dAttachment f64 n) := by
  intro t
  unfold dAttachment
  rw [asStruct_unescaped]
  cases asStruct [b!"data", b!"id", b!"description", b!"filename", b!"media_type", b!"format", b!"lastmod_time", b!"byte_count"] n t with
  | none => rfl
  | some m =>
    simp only [Option.map_some, Option.bind_eq_bind, Option.bind_some, reqField_unescaped (dAttachmentData_deaf _),
      optField_unescaped dStr_deaf, optField_unescaped dU64_deaf]

theorem dExtra_unescaped (n : Nat) : ∀ (m : List (Str × Tree)) (acc : List (Str × Value)),
    dExtra f64 n (unescapedFields m) acc = dExtra f64 n m acc
  | [], _ => rfl
  | (k, t) :: m, acc => by
    have ih := dExtra_unescaped n m
    simp only [unescapedFields] at ih
    simp only [unescapedFields, List.map_cons, dExtra, toValue_unescaped]
    split
    · exact ih _
    · cases toValue f64 n t with
      | none => rfl
      | some v => exact ih _

theorem dTyp_unescaped (m : List (Str × Tree)) (k : Str) : ((field (unescapedFields m) k).bind dTyp) = (field m k).bind dTyp := by
  rw [field_unescaped]
  cases field m k with
  | none => rfl
  | some o =>
    cases o with
    | none => rfl
    | some t => exact dStr_deaf t

theorem dMessage_deaf (n : Nat) : Deaf (dMessage f64 n) := by
  intro t
  unfold dMessage
  rw [asMap_unescaped]
  cases asMap n t with
  | none => rfl
  | some m =>
    have ht : ∀ {β : Type} (f : Str → Option β), ((field (unescapedFields m) b!"typ").bind fun x => (dTyp x).bind f)
        = (field m b!"typ").bind fun x => (dTyp x).bind f := by
      intro β f
      rw [← Option.bind_assoc, ← Option.bind_assoc, dTyp_unescaped]
    simp only [Option.map_some, Option.bind_eq_bind, Option.bind_some, ht, reqField_unescaped dStr_deaf, reqField_unescaped (toValue_deaf _),
      optField_unescaped dStr_deaf, optField_unescaped dU64_deaf, optField_unescaped (dVec_deaf (fun _ => dStr_deaf) _),
      optField_unescaped (dVec_deaf dAttachment_deaf _), dExtra_unescaped]

/-! ## Order -/

theorem asStructFrom_alike {least : Nat} {names : List Str} (hn : names.Nodup) {t t' : Tree} (h : Alike t t') (n : Nat) :
    BothOr SameFields (asStructFrom least names n t) (asStructFrom least names n t') := by
  cases h with
  | obj hd h hp =>
    simp only [asStructFrom]
    split
    · exact .inl ⟨rfl, rfl⟩
    · exact decKeys_same hd h hp
  | arr h =>
    simp only [asStructFrom]
    split
    · exact .inl ⟨rfl, rfl⟩
    · rw [h.length_eq]
      split
      · rename_i hl
        refine .inr ⟨_, _, rfl, rfl, _, h.zip, ?_, .refl _⟩
        rw [List.zip_eq_zip_take_min, List.map_fst_zip (by simp)]
        exact (List.take_sublist _ _).nodup hn
      · exact .inl ⟨rfl, rfl⟩
  | _ => exact .inl ⟨rfl, rfl⟩

theorem defField_same {α : Type} {m m' : List (Str × Tree)} (h : SameFields m m') {d : Tree → Option α} (hd : Blind d) (k : Str) (x : α) :
    defField m k x d = defField m' k x d := by
  unfold defField
  rcases field_same h k with ⟨e, e'⟩ | ⟨t, t', e, e', ha⟩ <;> rw [e, e']
  exact hd ha

theorem AlikeFields.filter {F : Str → Bool} {m m' : List (Str × Tree)} (h : AlikeFields m m') :
    AlikeFields (m.filter fun p => F p.1) (m'.filter fun p => F p.1) := by
  induction h with
  | nil => exact .nil
  | @cons k t t' m m' ha _ ih =>
    simp only [List.filter_cons]
    split
    · exact .cons ha ih
    · exact ih

theorem rest_same {m m'' : List (Str × Tree)} (h : SameFields m m'') (F : List Str) : SameFields (rest F m) (rest F m'') := by
  obtain ⟨m', h1, hd, hp⟩ := h
  refine ⟨rest F m', h1.filter (F := fun k => !F.contains k), ?_, hp.filter _⟩
  exact (List.filter_sublist.map Prod.fst).nodup hd

theorem buffered_same {m m'' : List (Str × Tree)} (h : SameFields m m'') (n : Nat) : buffered f64 n m = buffered f64 n m'' := by
  obtain ⟨m', h1, -, hp⟩ := h
  have e1 : buffered f64 n m = buffered f64 n m' := by
    unfold buffered
    clear hp
    induction h1 with
    | nil => rfl
    | cons ha _ ih => simp only [List.all_cons, toValue_alike ha, ih]
  have e2 : buffered f64 n m' = buffered f64 n m'' := by
    unfold buffered
    rw [Bool.eq_iff_iff, List.all_eq_true, List.all_eq_true]
    exact ⟨fun h p hm => h p (hp.mem_iff.2 hm), fun h p hm => h p (hp.mem_iff.1 hm)⟩
  rw [e1, e2]

theorem dMaterial_same {m m' : List (Str × Tree)} (h : SameFields m m') (N : MaterialNames) (n : Nat) :
    dMaterial f64 N n m = dMaterial f64 N n m' := by
  simp only [dMaterial, reqField_same h (toValue_blind n), reqField_same h dStr_blind]

theorem dBool_blind : Blind dBool := by intro t t' h; cases h <;> rfl

theorem dUnit_blind {α : Type} (N : List (Str × α)) (n : Nat) : Blind (dUnit N n) := by
  intro t t' h
  cases h with
  | @obj _ _ m'' hd h hp =>
    match h with
    | .nil => rw [List.nil_perm.1 hp]
    | .cons (k := k) (k' := k') hk ha .nil =>
      rw [← List.singleton_perm.1 hp]
      cases ha <;> simp only [dUnit, hk]
    | .cons _ _ (.cons _ _ _) =>
      match m'', hp.length_eq with
      | [], e => simp at e
      | [_], e => simp at e
      | _ :: _ :: _, _ => rw [dUnit_two, dUnit_two]
  | _ => rfl

theorem dVerificationMethod_blind (n : Nat) : Blind (dVerificationMethod f64 n) := by
  intro t t' h
  unfold dVerificationMethod
  rcases asMap_alike h n with ⟨e, e'⟩ | ⟨m, m', e, e', hm⟩ <;> rw [e, e']
  simp only [Option.bind_eq_bind, Option.bind_some, reqField_same hm dStr_blind, reqField_same hm (dUnit_blind _ _),
    buffered_same (rest_same hm _), dMaterial_same (rest_same hm _)]

theorem dSecret_blind (n : Nat) : Blind (dSecret f64 n) := by
  intro t t' h
  unfold dSecret
  rcases asMap_alike h n with ⟨e, e'⟩ | ⟨m, m', e, e', hm⟩ <;> rw [e, e']
  simp only [Option.bind_eq_bind, Option.bind_some, reqField_same hm dStr_blind, reqField_same hm (dUnit_blind _ _),
    buffered_same (rest_same hm _), dMaterial_same (rest_same hm _)]

theorem dMessagingService_blind (n : Nat) : Blind (dMessagingService n) := by
  intro t t' h
  unfold dMessagingService
  rcases asMap_alike h n with ⟨e, e'⟩ | ⟨m, m', e, e', hm⟩ <;> rw [e, e']
  simp only [Option.bind_eq_bind, Option.bind_some, reqField_same hm dStr_blind, optField_same hm (dVec_blind (fun _ => dStr_blind) _),
    defField_same hm (dVec_blind (fun _ => dStr_blind) _)]

theorem dServiceKind_blind (n : Nat) (tag : Str) : Blind (dServiceKind f64 n tag) := by
  intro t t' h
  unfold dServiceKind
  rw [dMessagingService_blind n h, toValue_alike h]
  rcases asMap_alike h n with ⟨e, e'⟩ | ⟨m, m', e, e', hm⟩ <;> rw [e, e']
  rfl

theorem dService_blind (n : Nat) : Blind (dService f64 n) := by
  intro t t' h
  unfold dService
  rcases asMap_alike h n with ⟨e, e'⟩ | ⟨m, m', e, e', hm⟩ <;> rw [e, e']
  simp only [Option.bind_eq_bind, Option.bind_some, reqField_same hm dStr_blind, reqField_same hm (dServiceKind_blind _ _),
    buffered_same (rest_same hm _)]

theorem dDIDDoc_blind (n : Nat) : Blind (dDIDDoc f64 n) := by
  intro t t' h
  unfold dDIDDoc
  rcases asStruct_alike (names := [b!"id", b!"keyAgreement", b!"authentication", b!"verificationMethod", b!"service"]) (by decide) h n with
    ⟨e, e'⟩ | ⟨m, m', e, e', hm⟩ <;> rw [e, e']
  simp only [Option.bind_eq_bind, Option.bind_some, reqField_same hm dStr_blind, reqField_same hm (dVec_blind (fun _ => dStr_blind) _),
    reqField_same hm (dVec_blind dVerificationMethod_blind _), reqField_same hm (dVec_blind dService_blind _)]

theorem dUnpackOptions_blind (n : Nat) : Blind (dUnpackOptions n) := by
  intro t t' h
  unfold dUnpackOptions
  rcases asStructFrom_alike (least := 0) (names := [b!"expect_decrypt_by_all_keys", b!"unwrap_re_wrapping_forward"]) (by decide) h n with
    ⟨e, e'⟩ | ⟨m, m', e, e', hm⟩ <;> rw [e, e']
  simp only [Option.bind_eq_bind, Option.bind_some, defField_same hm dBool_blind]

/-- The values of members. -/
def fieldPairs (f64 : Str → Option Str) (n : Nat) : List (Str × Tree) → Option (List (Str × Value))
  | [] => some []
  | (k, t) :: r => do
    let v ← toValue f64 n t
    let l ← fieldPairs f64 n r
    some ((k, v) :: l)

theorem fieldPairs_alike {n : Nat} {m m' : List (Str × Tree)} (h : AlikeFields m m') : fieldPairs f64 n m = fieldPairs f64 n m' := by
  induction h with
  | nil => rfl
  | cons h _ ih => simp only [fieldPairs, ih, toValue_alike h]

theorem fieldPairs_names {n : Nat} : ∀ {m : List (Str × Tree)} {l : List (Str × Value)}, fieldPairs f64 n m = some l →
    l.map Prod.fst = m.map Prod.fst
  | [], l, h => by cases h; rfl
  | (k, t) :: r, l, h => by
    simp only [fieldPairs, Option.bind_eq_bind, Option.bind_eq_some_iff] at h
    obtain ⟨v, -, l', h, e⟩ := h
    cases e
    simp [fieldPairs_names h]

theorem fieldPairs_perm {n : Nat} {m m' : List (Str × Tree)} (h : m.Perm m') :
    BothOr List.Perm (fieldPairs f64 n m) (fieldPairs f64 n m') := by
  induction h with
  | nil => exact .inr ⟨[], [], rfl, rfl, .nil⟩
  | cons p _ ih =>
    obtain ⟨k, t⟩ := p
    simp only [fieldPairs]
    cases toValue f64 n t with
    | none => exact .inl ⟨rfl, rfl⟩
    | some v =>
      rcases ih with ⟨e, e'⟩ | ⟨x, y, e, e', hp⟩ <;> rw [e, e']
      · exact .inl ⟨rfl, rfl⟩
      · exact .inr ⟨_, _, rfl, rfl, hp.cons _⟩
  | swap p q l =>
    obtain ⟨k, t⟩ := p
    obtain ⟨k', t'⟩ := q
    simp only [fieldPairs]
    cases toValue f64 n t <;> cases toValue f64 n t' <;> cases fieldPairs f64 n l
    all_goals first
      | exact .inl ⟨rfl, rfl⟩
      | exact .inr ⟨_, _, rfl, rfl, .swap _ _ _⟩
  | trans _ _ ih1 ih2 => exact BothOr.trans (fun h h' => h.trans h') ih1 ih2

theorem toHashMap_pairs (n : Nat) : ∀ (m : List (Str × Tree)) (acc : List (Str × Value)), (m.map Prod.fst).Nodup →
    (∀ k ∈ m.map Prod.fst, k ∉ acc.map Prod.fst) → toHashMap f64 n m acc = (fieldPairs f64 n m).map (acc ++ ·)
  | [], acc, _, _ => by simp [toHashMap, fieldPairs]
  | (k, t) :: r, acc, hn, hd => by
    simp only [List.map_cons, List.nodup_cons] at hn
    simp only [toHashMap, fieldPairs]
    cases toValue f64 n t with
    | none => rfl
    | some v =>
      simp only [Option.bind_eq_bind, Option.bind_some]
      rw [hmInsert_new k v acc (hd k (.head _)), toHashMap_pairs n r _ hn.2]
      · cases fieldPairs f64 n r <;> simp
      · intro k' h h'
        simp only [List.map_append, List.map_cons, List.map_nil, List.mem_append, List.mem_singleton] at h'
        rcases h' with h' | rfl
        · exact hd k' (.tail _ h) h'
        · exact hn.1 h

/-- Headers in another order. -/
def HeadersSame (x y : List (Str × Value)) : Prop := (y.map Prod.fst).Nodup ∧ x.Perm y

theorem dHeaders_alike {t t' : Tree} (h : Alike t t') (n : Nat) : BothOr HeadersSame (dHeaders f64 n t) (dHeaders f64 n t') := by
  unfold dHeaders
  rcases asMap_alike h n with ⟨e, e'⟩ | ⟨m, m'', e, e', m', h1, hd, hp⟩ <;> rw [e, e']
  · exact .inl ⟨rfl, rfl⟩
  have hd' := (hp.map Prod.fst).nodup_iff.1 hd
  simp only [Option.bind_eq_bind, Option.bind_some]
  rw [toHashMap_pairs _ m [] (h1.names ▸ hd) (by simp), toHashMap_pairs _ m'' [] hd' (by simp), fieldPairs_alike h1]
  rcases fieldPairs_perm (f64 := f64) (n := n - 1) hp with ⟨e, e'⟩ | ⟨x, y, e, e', hx⟩ <;> rw [e, e']
  · exact .inl ⟨rfl, rfl⟩
  · exact .inr ⟨_, _, rfl, rfl, by simpa [fieldPairs_names e'] using hd', by simpa using hx⟩

theorem dPackOptions_alike {t t' : Tree} (h : Alike t t') (n : Nat) : BothOr SameOptions (dPackOptions f64 n t) (dPackOptions f64 n t') := by
  unfold dPackOptions
  rcases asStructFrom_alike (least := 4) (names := [b!"protect_sender", b!"forward", b!"forward_headers", b!"messaging_service", b!"enc_alg_auth",
    b!"enc_alg_anon"]) (by decide) h n with ⟨e, e'⟩ | ⟨m, m', e, e', hm⟩ <;> rw [e, e']
  · exact .inl ⟨rfl, rfl⟩
  simp only [Option.bind_eq_bind, Option.bind_some, defField_same hm dBool_blind, defField_same hm (dUnit_blind _ _),
    optField_same hm dStr_blind]
  have step : ∀ {α : Type} (o : Option α) (f g : α → Option PackEncryptedOptions), (∀ a, BothOr SameOptions (f a) (g a)) →
      BothOr SameOptions (o.bind f) (o.bind g) := by
    intro α o f g hfg
    cases o with
    | none => exact .inl ⟨rfl, rfl⟩
    | some a => exact hfg a
  refine step _ _ _ fun p => step _ _ _ fun f => ?_
  have hh : BothOr HeadersAlike (optField m b!"forward_headers" (dHeaders f64 (n - 1))) (optField m' b!"forward_headers" (dHeaders f64 (n - 1))) := by
    unfold optField
    rcases field_same hm b!"forward_headers" with ⟨e, e'⟩ | ⟨t, t', e, e', ha⟩ <;> rw [e, e']
    · exact .inr ⟨none, none, rfl, rfl, trivial⟩
    · have key := dHeaders_alike (f64 := f64) ha (n - 1)
      have : dOpt (dHeaders f64 (n - 1)) t = some none ∧ dOpt (dHeaders f64 (n - 1)) t' = some none ∨
          dOpt (dHeaders f64 (n - 1)) t = (dHeaders f64 (n - 1) t).map some ∧ dOpt (dHeaders f64 (n - 1)) t' = (dHeaders f64 (n - 1) t').map some := by
        cases ha <;> simp [dOpt]
      simp only [Option.bind_eq_bind, Option.bind_some]
      rcases this with ⟨e, e'⟩ | ⟨e, e'⟩ <;> rw [e, e']
      · exact .inr ⟨none, none, rfl, rfl, trivial⟩
      · rcases key with ⟨e, e'⟩ | ⟨x, y, e, e', hx⟩ <;> rw [e, e']
        · exact .inl ⟨rfl, rfl⟩
        · exact .inr ⟨some x, some y, rfl, rfl, hx.1, fun p => hx.2.mem_iff.symm⟩
  rcases hh with ⟨e, e'⟩ | ⟨x, y, e, e', hx⟩ <;> rw [e, e']
  · exact .inl ⟨rfl, rfl⟩
  simp only [Option.bind_some]
  refine step _ _ _ fun s => step _ _ _ fun a => step _ _ _ fun b => .inr ⟨_, _, rfl, rfl, rfl, rfl, hx, rfl, rfl, rfl⟩

/-- What a decoder that is deaf and blind reads from contents that are written differently. -/
theorem same_of {α : Type} {d : Tree → Option α} (h1 : Deaf d) (h2 : Blind d) {t t' : Tree} (h : SameWriting t t') : d t = d t' := by
  rw [← h1 t, ← h1 t']
  exact h2 h

end DIDComm
