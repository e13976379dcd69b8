import Verif.Spec.Documents
import Verif.Proofs.Typed

/-! # Documents, secrets, options and metadata survive JSON: helper lemmas -/

set_option autoImplicit false

namespace DIDComm

variable {f64 : Str → Option Str}

theorem Says.named {m : List (Str × Value)} {k : Str} {o : Option Value} (h : Says m k o) : named k m = o.toList := h

theorem defField_tree {α : Type} {m : List (Str × Value)} {name : Str} {o : Option Value} {dflt : α} {d : Tree → Option α}
    (h : named name m = o.toList) :
    defField (m.map fun p => (p.1, p.2.tree)) name dflt d = match o with | none => some dflt | some v => d v.tree := by
  cases o with
  | none => simp [defField, field_tree, h]
  | some v => simp [defField, field_tree, h]

theorem reqField_tree_none {α : Type} {m : List (Str × Value)} {name : Str} {d : Tree → Option α}
    (h : named name m = []) : reqField (m.map fun p => (p.1, p.2.tree)) name d = none := by
  simp [reqField, field_tree, h]

theorem field_rest {fs : List Str} {m : List (Str × Tree)} {name : Str} (h : fs.contains name = false) :
    field (rest fs m) name = field m name := by
  have : (rest fs m).filter (fun p => p.1 == name) = m.filter (fun p => p.1 == name) := by
    unfold rest
    rw [List.filter_filter]
    apply List.filter_congr
    intro p _
    by_cases hp : p.1 = name
    · simp only [hp, h]; simp
    · simp [hp]
  simp [field, this]

theorem reqField_rest {α : Type} {fs : List Str} {m : List (Str × Tree)} {name : Str} {d : Tree → Option α}
    (h : fs.contains name = false) : reqField (rest fs m) name d = reqField m name d := by
  simp [reqField, field_rest h]

theorem buffered_tree {n : Nat} {m : List (Str × Value)} (fs : List Str)
    (h : ∀ p ∈ m, fs.contains p.1 = false → (toValue f64 n p.2.tree).isSome) :
    buffered f64 n (rest fs (m.map fun p => (p.1, p.2.tree))) = true := by
  simp only [buffered, List.all_eq_true]
  intro p hp
  simp only [rest, List.mem_filter, List.mem_map] at hp
  obtain ⟨⟨q, hq, rfl⟩, h2⟩ := hp
  exact h q hq (by simpa using h2)

/-! ## Enumerations -/

theorem validUtf8_vmName (t : VmType) : validUtf8 t.name = true := by cases t <;> decide

theorem dUnit_vmType (t : VmType) (n : Nat) : dUnit vmTypeNames n (Value.str t.name).tree = some t := by
  cases t <;> rfl

theorem dUnit_anon (a : AnonCryptAlg) (n : Nat) : dUnit anonAlgNames n (Value.str a.name).tree = some a := by
  cases a <;> rfl

theorem dUnit_auth (a : AuthCryptAlg) (n : Nat) : dUnit authAlgNames n (Value.str a.name).tree = some a := by
  cases a; rfl

/-! ## Key material -/

theorem material_isSome {names : MaterialNames} {x : Material} {n : Nat} (h : x.WF f64 n) (p : Str × Value)
    (hp : p ∈ x.members names) : (toValue f64 n p.2.tree).isSome := by
  cases x with
  | jwk v =>
    simp only [Material.members, List.mem_singleton] at hp
    subst hp
    rw [toValue_tree v n h.1 h.2]; rfl
  | multibase s =>
    simp only [Material.members, List.mem_singleton] at hp
    subst hp
    exact toValue_str_isSome h _
  | base58 s =>
    simp only [Material.members, List.mem_singleton] at hp
    subst hp
    exact toValue_str_isSome h _

/-- The three names of a key differ from each other and from the given field names. -/
def MaterialNames.Apart (names : MaterialNames) (fs : List Str) : Prop :=
  names.jwk ≠ names.multibase ∧ names.jwk ≠ names.base58 ∧ names.multibase ≠ names.base58 ∧
    fs.contains names.jwk = false ∧ fs.contains names.multibase = false ∧ fs.contains names.base58 = false

theorem dMaterial_tree {names : MaterialNames} {fs : List Str} (ha : names.Apart fs) {x : Material} {n : Nat} (h : x.WF f64 n)
    (pre : List (Str × Value)) (hpre : ∀ p ∈ pre, fs.contains p.1 = true) :
    dMaterial f64 names n (rest fs ((pre ++ x.members names).map fun p => (p.1, p.2.tree))) = some x := by
  obtain ⟨h1, h2, h3, h4, h5, h6⟩ := ha
  have hnot : ∀ k, fs.contains k = false → named k pre = [] := by
    intro k hk
    apply named_of_not_mem
    intro hm
    obtain ⟨p, hp, rfl⟩ := List.mem_map.1 hm
    rw [hpre p hp] at hk; cases hk
  unfold dMaterial
  rw [reqField_rest h4, reqField_rest h5, reqField_rest h6]
  cases x with
  | jwk v =>
    rw [reqField_tree (v := v) (by simp [hnot _ h4, Material.members]), toValue_tree v n h.1 h.2]
  | multibase s =>
    have e : reqField ((pre ++ (Material.multibase s).members names).map fun p => (p.1, p.2.tree)) names.jwk (toValue f64 n) = none :=
      reqField_tree_none (by simp [hnot _ h4, Material.members, Ne.symm h1])
    rw [e, reqField_tree (v := .str s) (by simp [hnot _ h5, Material.members]), dStr_tree h]
  | base58 s =>
    have e : reqField ((pre ++ (Material.base58 s).members names).map fun p => (p.1, p.2.tree)) names.jwk (toValue f64 n) = none :=
      reqField_tree_none (by simp [hnot _ h4, Material.members, Ne.symm h2])
    have e2 : reqField ((pre ++ (Material.base58 s).members names).map fun p => (p.1, p.2.tree)) names.multibase dStr = none :=
      reqField_tree_none (by simp [hnot _ h5, Material.members, Ne.symm h3])
    rw [e, e2, reqField_tree (v := .str s) (by simp [hnot _ h6, Material.members]), dStr_tree h]
    rfl

theorem members_keys {names : MaterialNames} (hu : validUtf8 names.jwk = true ∧ validUtf8 names.multibase = true ∧
    validUtf8 names.base58 = true) (x : Material) : KeysUtf8 (x.members names) := by
  cases x with
  | jwk v => exact keysUtf8_cons hu.1 keysUtf8_nil
  | multibase s => exact keysUtf8_cons hu.2.1 keysUtf8_nil
  | base58 s => exact keysUtf8_cons hu.2.2 keysUtf8_nil

theorem members_named {names : MaterialNames} {fs : List Str} (ha : names.Apart fs) (x : Material) {k : Str}
    (hk : fs.contains k = true) : named k (x.members names) = [] := by
  obtain ⟨-, -, -, h4, h5, h6⟩ := ha
  apply named_of_not_mem
  intro hm
  cases x <;> simp only [Material.members, List.map_cons, List.map_nil, List.mem_singleton] at hm <;> subst hm
  · rw [h4] at hk; cases hk
  · rw [h5] at hk; cases hk
  · rw [h6] at hk; cases hk

theorem publicNames_apart : publicNames.Apart [b!"id", b!"type", b!"controller"] := by
  refine ⟨?_, ?_, ?_, ?_, ?_, ?_⟩ <;> decide

theorem privateNames_apart : privateNames.Apart [b!"id", b!"type"] := by
  refine ⟨?_, ?_, ?_, ?_, ?_, ?_⟩ <;> decide

theorem Material.numsOk {names : MaterialNames} {x : Material} {n : Nat} (h : x.WF f64 n) : Value.NumsOkM (x.members names) := by
  cases x with
  | jwk v => simp [Material.members, Value.NumsOkM, h.1.numsOk]
  | multibase s => simp [Material.members, Value.NumsOkM, Value.NumsOk]
  | base58 s => simp [Material.members, Value.NumsOkM, Value.NumsOk]

/-! ## Verification methods and secrets -/

theorem dVerificationMethod_tree (v : VerificationMethod) (h : v.WF f64) :
    dVerificationMethod f64 126 v.toJson.tree = some v := by
  have hm := members_keys (names := publicNames) ⟨by decide, by decide, by decide⟩ v.material
  unfold dVerificationMethod VerificationMethod.toJson
  rw [asMap_tree _ _ (by decide) (by keys_utf8)]
  simp only [Option.bind_eq_bind, Option.bind_some]
  have hn : ∀ k, [b!"id", b!"type", b!"controller"].contains k = true → named k (v.material.members publicNames) = [] :=
    fun k hk => members_named publicNames_apart v.material hk
  rw [reqField_tree (v := .str v.id) (by simp [hn b!"id" (by decide)]), dStr_tree h.id,
    reqField_tree (v := .str v.type_.name) (by simp [hn b!"type" (by decide)]), dUnit_vmType,
    reqField_tree (v := .str v.controller) (by simp [hn b!"controller" (by decide)]), dStr_tree h.controller]
  simp only [Option.bind_some]
  have hpre : ∀ p ∈ [(b!"id", Value.str v.id), (b!"type", .str v.type_.name), (b!"controller", .str v.controller)],
      [b!"id", b!"type", b!"controller"].contains p.1 = true := by
    intro p hp
    simp only [List.mem_cons, List.not_mem_nil, or_false] at hp
    rcases hp with rfl | rfl | rfl <;> (simp only; decide)
  rw [buffered_tree (f64 := f64) _ (by
    intro p hp hc
    rcases List.mem_append.1 hp with hp | hp
    · rw [hpre p hp] at hc; cases hc
    · exact material_isSome h.material p hp)]
  rw [dMaterial_tree (n := 126 - 1) publicNames_apart h.material _ hpre]
  rfl

theorem dSecret_tree (s : Secret) (h : s.WF f64) : dSecret f64 128 s.toJson.tree = some s := by
  have hm := members_keys (names := privateNames) ⟨by decide, by decide, by decide⟩ s.material
  unfold dSecret Secret.toJson
  rw [asMap_tree _ _ (by decide) (by keys_utf8)]
  simp only [Option.bind_eq_bind, Option.bind_some]
  have hn : ∀ k, [b!"id", b!"type"].contains k = true → named k (s.material.members privateNames) = [] :=
    fun k hk => members_named privateNames_apart s.material hk
  rw [reqField_tree (v := .str s.id) (by simp [hn b!"id" (by decide)]), dStr_tree h.id,
    reqField_tree (v := .str s.type_.name) (by simp [hn b!"type" (by decide)]), dUnit_vmType]
  simp only [Option.bind_some]
  have hpre : ∀ p ∈ [(b!"id", Value.str s.id), (b!"type", .str s.type_.name)], [b!"id", b!"type"].contains p.1 = true := by
    intro p hp
    simp only [List.mem_cons, List.not_mem_nil, or_false] at hp
    rcases hp with rfl | rfl <;> (simp only; decide)
  rw [buffered_tree (f64 := f64) _ (by
    intro p hp hc
    rcases List.mem_append.1 hp with hp | hp
    · rw [hpre p hp] at hc; cases hc
    · exact material_isSome h.material p hp)]
  rw [dMaterial_tree (n := 128 - 1) privateNames_apart h.material _ hpre]
  rfl

/-! ## Services -/

theorem dMessagingService_tree (s : DIDCommMessagingService) (h : (ServiceKind.didCommMessaging s).WF f64) (n : Nat) (hn : 2 < n) :
    dMessagingService n s.toJson.tree = some s := by
  obtain ⟨h1, h2, h3⟩ := h
  unfold dMessagingService DIDCommMessagingService.toJson
  rw [asMap_tree _ _ (by omega) (by keys_utf8)]
  simp only [Option.bind_eq_bind, Option.bind_some]
  rw [reqField_tree (v := .str s.uri) (by simp), dStr_tree h1,
    optField_vec (o := s.accept) (fun _ => dStr) .str (n - 1) (by omega) (fun l hl a ha => dStr_tree (h2 l hl a ha)) (by simp),
    defField_tree (o := some (.arr (s.routingKeys.map .str))) (by simp)]
  simp only [Option.bind_some]
  rw [dVec_tree (fun _ => dStr) .str (n - 1) s.routingKeys (by omega) (fun a ha => dStr_tree (h3 a ha))]
  rfl

theorem messagingService_isSome (s : DIDCommMessagingService) (h : (ServiceKind.didCommMessaging s).WF f64) (n : Nat) (hn : 2 < n) :
    (toValue f64 n s.toJson.tree).isSome := by
  obtain ⟨h1, h2, h3⟩ := h
  unfold DIDCommMessagingService.toJson
  obtain ⟨w, hw⟩ := toValue_obj_isSome (f64 := f64)
    ([(b!"uri", Value.str s.uri)] ++ optMember b!"accept" (fun l => .arr (l.map .str)) s.accept
      ++ [(b!"routingKeys", .arr (s.routingKeys.map .str))]) n (by omega) (by keys_utf8) (by
    intro p hp
    rcases List.mem_append.1 hp with hp | hp
    · rcases List.mem_append.1 hp with hp | hp
      · simp only [List.mem_singleton] at hp; subst hp; exact toValue_str_isSome h1 _
      · cases ha : s.accept with
        | none => rw [ha] at hp; cases hp
        | some l =>
          rw [ha] at hp
          simp only [optMember, List.mem_singleton] at hp
          subst hp
          exact toValue_arr_str_isSome (h2 l ha) _ (by omega)
    · simp only [List.mem_singleton] at hp; subst hp
      exact toValue_arr_str_isSome h3 _ (by omega))
  rw [hw]; rfl

theorem dService_tree (s : Service) (h : s.WF f64) : ∃ v, s.toJson = some v ∧ v.NumsOk ∧ dService f64 126 v.tree = some s := by
  obtain ⟨id, kind⟩ := s
  obtain ⟨hid, hk⟩ := h
  simp only at hid hk
  cases kind with
  | didCommMessaging x =>
    refine ⟨_, rfl, ?_, ?_⟩
    · simp only [Value.NumsOk, Value.NumsOkM, DIDCommMessagingService.toJson, true_and, and_true, numsOkM_append]
      refine ⟨?_, numsOkL_map_str _⟩
      cases x.accept with
      | none => simp [optMember, Value.NumsOkM]
      | some l => simp [optMember, Value.NumsOkM, Value.NumsOk, numsOkL_map_str]
    · unfold dService
      rw [asMap_tree _ _ (by decide) (by keys_utf8)]
      simp only [Option.bind_eq_bind, Option.bind_some]
      rw [reqField_tree (v := .str id) (by simp), dStr_tree hid]
      simp only [Option.bind_some]
      rw [buffered_tree (f64 := f64) _ (by
        intro p hp hc
        simp only [List.mem_cons, List.not_mem_nil, or_false] at hp
        rcases hp with rfl | rfl | rfl
        · exact toValue_str_isSome hid _
        · exact toValue_str_isSome (by decide) _
        · exact messagingService_isSome x hk _ (by omega))]
      rw [reqField_tree (v := .str b!"DIDCommMessaging") (by simp), dStr_tree (by decide)]
      simp only [Option.bind_some]
      rw [reqField_tree (v := x.toJson) (by simp)]
      simp only [dServiceKind, if_true]
      rw [dMessagingService_tree (f64 := f64) x hk _ (by omega)]
      rfl
  | other v =>
    obtain ⟨⟨m, rfl⟩, hv, hd⟩ := hk
    refine ⟨_, rfl, ?_, ?_⟩
    · simp only [Value.NumsOk, Value.NumsOkM, true_and, and_true]
      have := hv.numsOk
      simpa only [Value.NumsOk] using this
    · unfold dService
      rw [asMap_tree _ _ (by decide) (by keys_utf8)]
      simp only [Option.bind_eq_bind, Option.bind_some]
      rw [reqField_tree (v := .str id) (by simp), dStr_tree hid]
      simp only [Option.bind_some]
      have htv : toValue f64 (126 - 1) (Value.obj m).tree = some (.obj m) := toValue_tree (.obj m) _ hv hd
      rw [buffered_tree (f64 := f64) _ (by
        intro p hp hc
        simp only [List.mem_cons, List.not_mem_nil, or_false] at hp
        rcases hp with rfl | rfl | rfl
        · exact toValue_str_isSome hid _
        · exact toValue_str_isSome (by decide) _
        · rw [htv]; rfl)]
      rw [reqField_tree (v := .str b!"Other") (by simp), dStr_tree (by decide)]
      simp only [Option.bind_some]
      rw [reqField_tree (v := .obj m) (by simp)]
      have hne : ¬ b!"Other" = b!"DIDCommMessaging" := by decide
      simp only [dServiceKind, if_neg hne, if_true, Option.bind_eq_bind]
      simp only [Value.WF] at hv
      rw [asMap_tree _ _ (by decide) hv.2.keys, htv]
      rfl

theorem services_tree (l : List Service) (h : ∀ s ∈ l, s.WF f64) :
    ∃ vs, servicesJson l = some vs ∧ Value.NumsOkL vs ∧ decAll (dService f64 126) (Value.trees vs) = some l := by
  induction l with
  | nil => exact ⟨[], rfl, by simp [Value.NumsOkL], by simp [Value.trees, decAll]⟩
  | cons s l ih =>
    obtain ⟨v, h1, h2, h3⟩ := dService_tree s (h s (by simp))
    obtain ⟨vs, g1, g2, g3⟩ := ih (fun s hs => h s (by simp [hs]))
    exact ⟨v :: vs, by simp [servicesJson, h1, g1], by simp [Value.NumsOkL, h2, g2], by simp [Value.trees, decAll, h3, g3]⟩

/-! ## Documents -/

theorem dDIDDoc_tree (d : DIDDoc) (h : d.WF f64) :
    ∃ v, d.toJson = some v ∧ v.NumsOk ∧ dDIDDoc f64 depthLimit v.tree = some d := by
  obtain ⟨vs, g1, g2, g3⟩ := services_tree d.service h.services
  refine ⟨_, by simp only [DIDDoc.toJson, g1]; rfl, ?_, ?_⟩
  · simp only [Value.NumsOk, Value.NumsOkM, numsOkL_map_str, true_and, and_true]
    refine ⟨numsOkL_map _ _ fun v hv => ?_, g2⟩
    simp only [VerificationMethod.toJson, Value.NumsOk, numsOkM_append]
    exact ⟨by simp [Value.NumsOkM, Value.NumsOk], Material.numsOk (h.methods v hv).material⟩
  · unfold dDIDDoc
    rw [asStruct_tree _ _ _ (by decide) (by keys_utf8)]
    simp only [Option.bind_eq_bind, Option.bind_some]
    rw [reqField_tree (v := .str d.id) (by simp), dStr_tree h.id,
      reqField_tree (v := .arr (d.keyAgreement.map .str)) (by simp),
      dVec_tree (fun _ => dStr) .str _ d.keyAgreement (by decide) (fun a ha => dStr_tree (h.keyAgreement a ha)),
      reqField_tree (v := .arr (d.authentication.map .str)) (by simp),
      dVec_tree (fun _ => dStr) .str _ d.authentication (by decide) (fun a ha => dStr_tree (h.authentication a ha)),
      reqField_tree (v := .arr (d.verificationMethod.map VerificationMethod.toJson)) (by simp),
      dVec_tree (dVerificationMethod f64) VerificationMethod.toJson _ d.verificationMethod (by decide)
        (fun v hv => dVerificationMethod_tree v (h.methods v hv)),
      reqField_tree (v := .arr vs) (by simp)]
    have : dVec (dService f64) (depthLimit - 1) (Value.arr vs).tree = some d.service := by
      simp only [Value.tree, dVec]
      exact g3
    rw [this]
    rfl

/-! ## Options -/

theorem asStructFrom_tree (least : Nat) (names : List Str) (m : List (Str × Value)) (n : Nat) (hn : 1 < n) (h : KeysUtf8 m) :
    asStructFrom least names n (Value.obj m).tree = some (m.map fun p => (p.1, p.2.tree)) := by
  simp [Value.tree, asStructFrom, decKeys_tree m h]; omega

theorem dBool_tree (b : Bool) : dBool (Value.bool b).tree = some b := by simp [Value.tree, dBool]

theorem toHashMap_tree (n : Nat) (m acc : List (Str × Value)) (hw : Value.WFM f64 m) (hd : Value.depthM m < n)
    (hn : ((acc ++ m).map Prod.fst).Nodup) :
    toHashMap f64 n (m.map fun p => (p.1, p.2.tree)) acc = some (acc ++ m) := by
  induction m generalizing acc with
  | nil => simp [toHashMap]
  | cons p m ih =>
    obtain ⟨k, v⟩ := p
    simp only [Value.WFM] at hw
    simp only [Value.depthM] at hd
    have h2 : k ∉ acc.map Prod.fst := by
      simp only [List.map_append, List.map_cons] at hn
      intro hk
      exact (List.nodup_append.1 hn).2.2 k hk k (by simp) rfl
    have ih := ih (acc ++ [(k, v)]) hw.2.2 (by omega) (by simpa using hn)
    simp only [List.map_cons, toHashMap]
    rw [toValue_tree v n hw.2.1 (by omega)]
    simp only [Option.bind_eq_bind, Option.bind_some]
    rw [hmInsert_new k v acc h2, ih]
    simp

theorem dHeaders_tree (n : Nat) (hn : 1 < n) (m : List (Str × Value)) (h : HeadersWF f64 (n - 1) m) :
    dHeaders f64 n (Value.obj m).tree = some m := by
  unfold dHeaders
  rw [asMap_tree _ _ hn h.values.keys]
  simp only [Option.bind_eq_bind, Option.bind_some]
  rw [toHashMap_tree _ _ _ h.values h.depth (by simpa using h.nodup)]
  rfl

theorem defField_bool {m : List (Str × Value)} {name : Str} {o : Option Bool} {dflt : Bool} (h : named name m = (o.map Value.bool).toList) :
    defField (m.map fun p => (p.1, p.2.tree)) name dflt dBool = some (o.getD dflt) := by
  rw [defField_tree h]
  cases o with
  | none => rfl
  | some b => exact dBool_tree b

theorem intoSerde_print {α : Type} {d : Nat → Tree → Option α} {k : ErrorKind} {v : Value} (hv : v.NumsOk) :
    intoSerde k d v.print = match d depthLimit v.tree with | some a => .ok a | none => .error (.kind k) := by
  simp only [intoSerde, fromJson, parseJson_print v hv]
  cases d depthLimit v.tree <;> rfl

end DIDComm
