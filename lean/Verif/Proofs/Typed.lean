import Verif.Proofs.JsonDecode

/-! # Typed decoding inverts derived serialisation -/

set_option autoImplicit false

namespace DIDComm

variable {f64 : Str → Option Str}

theorem Value.WFM.keys {m : List (Str × Value)} (h : Value.WFM f64 m) : KeysUtf8 m := by
  induction m with
  | nil => intro p hp; cases hp
  | cons p m ih =>
    obtain ⟨k, v⟩ := p
    simp only [Value.WFM] at h
    intro q hq
    rcases List.mem_cons.1 hq with rfl | hq
    · exact h.1
    · exact ih h.2.2 q hq

theorem keysUtf8_append {a b : List (Str × Value)} (ha : KeysUtf8 a) (hb : KeysUtf8 b) : KeysUtf8 (a ++ b) := by
  intro p hp
  rcases List.mem_append.1 hp with h | h
  · exact ha p h
  · exact hb p h

theorem keysUtf8_cons {k : Str} {v : Value} {b : List (Str × Value)} (hk : validUtf8 k = true) (hb : KeysUtf8 b) :
    KeysUtf8 ((k, v) :: b) := by
  intro p hp
  rcases List.mem_cons.1 hp with rfl | h
  · exact hk
  · exact hb p h

theorem keysUtf8_nil : KeysUtf8 [] := by intro p hp; cases hp

theorem keysUtf8_opt {α : Type} {k : Str} {f : α → Value} {o : Option α} (hk : validUtf8 k = true) :
    KeysUtf8 (optMember k f o) := by
  cases o with
  | none => exact keysUtf8_nil
  | some a => exact keysUtf8_cons hk keysUtf8_nil

/-- Solve `KeysUtf8` of a literal member list. -/
macro "keys_utf8" : tactic =>
  `(tactic| repeat' (first
    | apply keysUtf8_append
    | apply keysUtf8_cons
    | exact keysUtf8_nil
    | apply keysUtf8_opt
    | decide
    | assumption))

/-! ## FromPrior -/

theorem dFromPrior_tree (f : FromPrior) (h : f.WF) (n : Nat) (hn : 1 < n) :
    dFromPrior n f.toJson.tree = some f := by
  unfold dFromPrior FromPrior.toJson
  rw [asStruct_tree _ _ _ hn (by keys_utf8)]
  simp only [Option.bind_eq_bind, Option.bind_some]
  rw [reqField_tree (v := .str f.iss) (by simp), dStr_tree h.iss,
    reqField_tree (v := .str f.sub) (by simp), dStr_tree h.sub,
    optField_str (o := f.aud) h.aud (by simp),
    optField_u64 (o := f.exp) (by simp), optField_u64 (o := f.nbf) (by simp),
    optField_u64 (o := f.iat) (by simp), optField_str (o := f.jti) h.jti (by simp)]
  rfl

theorem fromJson_print {α : Type} {d : Nat → Tree → Option α} {_ : Early d} {v : Value} (hv : v.NumsOk) {a : α}
    (h : d depthLimit v.tree = some a) : fromJson d v.print = .ok a := by
  simp [fromJson, parseJson_print v hv, h]

theorem numsOk_optStr (k : Str) (o : Option Str) : Value.NumsOkM (optMember k .str o) := by
  cases o <;> simp [optMember, Value.NumsOkM, Value.NumsOk]

theorem numsOk_optU64 (k : Str) (o : Option UInt64) : Value.NumsOkM (optMember k u64Json o) := by
  cases o <;> simp [optMember, Value.NumsOkM, Value.NumsOk, u64Json, Num.Ok, numTok]

theorem numsOkM_append {a b : List (Str × Value)} :
    Value.NumsOkM (a ++ b) ↔ Value.NumsOkM a ∧ Value.NumsOkM b := by
  induction a with
  | nil => simp [Value.NumsOkM]
  | cons p a ih => obtain ⟨k, v⟩ := p; simp [Value.NumsOkM, ih, and_assoc]

theorem numsOkL_map_str (l : List Str) : Value.NumsOkL (l.map .str) := by
  induction l with
  | nil => simp [Value.NumsOkL]
  | cons a l ih => simp [Value.NumsOkL, Value.NumsOk, ih]

theorem numsOkL_map {α : Type} (f : α → Value) (l : List α) (h : ∀ a ∈ l, (f a).NumsOk) :
    Value.NumsOkL (l.map f) := by
  induction l with
  | nil => simp [Value.NumsOkL]
  | cons a l ih => 
    simp only [List.map_cons, Value.NumsOkL]
    exact ⟨h a (by simp), ih (fun a ha => h a (by simp [ha]))⟩

theorem FromPrior.numsOk (f : FromPrior) : f.toJson.NumsOk := by
  simp only [FromPrior.toJson, Value.NumsOk, numsOkM_append]
  simp [Value.NumsOkM, Value.NumsOk, numsOk_optStr, numsOk_optU64]

/-- A `FromPrior` survives serialisation. -/
theorem fromPrior_print (f : FromPrior) (h : f.WF) : fromJson dFromPrior f.toJson.print = .ok f :=
  fromJson_print f.numsOk (dFromPrior_tree f h _ (by decide))

/-! ## Attachments -/

theorem toMembers_isSome (m : List (Str × Value)) (n : Nat) (hk : KeysUtf8 m)
    (h : ∀ p ∈ m, (toValue f64 n p.2.tree).isSome) (acc : List (Str × Value)) :
    (toMembers f64 n (Value.treeMembers m) acc).isSome := by
  induction m generalizing acc with
  | nil => simp [Value.treeMembers, toMembers]
  | cons p m ih =>
    obtain ⟨k, v⟩ := p
    have h1 : validUtf8 k = true := hk (k, v) (by simp)
    have h2 := h (k, v) (by simp)
    obtain ⟨w, h2⟩ := Option.isSome_iff_exists.1 h2
    simp only at h2
    simp [Value.treeMembers, toMembers, strTokOf_val h1, h2]
    exact ih (fun p hp => hk p (by simp [hp])) (fun p hp => h p (by simp [hp])) _

theorem toValue_obj_isSome (m : List (Str × Value)) (n : Nat) (hn : 1 < n) (hk : KeysUtf8 m)
    (h : ∀ p ∈ m, (toValue f64 (n - 1) p.2.tree).isSome) : ∃ v, toValue f64 n (Value.obj m).tree = some v := by
  have := toMembers_isSome m (n - 1) hk h []
  obtain ⟨w, h2⟩ := Option.isSome_iff_exists.1 this
  have hn' : ¬ n ≤ 1 := by omega
  simp [Value.tree, toValue, h2, hn']

theorem toValue_str_isSome {s : Str} (h : validUtf8 s = true) (n : Nat) :
    (toValue f64 n (Value.str s).tree).isSome := by
  simp [Value.tree, toValue, strTokOf_val h]

theorem wfl_map_str {l : List Str} (h : AllUtf8 l) : Value.WFL f64 (l.map .str) := by
  induction l with
  | nil => simp [Value.WFL]
  | cons a l ih =>
    simp only [List.map_cons, Value.WFL, Value.WF]
    exact ⟨h a (by simp), ih (fun a ha => h a (by simp [ha]))⟩

theorem depthL_map_str (l : List Str) : Value.depthL (l.map .str) = 0 := by
  induction l with
  | nil => simp [Value.depthL]
  | cons a l ih => simp [Value.depthL, Value.depth, ih]

theorem toValue_arr_str_isSome {l : List Str} (h : AllUtf8 l) (n : Nat) (hn : 1 < n) :
    (toValue f64 n (Value.arr (l.map .str)).tree).isSome := by
  rw [toValue_tree (.arr (l.map .str)) n (by simp only [Value.WF]; exact wfl_map_str h)
    (by simp only [Value.depth, depthL_map_str]; omega)]
  rfl

theorem dAttachmentData_tree (d : AttachmentData) (h : d.WF f64) (n : Nat) (hn : 124 < n) :
    dAttachmentData f64 n d.toJson.tree = some d := by
  unfold dAttachmentData
  cases d with
  | base64 b jws =>
    obtain ⟨hb, hj⟩ := h
    unfold AttachmentData.toJson
    obtain ⟨w, hw⟩ := toValue_obj_isSome (f64 := f64) ([(b!"base64", Value.str b)] ++ optMember b!"jws" .str jws) n
      (by omega) (by keys_utf8) (by
        intro p hp
        cases jws with
        | none => simp [optMember] at hp; subst hp; exact toValue_str_isSome hb _
        | some j =>
          simp [optMember] at hp
          rcases hp with rfl | rfl
          · exact toValue_str_isSome hb _
          · exact toValue_str_isSome (hj j rfl) _)
    rw [hw, asMap_tree _ _ (by omega) (by keys_utf8)]
    simp only [Option.bind_eq_bind, Option.bind_some, dDataBase64]
    rw [reqField_tree (v := .str b) (by simp), dStr_tree hb, optField_str (o := jws) hj (by simp)]
    rfl
  | json j jws =>
    obtain ⟨hv, hd, hj⟩ := h
    unfold AttachmentData.toJson
    have htv : toValue f64 (n - 1) j.tree = some j := toValue_tree j _ hv (by omega)
    obtain ⟨w, hw⟩ := toValue_obj_isSome (f64 := f64) ([(b!"json", j)] ++ optMember b!"jws" .str jws) n
      (by omega) (by keys_utf8) (by
        intro p hp
        cases jws with
        | none => simp [optMember] at hp; subst hp; simp [htv]
        | some x =>
          simp [optMember] at hp
          rcases hp with rfl | rfl
          · simp [htv]
          · exact toValue_str_isSome (hj x rfl) _)
    rw [hw, asMap_tree _ _ (by omega) (by keys_utf8)]
    simp only [Option.bind_eq_bind, Option.bind_some]
    have h1 : dDataBase64 (([(b!"json", j)] ++ optMember b!"jws" .str jws).map fun p => (p.1, p.2.tree)) = none := by
      simp only [dDataBase64, reqField, field_tree]
      simp
    have h2 : dDataJson f64 (n - 1) (([(b!"json", j)] ++ optMember b!"jws" .str jws).map fun p => (p.1, p.2.tree))
        = some (.json j jws) := by
      simp only [dDataJson]
      rw [reqField_tree (v := j) (by simp), htv, optField_str (o := jws) hj (by simp)]
      rfl
    rw [h1, h2]
  | links l hash jws =>
    obtain ⟨hl, hh, hj⟩ := h
    unfold AttachmentData.toJson
    obtain ⟨w, hw⟩ := toValue_obj_isSome (f64 := f64) ([(b!"links", Value.arr (l.map .str)), (b!"hash", .str hash)] ++ optMember b!"jws" .str jws) n
      (by omega) (by keys_utf8) (by
        intro p hp
        cases jws with
        | none =>
          simp [optMember] at hp
          rcases hp with rfl | rfl
          · exact toValue_arr_str_isSome hl _ (by omega)
          · exact toValue_str_isSome hh _
        | some x =>
          simp [optMember] at hp
          rcases hp with rfl | rfl | rfl
          · exact toValue_arr_str_isSome hl _ (by omega)
          · exact toValue_str_isSome hh _
          · exact toValue_str_isSome (hj x rfl) _)
    rw [hw, asMap_tree _ _ (by omega) (by keys_utf8)]
    simp only [Option.bind_eq_bind, Option.bind_some]
    have h1 : dDataBase64 (([(b!"links", Value.arr (l.map .str)), (b!"hash", .str hash)] ++ optMember b!"jws" .str jws).map fun p => (p.1, p.2.tree)) = none := by
      simp only [dDataBase64, reqField, field_tree]
      simp
    have h2 : dDataJson f64 (n - 1) (([(b!"links", Value.arr (l.map .str)), (b!"hash", .str hash)] ++ optMember b!"jws" .str jws).map fun p => (p.1, p.2.tree)) = none := by
      simp only [dDataJson, reqField, field_tree]
      simp
    rw [h1, h2]
    simp only [dDataLinks]
    rw [reqField_tree (v := .arr (l.map .str)) (by simp),
      dVec_tree (fun _ => dStr) .str (n - 1) l (by omega) (fun a ha => dStr_tree (hl a ha)),
      reqField_tree (v := .str hash) (by simp), dStr_tree hh, optField_str (o := jws) hj (by simp)]
    rfl

theorem dAttachment_tree (a : Attachment) (h : a.WF f64) (n : Nat) (hn : 125 < n) :
    dAttachment f64 n a.toJson.tree = some a := by
  unfold dAttachment Attachment.toJson
  rw [asStruct_tree _ _ _ (by omega) (by keys_utf8)]
  simp only [Option.bind_eq_bind, Option.bind_some]
  rw [reqField_tree (v := a.data.toJson) (by simp), dAttachmentData_tree a.data h.data _ (by omega),
    optField_str (o := a.id) h.id (by simp), optField_str (o := a.description) h.description (by simp),
    optField_str (o := a.filename) h.filename (by simp), optField_str (o := a.mediaType) h.mediaType (by simp),
    optField_str (o := a.format) h.format (by simp),
    optField_u64 (o := a.lastmodTime) (by simp), optField_u64 (o := a.byteCount) (by simp)]
  rfl

theorem AttachmentData.numsOk {d : AttachmentData} (h : d.WF f64) : d.toJson.NumsOk := by
  cases d with
  | base64 b jws =>
    simp only [AttachmentData.toJson, Value.NumsOk, numsOkM_append]
    simp [Value.NumsOkM, Value.NumsOk, numsOk_optStr]
  | json j jws =>
    simp only [AttachmentData.toJson, Value.NumsOk, numsOkM_append]
    simp [Value.NumsOkM, numsOk_optStr, h.1.numsOk]
  | links l hash jws =>
    simp only [AttachmentData.toJson, Value.NumsOk, numsOkM_append]
    simp [Value.NumsOkM, Value.NumsOk, numsOk_optStr, numsOkL_map_str]

theorem Attachment.numsOk {a : Attachment} (h : a.WF f64) : a.toJson.NumsOk := by
  simp only [Attachment.toJson, Value.NumsOk, numsOkM_append]
  simp [Value.NumsOkM, numsOk_optStr, numsOk_optU64, AttachmentData.numsOk h.data]

/-! ## Messages -/

theorem dExtra_append (n : Nat) (a b : List (Str × Tree)) (acc : List (Str × Value)) :
    dExtra f64 n (a ++ b) acc = (dExtra f64 n a acc).bind (dExtra f64 n b) := by
  induction a generalizing acc with
  | nil => simp [dExtra]
  | cons p a ih =>
    obtain ⟨k, t⟩ := p
    simp only [List.cons_append, dExtra]
    split
    · exact ih acc
    · cases toValue f64 n t with
      | none => simp
      | some v => simp [ih]

theorem dExtra_reserved (n : Nat) (a : List (Str × Tree)) (acc : List (Str × Value))
    (h : ∀ p ∈ a, p.1 ∈ reservedHeaders) : dExtra f64 n a acc = some acc := by
  induction a generalizing acc with
  | nil => simp [dExtra]
  | cons p a ih =>
    obtain ⟨k, t⟩ := p
    have h1 : k ∈ reservedHeaders := h (k, t) (by simp)
    simp only [dExtra, List.contains_iff_mem, h1, if_true]
    exact ih acc (fun p hp => h p (by simp [hp]))

theorem hmInsert_new {α : Type} (k : Str) (v : α) (m : List (Str × α)) (h : k ∉ m.map Prod.fst) :
    hmInsert k v m = m ++ [(k, v)] := by
  induction m with
  | nil => rfl
  | cons p m ih =>
    obtain ⟨k', v'⟩ := p
    simp only [List.map_cons, List.mem_cons, not_or] at h
    simp [hmInsert, h.1, ih h.2]

theorem dExtra_extras (n : Nat) (m acc : List (Str × Value)) (hw : Value.WFM f64 m) (hd : Value.depthM m < n)
    (hr : ∀ k ∈ m.map Prod.fst, k ∉ reservedHeaders) (hn : ((acc ++ m).map Prod.fst).Nodup) :
    dExtra f64 n (m.map fun p => (p.1, p.2.tree)) acc = some (acc ++ m) := by
  induction m generalizing acc with
  | nil => simp [dExtra]
  | cons p m ih =>
    obtain ⟨k, v⟩ := p
    simp only [Value.WFM] at hw
    simp only [Value.depthM] at hd
    have h1 : k ∉ reservedHeaders := hr k (by simp)
    have h2 : k ∉ acc.map Prod.fst := by
      simp only [List.map_append, List.map_cons] at hn
      intro hk
      exact (List.nodup_append.1 hn).2.2 k hk k (by simp) rfl
    have ih := ih (acc ++ [(k, v)]) hw.2.2 (by omega) (fun k hk => hr k (by
      simp only [List.map_cons, List.mem_cons]; exact .inr hk)) (by simpa using hn)
    simp only [List.map_cons, dExtra, List.contains_iff_mem, h1, if_false]
    rw [toValue_tree v n hw.2.1 (by omega)]
    simp only [Option.bind_eq_bind, Option.bind_some]
    rw [hmInsert_new k v acc h2, ih]
    simp

theorem optMember_keys {α : Type} {k : Str} {f : α → Value} {o : Option α} {p : Str × Tree}
    (h : p ∈ (optMember k f o).map fun p => (p.1, p.2.tree)) : p.1 = k := by
  cases o with
  | none => cases h
  | some a => simp [optMember] at h; rw [h]

theorem Message.named_extra {m : Message} (h : m.WF f64) {name : Str} (hn : name ∈ reservedHeaders) :
    named name m.extraHeaders = [] :=
  named_of_not_mem fun hm => h.extraReserved name hm hn

theorem dMessage_tree (m : Message) (h : m.WF f64) : dMessage f64 depthLimit m.toJson.tree = some m := by
  have hx := h.extra.keys
  unfold dMessage Message.toJson
  rw [asMap_tree _ _ (by decide) (by keys_utf8)]
  simp only [Option.bind_eq_bind, Option.bind_some]
  have hf : field (([(b!"id", .str m.id), (b!"typ", .str m.typ), (b!"type", .str m.type_), (b!"body", m.body)]
    ++ optMember b!"from" .str m.from_ ++ optMember b!"to" (fun l => .arr (l.map .str)) m.to
    ++ optMember b!"thid" .str m.thid ++ optMember b!"pthid" .str m.pthid
    ++ m.extraHeaders
    ++ optMember b!"created_time" u64Json m.createdTime
    ++ optMember b!"expires_time" u64Json m.expiresTime
    ++ optMember b!"from_prior" .str m.fromPrior
    ++ optMember b!"attachments" (fun l => .arr (l.map Attachment.toJson)) m.attachments).map fun p => (p.1, p.2.tree))
      b!"typ" = some (some (Value.str m.typ).tree) := by
    rw [field_tree]
    simp [Message.named_extra h (name := b!"typ") (by decide)]
  have he : dExtra f64 (depthLimit - 1) (([(b!"id", .str m.id), (b!"typ", .str m.typ), (b!"type", .str m.type_), (b!"body", m.body)]
    ++ optMember b!"from" .str m.from_ ++ optMember b!"to" (fun l => .arr (l.map .str)) m.to
    ++ optMember b!"thid" .str m.thid ++ optMember b!"pthid" .str m.pthid
    ++ m.extraHeaders
    ++ optMember b!"created_time" u64Json m.createdTime
    ++ optMember b!"expires_time" u64Json m.expiresTime
    ++ optMember b!"from_prior" .str m.fromPrior
    ++ optMember b!"attachments" (fun l => .arr (l.map Attachment.toJson)) m.attachments).map fun p => (p.1, p.2.tree)) []
      = some m.extraHeaders := by
    simp only [List.map_append, dExtra_append]
    rw [dExtra_reserved _ _ _ (by
      intro p hp
      simp only [List.map_cons, List.map_nil, List.mem_cons, List.not_mem_nil, or_false] at hp
      rcases hp with rfl | rfl | rfl | rfl <;> (simp only; decide))]
    simp only [Option.bind_some]
    rw [dExtra_reserved _ _ _ (fun p hp => by rw [optMember_keys hp]; decide)]
    simp only [Option.bind_some]
    rw [dExtra_reserved _ _ _ (fun p hp => by rw [optMember_keys hp]; decide)]
    simp only [Option.bind_some]
    rw [dExtra_reserved _ _ _ (fun p hp => by rw [optMember_keys hp]; decide)]
    simp only [Option.bind_some]
    rw [dExtra_reserved _ _ _ (fun p hp => by rw [optMember_keys hp]; decide)]
    simp only [Option.bind_some]
    rw [dExtra_extras (depthLimit - 1) _ _ h.extra h.extraDepth h.extraReserved (by simpa using h.extraNodup)]
    simp only [Option.bind_some, List.nil_append]
    rw [dExtra_reserved _ _ _ (fun p hp => by rw [optMember_keys hp]; decide)]
    simp only [Option.bind_some]
    rw [dExtra_reserved _ _ _ (fun p hp => by rw [optMember_keys hp]; decide)]
    simp only [Option.bind_some]
    rw [dExtra_reserved _ _ _ (fun p hp => by rw [optMember_keys hp]; decide)]
    simp only [Option.bind_some]
    rw [dExtra_reserved _ _ _ (fun p hp => by rw [optMember_keys hp]; decide)]
  rw [hf, he]
  rw [reqField_tree (v := .str m.id) (by simp [Message.named_extra h (name := b!"id") (by decide)]), dStr_tree h.id,
    reqField_tree (v := .str m.type_) (by simp [Message.named_extra h (name := b!"type") (by decide)]), dStr_tree h.type_,
    reqField_tree (v := m.body) (by simp [Message.named_extra h (name := b!"body") (by decide)]),
    toValue_tree m.body (depthLimit - 1) h.body h.bodyDepth,
    optField_str (o := m.from_) h.from_ (by simp [Message.named_extra h (name := b!"from") (by decide)]),
    optField_vec (o := m.to) (fun _ => dStr) .str (depthLimit - 1) (by decide) (fun l hl a ha => dStr_tree (h.to l hl a ha))
      (by simp [Message.named_extra h (name := b!"to") (by decide)]),
    optField_str (o := m.thid) h.thid (by simp [Message.named_extra h (name := b!"thid") (by decide)]),
    optField_str (o := m.pthid) h.pthid (by simp [Message.named_extra h (name := b!"pthid") (by decide)]),
    optField_u64 (o := m.createdTime) (by simp [Message.named_extra h (name := b!"created_time") (by decide)]),
    optField_u64 (o := m.expiresTime) (by simp [Message.named_extra h (name := b!"expires_time") (by decide)]),
    optField_str (o := m.fromPrior) h.fromPrior (by simp [Message.named_extra h (name := b!"from_prior") (by decide)]),
    optField_vec (o := m.attachments) (dAttachment f64) Attachment.toJson (depthLimit - 1) (by decide)
      (fun l hl a ha => dAttachment_tree a (h.attachments l hl a ha) _ (by decide))
      (by simp [Message.named_extra h (name := b!"attachments") (by decide)])]
  simp only [Option.bind_some, dTyp, dStr_tree h.typ]

theorem Message.numsOk {m : Message} (h : m.WF f64) : m.toJson.NumsOk := by
  have h1 : Value.NumsOkM (optMember b!"to" (fun l => Value.arr (l.map .str)) m.to) := by
    cases m.to <;> simp [optMember, Value.NumsOkM, Value.NumsOk, numsOkL_map_str]
  have h2 : Value.NumsOkM (optMember b!"attachments" (fun l => Value.arr (l.map Attachment.toJson)) m.attachments) := by
    cases ha : m.attachments with
    | none => simp [optMember, Value.NumsOkM]
    | some l =>
      simp only [optMember, Value.NumsOkM, Value.NumsOk, and_true]
      exact numsOkL_map _ _ (fun a hx => Attachment.numsOk (h.attachments l ha a hx))
  simp only [Message.toJson, Value.NumsOk, numsOkM_append]
  simp [Value.NumsOkM, Value.NumsOk, numsOk_optStr, numsOk_optU64, h.body.numsOk, h.extra.numsOk, h1, h2]

/-- An ordinary message survives serialisation. -/
theorem message_print (m : Message) (h : m.WF f64) : fromJson (dMessage f64) m.toJson.print = .ok m :=
  fromJson_print (Message.numsOk h) (dMessage_tree m h)

end DIDComm
