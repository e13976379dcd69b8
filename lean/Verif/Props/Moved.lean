import Verif.Spec.Moved
import Verif.Proofs.ReadingTypes
import Verif.Proofs.Typed
import Verif.Props.Json
import Verif.Spec.Toy

/-! # C54: extra headers that collide with an absent standard header -/

set_option autoImplicit false

namespace DIDComm

variable {f64 : Str → Option Str}

theorem field_insert_ne {pre post : List (Str × Tree)} {k : Str} {t : Tree} {name : Str} (h : name ≠ k) :
    field (pre ++ (k, t) :: post) name = field (pre ++ post) name := by
  unfold field
  simp only [List.filter_append, List.filter_cons]
  rw [if_neg (by simpa using fun e => h e.symm)]

theorem field_insert_eq {pre post : List (Str × Tree)} {k : Str} {t : Tree} (h : field (pre ++ post) k = some none) :
    field (pre ++ (k, t) :: post) k = some (some t) := by
  unfold field at h ⊢
  simp only [List.filter_append, List.filter_cons, beq_self_eq_true, if_true] at h ⊢
  cases h1 : pre.filter (fun p => p.1 == k) with
  | nil =>
    cases h2 : post.filter (fun p => p.1 == k) with
    | nil => rfl
    | cons a r => rw [h1, h2] at h; cases r <;> cases h
  | cons a r => 
    rw [h1] at h
    cases h3 : r ++ post.filter (fun p => p.1 == k) with
    | nil => rw [List.cons_append, h3] at h; cases h
    | cons b s => rw [List.cons_append, h3] at h; cases h

theorem dExtra_insert {n : Nat} {pre post : List (Str × Tree)} {k : Str} {t : Tree} (h : k ∈ reservedHeaders) (acc : List (Str × Value)) :
    dExtra f64 n (pre ++ (k, t) :: post) acc = dExtra f64 n (pre ++ post) acc := by
  induction pre generalizing acc with
  | nil => simp [dExtra, h]
  | cons p r ih =>
    obtain ⟨k', t'⟩ := p
    simp only [List.cons_append, dExtra]
    split
    · exact ih acc
    · cases toValue f64 n t' with
      | none => rfl
      | some v => simpa using ih _

/-- What a header means for a message, on contents. -/
def TakesTree (f64 : Str → Option Str) (k : Str) (t : Tree) (m m' : Message) : Prop :=
  (k = b!"from" ∧ ∃ x, dOpt dStr t = some x ∧ m' = { m with from_ := x }) ∨
  (k = b!"to" ∧ ∃ x, dOpt (dVec (fun _ => dStr) 127) t = some x ∧ m' = { m with to := x }) ∨
  (k = b!"thid" ∧ ∃ x, dOpt dStr t = some x ∧ m' = { m with thid := x }) ∨
  (k = b!"pthid" ∧ ∃ x, dOpt dStr t = some x ∧ m' = { m with pthid := x }) ∨
  (k = b!"created_time" ∧ ∃ x, dOpt dU64 t = some x ∧ m' = { m with createdTime := x }) ∨
  (k = b!"expires_time" ∧ ∃ x, dOpt dU64 t = some x ∧ m' = { m with expiresTime := x }) ∨
  (k = b!"from_prior" ∧ ∃ x, dOpt dStr t = some x ∧ m' = { m with fromPrior := x }) ∨
  (k = b!"attachments" ∧ ∃ x, dOpt (dVec (dAttachment f64) 127) t = some x ∧ m' = { m with attachments := x })

theorem reqField_insert_ne {α : Type} {pre post : List (Str × Tree)} {k : Str} {t : Tree} {name : Str} {d : Tree → Option α} (h : name ≠ k) :
    reqField (pre ++ (k, t) :: post) name d = reqField (pre ++ post) name d := by
  unfold reqField; rw [field_insert_ne h]

theorem optField_insert_ne {α : Type} {pre post : List (Str × Tree)} {k : Str} {t : Tree} {name : Str} {d : Tree → Option α} (h : name ≠ k) :
    optField (pre ++ (k, t) :: post) name d = optField (pre ++ post) name d := by
  unfold optField; rw [field_insert_ne h]

theorem optField_insert_eq {α : Type} {pre post : List (Str × Tree)} {k : Str} {t : Tree} {d : Tree → Option α}
    (h : field (pre ++ post) k = some none) : optField (pre ++ (k, t) :: post) k d = dOpt d t := by
  unfold optField; rw [field_insert_eq h]; rfl

theorem dMessage_insert {t0 t1 : Tree} {pre post : List (Str × Tree)} {k : Str} {t : Tree} {m : Message}
    (h0 : asMap 128 t0 = some (pre ++ post)) (h1 : asMap 128 t1 = some (pre ++ (k, t) :: post))
    (hm : dMessage f64 128 t0 = some m) (hk : field (pre ++ post) k = some none)
    (ho : k ∈ [b!"from", b!"to", b!"thid", b!"pthid", b!"created_time", b!"expires_time", b!"from_prior", b!"attachments"]) (m' : Message) :
    dMessage f64 128 t1 = some m' ↔ TakesTree f64 k t m m' := by
  unfold dMessage at hm ⊢
  have hr : k ∈ reservedHeaders := by
    simp only [List.mem_cons, List.not_mem_nil, or_false] at ho
    rcases ho with rfl | rfl | rfl | rfl | rfl | rfl | rfl | rfl <;> decide
  rw [h0] at hm
  rw [h1]
  simp only [Option.bind_eq_bind, Option.bind_some, Option.bind_eq_some_iff, Option.some.injEq] at hm
  obtain ⟨_, g1, _, g2, _, g3, _, g4, _, g5, _, g6, _, g7, _, g8, _, g9, _, g10, _, g11, _, g12, _, g13, _, g14, rfl⟩ := hm
  simp only [List.mem_cons, List.not_mem_nil, or_false] at ho
  rcases ho with rfl | rfl | rfl | rfl | rfl | rfl | rfl | rfl
  all_goals
    simp (disch := decide) only [reqField_insert_ne, optField_insert_ne, field_insert_ne, optField_insert_eq hk, dExtra_insert hr,
      Option.bind_eq_bind, Option.bind_some, Option.bind_eq_some_iff, Option.some.injEq, g1, g2, g3, g4, g5, g6, g7, g8, g9, g10, g11, g12, g13, g14]
    unfold TakesTree
    simp
    try exact ⟨fun ⟨x, h, e⟩ => ⟨x, h, e.symm⟩, fun ⟨x, h, e⟩ => ⟨x, h, e.symm⟩⟩

theorem tree_null {v : Value} : v.tree = .null ↔ v = .null := by
  cases v <;> simp [Value.tree]

theorem dOpt_tree {α : Type} {d : Tree → Option α} {v : Value} {x : Option α} :
    dOpt d v.tree = some x ↔ (v = .null ∧ x = none) ∨ (v ≠ .null ∧ ∃ y, x = some y ∧ d v.tree = some y) := by
  cases v with
  | null => simp [Value.tree, dOpt, eq_comm]
  | _ =>
    simp only [Value.tree, dOpt, Option.map_eq_some_iff, reduceCtorEq, false_and, ne_eq, not_false_eq_true, true_and, false_or]
    exact ⟨fun ⟨y, h, e⟩ => ⟨y, e.symm, h⟩, fun ⟨y, e, h⟩ => ⟨y, h, e.symm⟩⟩

theorem dStr_tree_iff {v : Value} (hv : v.WF f64) {s : Str} : dStr v.tree = some s ↔ v = .str s := by
  cases v with
  | str x =>
    have hx : validUtf8 x = true := by simpa [Value.WF] using hv
    rw [dStr_tree hx]; simp
  | _ => simp [Value.tree, dStr]

theorem dU64_tree_iff {v : Value} (hv : v.WF f64) {n : UInt64} : dU64 v.tree = some n ↔ v = .num (.pos n.toNat) := by
  constructor
  · intro h
    cases v with
    | num x =>
      cases x with
      | pos k =>
        have hk : k < 2 ^ 64 := by simpa [Value.WF, Num.WF] using hv
        simp only [Value.tree, numTok, Option.getD_some, dU64, digitsVal_decimal, hk, if_true, Option.some.injEq] at h
        subst h
        rw [UInt64.toNat_ofNat_of_lt' hk]
      | neg k => simp [Value.tree, numTok, dU64] at h
      | flt t =>
        have ht : (fltTok t).isSome := by
          have : (Num.flt t).WF f64 := by simpa [Value.WF] using hv
          exact this.1
        obtain ⟨⟨neg, ds, tail⟩, ht⟩ := Option.isSome_iff_exists.1 ht
        have hne : tail ≠ [] := (fltTok_text ht).2
        simp only [Value.tree, numTok, ht, Option.getD_some] at h
        unfold dU64 at h
        split at h
        · rename_i e; cases e; exact absurd rfl hne
        · cases h
    | _ => simp [Value.tree, dU64] at h
  · rintro rfl; exact dU64_tree n

theorem decAll_str_iff {l : List Value} (hl : Value.WFL f64 l) {ss : List Str} :
    decAll dStr (Value.trees l) = some ss ↔ l = ss.map .str := by
  induction l generalizing ss with
  | nil => cases ss <;> simp [Value.trees, decAll]
  | cons v r ih =>
    simp only [Value.WFL] at hl
    simp only [Value.trees, decAll, Option.bind_eq_bind, Option.bind_eq_some_iff, dStr_tree_iff hl.1, ih hl.2, Option.some.injEq]
    constructor
    · rintro ⟨s, rfl, ss', rfl, rfl⟩; rfl
    · intro h
      cases ss with
      | nil => cases h
      | cons s ss' => 
        simp only [List.map_cons, List.cons.injEq] at h
        exact ⟨s, h.1, ss', h.2, rfl⟩

theorem dVec_str_iff {v : Value} (hv : v.WF f64) {ss : List Str} : dVec (fun _ => dStr) 127 v.tree = some ss ↔ v = .arr (ss.map .str) := by
  cases v with
  | arr l =>
    have hl : Value.WFL f64 l := by simpa [Value.WF] using hv
    simp [Value.tree, dVec, decAll_str_iff hl]
  | _ => simp [Value.tree, dVec]

theorem takes_iff {m m' : Message} {k : Str} {v : Value} (hv : v.WF f64) (hp : k ∉ m.presentHeaders) :
    TakesTree f64 k v.tree m m' ↔ Takes f64 m k v m' := by
  have ht : JsonText v.tree v.print := (parseJson_iff _ _).1 (parseJson_print v hv.numsOk)
  have hl : ∀ l, dVec (dAttachment f64) 127 v.tree = some l ↔ IsList (IsAttachment f64) v.tree l :=
    fun l => decodes_list (show 1 < 127 by omega) decodes_attachment v.tree ht.ok l
  unfold TakesTree
  simp only [dOpt_tree, dStr_tree_iff hv, dU64_tree_iff hv, dVec_str_iff hv, hl]
  constructor
  · rintro (⟨rfl, x, (⟨rfl, rfl⟩ | ⟨-, y, rfl, h⟩), rfl⟩ | ⟨rfl, x, (⟨rfl, rfl⟩ | ⟨-, y, rfl, h⟩), rfl⟩ |
      ⟨rfl, x, (⟨rfl, rfl⟩ | ⟨-, y, rfl, h⟩), rfl⟩ | ⟨rfl, x, (⟨rfl, rfl⟩ | ⟨-, y, rfl, h⟩), rfl⟩ |
      ⟨rfl, x, (⟨rfl, rfl⟩ | ⟨-, y, rfl, h⟩), rfl⟩ | ⟨rfl, x, (⟨rfl, rfl⟩ | ⟨-, y, rfl, h⟩), rfl⟩ |
      ⟨rfl, x, (⟨rfl, rfl⟩ | ⟨-, y, rfl, h⟩), rfl⟩ | ⟨rfl, x, (⟨rfl, rfl⟩ | ⟨-, y, rfl, h⟩), rfl⟩)
    all_goals simp only [Message.presentHeaders, List.mem_append, not_or] at hp
    · have e : m.from_ = none := by have := hp.1.1.1.1.1.1.1.2; cases h : m.from_ <;> simp [h] at this ⊢
      rw [← e]; exact .null _ (by simp)
    · subst h; exact .from_ y
    · have e : m.to = none := by have := hp.1.1.1.1.1.1.2; cases h : m.to <;> simp [h] at this ⊢
      rw [← e]; exact .null _ (by simp)
    · subst h; exact .to y
    · have e : m.thid = none := by have := hp.1.1.1.1.1.2; cases h : m.thid <;> simp [h] at this ⊢
      rw [← e]; exact .null _ (by simp)
    · subst h; exact .thid y
    · have e : m.pthid = none := by have := hp.1.1.1.1.2; cases h : m.pthid <;> simp [h] at this ⊢
      rw [← e]; exact .null _ (by simp)
    · subst h; exact .pthid y
    · have e : m.createdTime = none := by have := hp.1.1.1.2; cases h : m.createdTime <;> simp [h] at this ⊢
      rw [← e]; exact .null _ (by simp)
    · subst h; exact .createdTime y
    · have e : m.expiresTime = none := by have := hp.1.1.2; cases h : m.expiresTime <;> simp [h] at this ⊢
      rw [← e]; exact .null _ (by simp)
    · subst h; exact .expiresTime y
    · have e : m.fromPrior = none := by have := hp.1.2; cases h : m.fromPrior <;> simp [h] at this ⊢
      rw [← e]; exact .null _ (by simp)
    · subst h; exact .fromPrior y
    · have e : m.attachments = none := by have := hp.2; cases h : m.attachments <;> simp [h] at this ⊢
      rw [← e]; exact .null _ (by simp)
    · exact .attachments v _ y ht h
  · intro h
    cases h with
    | null k h =>
      simp only [List.mem_cons, List.not_mem_nil, or_false] at h
      rcases h with rfl | rfl | rfl | rfl | rfl | rfl | rfl | rfl
      all_goals
        simp only [Message.presentHeaders, List.mem_append, not_or] at hp
      · have e : m.from_ = none := by have := hp.1.1.1.1.1.1.1.2; cases h : m.from_ <;> simp [h] at this ⊢
        exact .inl ⟨rfl, none, .inl ⟨rfl, rfl⟩, by rw [← e]⟩
      · have e : m.to = none := by have := hp.1.1.1.1.1.1.2; cases h : m.to <;> simp [h] at this ⊢
        exact .inr (.inl ⟨rfl, none, .inl ⟨rfl, rfl⟩, by rw [← e]⟩)
      · have e : m.thid = none := by have := hp.1.1.1.1.1.2; cases h : m.thid <;> simp [h] at this ⊢
        exact .inr (.inr (.inl ⟨rfl, none, .inl ⟨rfl, rfl⟩, by rw [← e]⟩))
      · have e : m.pthid = none := by have := hp.1.1.1.1.2; cases h : m.pthid <;> simp [h] at this ⊢
        exact .inr (.inr (.inr (.inl ⟨rfl, none, .inl ⟨rfl, rfl⟩, by rw [← e]⟩)))
      · have e : m.createdTime = none := by have := hp.1.1.1.2; cases h : m.createdTime <;> simp [h] at this ⊢
        exact .inr (.inr (.inr (.inr (.inl ⟨rfl, none, .inl ⟨rfl, rfl⟩, by rw [← e]⟩))))
      · have e : m.expiresTime = none := by have := hp.1.1.2; cases h : m.expiresTime <;> simp [h] at this ⊢
        exact .inr (.inr (.inr (.inr (.inr (.inl ⟨rfl, none, .inl ⟨rfl, rfl⟩, by rw [← e]⟩)))))
      · have e : m.fromPrior = none := by have := hp.1.2; cases h : m.fromPrior <;> simp [h] at this ⊢
        exact .inr (.inr (.inr (.inr (.inr (.inr (.inl ⟨rfl, none, .inl ⟨rfl, rfl⟩, by rw [← e]⟩))))))
      · have e : m.attachments = none := by have := hp.2; cases h : m.attachments <;> simp [h] at this ⊢
        exact .inr (.inr (.inr (.inr (.inr (.inr (.inr ⟨rfl, none, .inl ⟨rfl, rfl⟩, by rw [← e]⟩))))))
    | from_ s => exact .inl ⟨rfl, some s, .inr ⟨by simp, s, rfl, rfl⟩, rfl⟩
    | to l => exact .inr (.inl ⟨rfl, some l, .inr ⟨by simp, l, rfl, rfl⟩, rfl⟩)
    | thid s => exact .inr (.inr (.inl ⟨rfl, some s, .inr ⟨by simp, s, rfl, rfl⟩, rfl⟩))
    | pthid s => exact .inr (.inr (.inr (.inl ⟨rfl, some s, .inr ⟨by simp, s, rfl, rfl⟩, rfl⟩)))
    | createdTime n => exact .inr (.inr (.inr (.inr (.inl ⟨rfl, some n, .inr ⟨by simp, n, rfl, rfl⟩, rfl⟩))))
    | expiresTime n => exact .inr (.inr (.inr (.inr (.inr (.inl ⟨rfl, some n, .inr ⟨by simp, n, rfl, rfl⟩, rfl⟩)))))
    | fromPrior s => exact .inr (.inr (.inr (.inr (.inr (.inr (.inl ⟨rfl, some s, .inr ⟨by simp, s, rfl, rfl⟩, rfl⟩))))))
    | attachments v t l h hl' =>
      have e : t = v.tree := by
        have h1 := (parseJson_iff _ _).2 h
        rw [parseJson_print v hv.numsOk] at h1; cases h1; rfl
      subst e
      refine .inr (.inr (.inr (.inr (.inr (.inr (.inr ⟨rfl, some l, .inr ⟨?_, l, rfl, hl'⟩, rfl⟩))))))
      rintro rfl
      exact isList_null l hl'

/-- C54: an extra header with the name of a standard header that the message lacks: the value becomes that header, if it
has its form, and is dropped if it is `null`; otherwise the text is refused. -/
theorem C54_collision_moved (m : Message) (a b : List (Str × Value)) (k : Str) (v : Value) (hm : m.WF f64)
    (hab : m.extraHeaders = a ++ b) (hk : k ∈ reservedHeaders) (hp : k ∉ m.presentHeaders) (hv : v.WF f64) :
    (∀ m', fromJson (dMessage f64) (Message.toJson { m with extraHeaders := a ++ (k, v) :: b }).print = .ok m' ↔ Takes f64 m k v m') ∧
    ((∀ m', ¬ Takes f64 m k v m') →
      fromJson (dMessage f64) (Message.toJson { m with extraHeaders := a ++ (k, v) :: b }).print = .error (.kind .malformed)) := by
  let P := [(b!"id", .str m.id), (b!"typ", .str m.typ), (b!"type", .str m.type_), (b!"body", m.body)]
    ++ optMember b!"from" .str m.from_ ++ optMember b!"to" (fun l => .arr (l.map .str)) m.to
    ++ optMember b!"thid" .str m.thid ++ optMember b!"pthid" .str m.pthid
  let Q := optMember b!"created_time" u64Json m.createdTime ++ optMember b!"expires_time" u64Json m.expiresTime
    ++ optMember b!"from_prior" .str m.fromPrior
    ++ optMember b!"attachments" (fun l => .arr (l.map Attachment.toJson)) m.attachments
  have e0 : m.toJson = .obj ((P ++ a) ++ (b ++ Q)) := by
    simp only [Message.toJson, hab, P, Q, List.append_assoc]
  have e1 : Message.toJson { m with extraHeaders := a ++ (k, v) :: b } = .obj ((P ++ a) ++ (k, v) :: (b ++ Q)) := by
    simp only [Message.toJson, P, Q, List.append_assoc, List.cons_append]
  have hutf : validUtf8 k = true := by
    simp only [reservedHeaders, List.mem_cons, List.not_mem_nil, or_false] at hk
    rcases hk with rfl | rfl | rfl | rfl | rfl | rfl | rfl | rfl | rfl | rfl | rfl | rfl <;> decide
  have ho : k ∈ [b!"from", b!"to", b!"thid", b!"pthid", b!"created_time", b!"expires_time", b!"from_prior", b!"attachments"] := by
    simp only [reservedHeaders, List.mem_cons, List.not_mem_nil, or_false] at hk
    rcases hk with rfl | rfl | rfl | rfl | rfl | rfl | rfl | rfl | rfl | rfl | rfl | rfl
    all_goals first | (simp; done) | (exfalso; apply hp; simp [Message.presentHeaders]; done)
  have hkeys0 : KeysUtf8 ((P ++ a) ++ (b ++ Q)) := by
    have hx := hm.extra.keys
    have : KeysUtf8 (P ++ m.extraHeaders ++ Q) := by simp only [P, Q]; keys_utf8
    rw [hab] at this
    simpa only [List.append_assoc] using this
  have hkeys1 : KeysUtf8 ((P ++ a) ++ (k, v) :: (b ++ Q)) := by
    intro p hp
    simp only [List.mem_append, List.mem_cons] at hp
    rcases hp with hp | rfl | hp
    · exact hkeys0 p (List.mem_append.2 (.inl (List.mem_append.2 hp)))
    · exact hutf
    · exact hkeys0 p (List.mem_append.2 (.inr (List.mem_append.2 hp)))
  have hn0 := Message.numsOk hm
  have hn1 : (Value.obj ((P ++ a) ++ (k, v) :: (b ++ Q))).NumsOk := by
    rw [e0] at hn0
    simp only [Value.NumsOk, numsOkM_append, Value.NumsOkM] at hn0 ⊢
    exact ⟨hn0.1, hv.numsOk, hn0.2⟩
  have hm0 := dMessage_tree m hm
  have a0 := asMap_tree _ depthLimit (by decide) hkeys0
  have a1 := asMap_tree _ depthLimit (by decide) hkeys1
  rw [e0] at hm0
  rw [List.map_append] at a0 a1
  rw [List.map_cons] at a1
  have habsent : field (((P ++ a).map fun p => (p.1, p.2.tree)) ++ ((b ++ Q).map fun p => (p.1, p.2.tree))) k = some none := by
    rw [← List.map_append, field_tree]
    rw [named_of_not_mem]
    intro hmem
    simp only [List.map_append, List.mem_append] at hmem
    rcases hmem with (hmem | hmem) | (hmem | hmem)
    · refine hp ?_
      simp only [P, List.map_append, List.map_cons, List.map_nil, List.mem_append, Message.presentHeaders] at hmem ⊢
      rcases hmem with (((hmem | hmem) | hmem) | hmem) | hmem
      · simp [hmem]
      all_goals (obtain ⟨p, hp1, rfl⟩ := List.mem_map.1 hmem)
      · cases hx : m.from_ <;> rw [hx] at hp1 <;> simp [optMember] at hp1; simp [hp1]
      · cases hx : m.to <;> rw [hx] at hp1 <;> simp [optMember] at hp1; simp [hp1]
      · cases hx : m.thid <;> rw [hx] at hp1 <;> simp [optMember] at hp1; simp [hp1]
      · cases hx : m.pthid <;> rw [hx] at hp1 <;> simp [optMember] at hp1; simp [hp1]
    · exact hm.extraReserved k (by rw [hab, List.map_append]; exact List.mem_append.2 (.inl hmem)) hk
    · exact hm.extraReserved k (by rw [hab, List.map_append]; exact List.mem_append.2 (.inr hmem)) hk
    · refine hp ?_
      simp only [Q, List.map_append, List.mem_append, Message.presentHeaders] at hmem ⊢
      rcases hmem with ((hmem | hmem) | hmem) | hmem
      all_goals (obtain ⟨p, hp1, rfl⟩ := List.mem_map.1 hmem)
      · cases hx : m.createdTime <;> rw [hx] at hp1 <;> simp [optMember] at hp1; simp [hp1]
      · cases hx : m.expiresTime <;> rw [hx] at hp1 <;> simp [optMember] at hp1; simp [hp1]
      · cases hx : m.fromPrior <;> rw [hx] at hp1 <;> simp [optMember] at hp1; simp [hp1]
      · cases hx : m.attachments <;> rw [hx] at hp1 <;> simp [optMember] at hp1; simp [hp1]
  have key : ∀ m', dMessage f64 depthLimit (Value.obj ((P ++ a) ++ (k, v) :: (b ++ Q))).tree = some m' ↔ Takes f64 m k v m' :=
    fun m' => (dMessage_insert a0 a1 hm0 habsent ho m').trans (takes_iff hv hp)
  rw [e1]
  unfold fromJson
  rw [parseJson_print _ hn1]
  constructor
  · intro m'
    rw [← key m']
    exact okOr_eq_ok
  · intro h
    cases hd : dMessage f64 depthLimit (Value.obj ((P ++ a) ++ (k, v) :: (b ++ Q))).tree with
    | none => simp only [hd]; rfl
    | some m' => exact absurd ((key m').1 hd) (h m')

/-- The hypotheses can be met: the message of the examples has no `thid`, and an extra header of its own. -/
example : ∃ (m m' : Message) (v : Value), m.WF Toy.crypto.f64 ∧ m.extraHeaders ≠ [] ∧ b!"thid" ∈ reservedHeaders ∧
    b!"thid" ∉ m.presentHeaders ∧ v.WF Toy.crypto.f64 ∧ Takes Toy.crypto.f64 m b!"thid" v m' ∧ m'.thid = some b!"t" ∧
    ∀ m'', ¬ Takes Toy.crypto.f64 m b!"thid" (.bool true) m'' := by
  refine ⟨{ id := b!"1", type_ := b!"t", body := .obj [(b!"k", .str b!"v")], extraHeaders := [(b!"x-h", .bool true)] }, _, .str b!"t",
    ?_, by simp, by decide, by decide, ?_, .thid b!"t", rfl, ?_⟩
  · constructor <;> simp [OptUtf8, Value.WF, Value.WFM, SortedKeys, Value.depth, Value.depthM] <;> decide
  · simp [Value.WF]; decide
  · intro m'' h; cases h

end DIDComm
