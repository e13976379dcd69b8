import Verif.Proofs.Typed
import Verif.Model.Unpack

/-! # C54, C56: JSON and the extra headers of a message -/

set_option autoImplicit false

namespace DIDComm

variable {f64 : Str → Option Str}

/-! ## C56 -/

/-- C56: an ordinary JSON value with at most 127 levels survives serialisation. -/
theorem C56_round_trip (v : Value) (h : v.WF f64) (hd : v.depth ≤ 127) : fromJson (toValue f64) v.print = .ok v :=
  fromJson_print h.numsOk (toValue_tree v depthLimit h (by unfold depthLimit; omega))

mutual
theorem toValue_deep : ∀ (v : Value) (n : Nat), 1 ≤ n → n ≤ v.depth → toValue f64 n v.tree = none
  | .null, n, hn, h => by simp [Value.depth] at h; omega
  | .bool b, n, hn, h => by simp [Value.depth] at h; omega
  | .num k, n, hn, h => by simp [Value.depth] at h; omega
  | .str s, n, hn, h => by simp [Value.depth] at h; omega
  | .arr l, n, hn, h => by
    simp only [Value.depth] at h
    simp only [Value.tree, toValue]
    split
    · rfl
    · rw [toValues_deep l (n - 1) (by omega) (by omega)]; rfl
  | .obj m, n, hn, h => by
    simp only [Value.depth] at h
    simp only [Value.tree, toValue]
    split
    · rfl
    · rw [toMembers_deep m (n - 1) [] (by omega) (by omega)]; rfl
theorem toValues_deep : ∀ (l : List Value) (n : Nat), 1 ≤ n → n ≤ Value.depthL l →
    toValues f64 n (Value.trees l) = none
  | [], n, hn, h => by simp [Value.depthL] at h; omega
  | v :: l, n, hn, h => by
    simp only [Value.depthL] at h
    simp only [Value.trees, toValues, Option.bind_eq_bind]
    by_cases hv : n ≤ v.depth
    · rw [toValue_deep v n hn hv]; rfl
    · rw [toValues_deep l n hn (by omega)]; simp
theorem toMembers_deep : ∀ (m : List (Str × Value)) (n : Nat) (acc : List (Str × Value)), 1 ≤ n →
    n ≤ Value.depthM m → toMembers f64 n (Value.treeMembers m) acc = none
  | [], n, acc, hn, h => by simp [Value.depthM] at h; omega
  | (k, v) :: m, n, acc, hn, h => by
    simp only [Value.depthM] at h
    simp only [Value.treeMembers, toMembers, Option.bind_eq_bind]
    by_cases hv : n ≤ v.depth
    · rw [toValue_deep v n hn hv]; simp
    · have : ∀ acc, toMembers f64 n (Value.treeMembers m) acc = none :=
        fun acc => toMembers_deep m n acc hn (by omega)
      simp [this]
end

/-- C56: a deeper value is printed all the same, but its text is rejected. -/
theorem C56_too_deep (v : Value) (h : v.WF f64) (hd : 128 ≤ v.depth) :
    fromJson (toValue f64) v.print = .error (.kind .malformed) := by
  simp [fromJson, parseJson_print v h.numsOk, toValue_deep v depthLimit (by decide) hd, okOr]

/-- C56: the serialisation of a message whose body has more than 126 levels is rejected
when it is read back. -/
theorem C56_deep_body (m : Message) (hb : m.body.WF f64) (hx : Value.WFM f64 m.extraHeaders)
    (ha : ∀ l, m.attachments = some l → ∀ a ∈ l, a.WF f64) (hd : 127 ≤ m.body.depth)
    (hr : ∀ k ∈ m.extraHeaders.map Prod.fst, k ∉ reservedHeaders) :
    fromJson (dMessage f64) m.toJson.print = .error (.kind .malformed) := by
  have h2 : Value.NumsOkM (optMember b!"attachments" (fun l => Value.arr (l.map Attachment.toJson)) m.attachments) := by
    cases h : m.attachments with
    | none => simp [optMember, Value.NumsOkM]
    | some l =>
      simp only [optMember, Value.NumsOkM, Value.NumsOk, and_true]
      exact numsOkL_map _ _ (fun a hx => Attachment.numsOk (ha l h a hx))
  have h1 : Value.NumsOkM (optMember b!"to" (fun l => Value.arr (l.map .str)) m.to) := by
    cases m.to <;> simp [optMember, Value.NumsOkM, Value.NumsOk, numsOkL_map_str]
  have hn : m.toJson.NumsOk := by
    simp only [Message.toJson, Value.NumsOk, numsOkM_append]
    simp [Value.NumsOkM, Value.NumsOk, numsOk_optStr, numsOk_optU64, hb.numsOk, hx.numsOk, h1, h2]
  have hb2 : named b!"body" m.extraHeaders = [] := named_of_not_mem fun hm => hr _ hm (by decide)
  have hk := hx.keys
  simp only [fromJson, parseJson_print _ hn]
  have : dMessage f64 depthLimit m.toJson.tree = none := by
    unfold dMessage Message.toJson
    rw [asMap_tree _ _ (by decide) (by keys_utf8)]
    simp only [Option.bind_eq_bind, Option.bind_some]
    rw [reqField_tree (name := b!"body") (v := m.body) (by simp [hb2]),
      toValue_deep m.body (depthLimit - 1) (by decide) hd]
    simp
  rw [this]; rfl

/-- A value with as many levels as wanted. -/
def nested : Nat → Value
  | 0 => .null
  | n + 1 => .arr [nested n]

theorem nested_wf (n : Nat) : (nested n).WF f64 := by
  induction n with
  | zero => simp [nested, Value.WF]
  | succ n ih => simp [nested, Value.WF, Value.WFL, ih]

theorem nested_depth (n : Nat) : (nested n).depth = n := by
  induction n with
  | zero => simp [nested, Value.depth]
  | succ n ih => simp [nested, Value.depth, Value.depthL, ih]

/-- The limit is sharp: 127 levels are read back, 128 are not. -/
example : fromJson (toValue f64) (nested 127).print = .ok (nested 127) ∧
    fromJson (toValue f64) (nested 128).print = .error (.kind .malformed) :=
  ⟨C56_round_trip _ (nested_wf _) (by rw [nested_depth]; omega),
   C56_too_deep _ (nested_wf _) (by rw [nested_depth]; omega)⟩
/-- A value with all kinds of content meets the hypotheses. -/
example : (Value.obj [(b!"a", .arr [.num (.neg 5), .num (.flt b!"1.5"), .str b!"\"é\n"]), (b!"b", .null)]).WF some ∧
    (Value.obj [(b!"a", .arr [.num (.neg 5), .num (.flt b!"1.5"), .str b!"\"é\n"]), (b!"b", .null)]).depth = 2 := by
  refine ⟨?_, by decide⟩
  simp only [Value.WF, Value.WFL, Value.WFM, SortedKeys, Num.WF, List.pairwise_cons, strLt]
  decide

/-! ## C54 -/

/-- C54: when no extra header has the name of a standard header, message and headers are
preserved. -/
theorem C54_preserved (m : Message) (h : m.WF f64) : fromJson (dMessage f64) m.toJson.print = .ok m :=
  message_print m h

theorem keys_hmInsert' {α : Type} (k : Str) (v : α) (m : List (Str × α)) :
    ∀ x ∈ (hmInsert k v m).map Prod.fst, x = k ∨ x ∈ m.map Prod.fst := by
  induction m with
  | nil => simp [hmInsert]
  | cons p r ih =>
    obtain ⟨k1, v1⟩ := p
    simp only [hmInsert]
    split
    · rename_i h; subst h; simp
    · intro x hx
      simp only [List.map_cons, List.mem_cons] at hx ⊢
      rcases hx with h | h
      · exact .inr (.inl h)
      · rcases ih x h with h | h
        · exact .inl h
        · exact .inr (.inr h)

theorem nodup_hmInsert {α : Type} (k : Str) (v : α) (m : List (Str × α)) (h : (m.map Prod.fst).Nodup) :
    ((hmInsert k v m).map Prod.fst).Nodup := by
  induction m with
  | nil => simp [hmInsert]
  | cons p r ih =>
    obtain ⟨k1, v1⟩ := p
    simp only [List.map_cons, List.nodup_cons] at h
    simp only [hmInsert]
    split
    · rename_i h'; subst h'; simpa using h
    · rename_i h'
      simp only [List.map_cons, List.nodup_cons]
      refine ⟨fun hx => ?_, ih h.2⟩
      rcases keys_hmInsert' k v r k1 hx with e | e
      · exact h' e.symm
      · exact h.1 e

theorem dExtra_keys {n : Nat} {l : List (Str × Tree)} {acc out : List (Str × Value)}
    (h : dExtra f64 n l acc = some out) (hr : ∀ k ∈ acc.map Prod.fst, k ∉ reservedHeaders)
    (hn : (acc.map Prod.fst).Nodup) :
    (∀ k ∈ out.map Prod.fst, k ∉ reservedHeaders) ∧ (out.map Prod.fst).Nodup := by
  induction l generalizing acc with
  | nil => simp only [dExtra, Option.some.injEq] at h; subst h; exact ⟨hr, hn⟩
  | cons p l ih =>
    obtain ⟨k, t⟩ := p
    simp only [dExtra] at h
    split at h
    · exact ih h hr hn
    · rename_i hk
      rw [List.contains_iff_mem] at hk
      obtain ⟨v, -, h⟩ := Option.bind_eq_some_iff.1 h
      refine ih h (fun x hx => ?_) (nodup_hmInsert k v acc hn)
      rcases keys_hmInsert' k v acc x hx with e | e
      · subst e; exact hk
      · exact hr x e

theorem dMessage_extra {n : Nat} {t : Tree} {m : Message} (h : dMessage f64 n t = some m) :
    (∀ k ∈ m.extraHeaders.map Prod.fst, k ∉ reservedHeaders) ∧ (m.extraHeaders.map Prod.fst).Nodup := by
  unfold dMessage at h
  simp only [Option.bind_eq_bind, Option.bind_eq_some_iff] at h
  obtain ⟨_, -, _, -, _, -, _, -, _, -, _, -, _, -, _, -, _, -, _, -, _, -, _, -, _, -, _, -, x, hx, h⟩ := h
  cases h
  exact dExtra_keys hx (by simp) (by simp)

/-- C54: a message that was read never has an extra header with a standard name, nor two
with the same name. -/
theorem C54_read (s : Str) (m : Message) (h : fromJson (dMessage f64) s = .ok m) :
    (∀ k ∈ m.extraHeaders.map Prod.fst, k ∉ reservedHeaders) ∧ (m.extraHeaders.map Prod.fst).Nodup := by
  unfold fromJson at h
  split at h
  · cases h
  · cases h
  · cases h
  · exact dMessage_extra (okOr_eq_ok.1 h)

/-- C54: so a message in which an extra header has a standard name is never read back as
it was. -/
theorem C54_collision_not_preserved (m : Message) (k : Str) (hk : k ∈ m.extraHeaders.map Prod.fst)
    (hr : k ∈ reservedHeaders) (s : Str) : fromJson (dMessage f64) s ≠ .ok m :=
  fun h => (C54_read s m h).1 k hk hr

theorem dMessage_field_none {n : Nat} {t : Tree} {mm : List (Str × Tree)} (hm : asMap n t = some mm) {k : Str}
    (hk : k ∈ reservedHeaders) (h : field mm k = none) : dMessage f64 n t = none := by
  unfold dMessage
  rw [hm]
  simp only [reservedHeaders, List.mem_cons, List.not_mem_nil, or_false] at hk
  rcases hk with rfl | rfl | rfl | rfl | rfl | rfl | rfl | rfl | rfl | rfl | rfl | rfl <;>
    simp [reqField, optField, h]

/-- The standard headers a message has. -/
def Message.presentHeaders (m : Message) : List Str :=
  [b!"id", b!"typ", b!"type", b!"body"] ++ (if m.from_.isSome then [b!"from"] else [])
  ++ (if m.to.isSome then [b!"to"] else []) ++ (if m.thid.isSome then [b!"thid"] else [])
  ++ (if m.pthid.isSome then [b!"pthid"] else []) ++ (if m.createdTime.isSome then [b!"created_time"] else [])
  ++ (if m.expiresTime.isSome then [b!"expires_time"] else [])
  ++ (if m.fromPrior.isSome then [b!"from_prior"] else [])
  ++ (if m.attachments.isSome then [b!"attachments"] else [])

theorem named_ne_nil {k : Str} {m : List (Str × Value)} (h : k ∈ m.map Prod.fst) : named k m ≠ [] := by
  unfold named
  intro e
  simp only [List.map_eq_nil_iff, List.filter_eq_nil_iff, beq_iff_eq] at e
  obtain ⟨p, hp, rfl⟩ := List.mem_map.1 h
  exact e p hp rfl

/-- C54: an extra header with the name of a standard header that the message has makes
its text unreadable. -/
theorem C54_collision_rejected (m : Message) (hb : m.body.WF f64) (hx : Value.WFM f64 m.extraHeaders)
    (ha : ∀ l, m.attachments = some l → ∀ a ∈ l, a.WF f64)
    (k : Str) (hk : k ∈ m.extraHeaders.map Prod.fst) (hp : k ∈ m.presentHeaders) :
    fromJson (dMessage f64) m.toJson.print = .error (.kind .malformed) := by
  have h2 : Value.NumsOkM (optMember b!"attachments" (fun l => Value.arr (l.map Attachment.toJson)) m.attachments) := by
    cases h : m.attachments with
    | none => simp [optMember, Value.NumsOkM]
    | some l =>
      simp only [optMember, Value.NumsOkM, Value.NumsOk, and_true]
      exact numsOkL_map _ _ (fun a hx => Attachment.numsOk (ha l h a hx))
  have h1 : Value.NumsOkM (optMember b!"to" (fun l => Value.arr (l.map .str)) m.to) := by
    cases m.to <;> simp [optMember, Value.NumsOkM, Value.NumsOk, numsOkL_map_str]
  have hn : m.toJson.NumsOk := by
    simp only [Message.toJson, Value.NumsOk, numsOkM_append]
    simp [Value.NumsOkM, Value.NumsOk, numsOk_optStr, numsOk_optU64, hb.numsOk, hx.numsOk, h1, h2]
  have hkeys := hx.keys
  simp only [fromJson, parseJson_print _ hn]
  have hmap : asMap depthLimit m.toJson.tree = some _ := asMap_tree _ _ (by decide) (by keys_utf8)
  have hne := named_ne_nil hk
  obtain ⟨x, xs, hxs⟩ : ∃ x xs, named k m.extraHeaders = x :: xs := by
    cases h : named k m.extraHeaders with
    | nil => exact absurd h hne
    | cons x xs => exact ⟨x, xs, rfl⟩
  have hnone : dMessage f64 depthLimit m.toJson.tree = none := by
    simp only [Message.presentHeaders, List.mem_append] at hp
    rcases hp with (((((((hp | hp) | hp) | hp) | hp) | hp) | hp) | hp) | hp
    · simp only [List.mem_cons, List.not_mem_nil, or_false] at hp
      have hres : k ∈ reservedHeaders := by
        rcases hp with hp | hp | hp | hp <;> (rw [hp]; decide)
      refine dMessage_field_none hmap hres ?_
      rw [field_tree]
      rcases hp with rfl | rfl | rfl | rfl <;> simp [hxs]
    all_goals
      split at hp
      · rename_i hs
        obtain ⟨y, hy⟩ := Option.isSome_iff_exists.1 hs
        simp only [List.mem_singleton] at hp
        have hres : k ∈ reservedHeaders := by rw [hp]; decide
        refine dMessage_field_none hmap hres ?_
        rw [field_tree]
        subst hp
        simp [hxs, hy]
      · simp at hp
  rw [hnone]; rfl

/-- With a standard header the message lacks, the text is readable but the value has
moved: an extra header `thid` becomes the thread id. -/
example : (match fromJson (dMessage some) (Message.toJson {
      id := b!"1", type_ := b!"t", body := .null, extraHeaders := [(b!"thid", .str b!"x")] }).print with
    | .ok m => decide (m.thid = some b!"x" ∧ m.extraHeaders.length = 0)
    | .error _ => false) = true := by
  decide +kernel

/-- The hypotheses of `C54_collision_rejected` can be met: a second `id`. -/
example : fromJson (dMessage some) (Message.toJson {
      id := b!"1", type_ := b!"t", body := .null, extraHeaders := [(b!"id", .str b!"x")] }).print = .error (.kind .malformed) := by
  refine C54_collision_rejected _ (by simp [Value.WF]) ?_ (by simp) b!"id" (by simp) (by decide)
  simp [Value.WFM, Value.WF]; decide

/-- The hypotheses of `C54_preserved` can be met. -/
example : Message.WF some {
    id := b!"1", type_ := b!"t", body := .obj [(b!"k", .str b!"v")],
    extraHeaders := [(b!"x-h", .bool true)], to := some [b!"did:example:bob"] } := by
  constructor <;> simp [OptUtf8, AllUtf8, Value.WF, Value.WFM, SortedKeys, Value.depth, Value.depthM] <;> decide

end DIDComm
