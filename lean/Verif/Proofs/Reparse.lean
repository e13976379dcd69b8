import Verif.Proofs.Trip

/-! # A forwarded envelope is read into a JSON value and printed again

`serde_json::Value` keeps the members of an object sorted, so the text changes; the envelope read from it
does not. -/

set_option autoImplicit false

namespace DIDComm

/-- A recipient with sorted members. -/
def JweRecipient.sorted (r : JweRecipient) : Value :=
  .obj [(b!"encrypted_key", .str r.encryptedKey), (b!"header", .obj [(b!"kid", .str r.kid)])]

/-- An envelope with sorted members. -/
def JWE.sorted (j : JWE) : Value :=
  .obj [(b!"ciphertext", .str j.ciphertext), (b!"iv", .str j.iv), (b!"protected", .str j.protected_),
    (b!"recipients", .arr (j.recipients.map JweRecipient.sorted)), (b!"tag", .str j.tag)]

variable {f64 : Str → Option Str}

theorem toValues_map {α : Type} (f g : α → Value) (n : Nat) (l : List α)
    (h : ∀ a ∈ l, toValue f64 n (f a).tree = some (g a)) :
    toValues f64 n (Value.trees (l.map f)) = some (l.map g) := by
  induction l with
  | nil => rfl
  | cons a l ih =>
    simp only [List.map_cons, Value.trees, toValues, h a (by simp), ih (fun x hx => h x (by simp [hx]))]
    rfl

theorem strTokOf_val_some {s : Str} (h : Plain s) : (strTokOf s).val = some s := strTokOf_val h.1

theorem recipient_value (r : JweRecipient) (h1 : Plain r.kid) (h2 : Plain r.encryptedKey) (n : Nat) (hn : 2 < n) :
    toValue f64 n r.toJson.tree = some r.sorted := by
  obtain ⟨n, rfl⟩ : ∃ m, n = m + 3 := ⟨n - 3, by omega⟩
  have k1 : (strTokOf b!"header").val = some b!"header" := by decide
  have k2 : (strTokOf b!"encrypted_key").val = some b!"encrypted_key" := by decide
  have k3 : (strTokOf b!"kid").val = some b!"kid" := by decide
  simp [JweRecipient.toJson, JweRecipient.sorted, Value.tree, Value.treeMembers, toValue, toMembers, k1, k2, k3,
    strTokOf_val h1.1, strTokOf_val h2.1, btInsert]
  decide

theorem jwe_value (j : JWE) (h : j.IsPlain) : toValue f64 depthLimit j.toJson.tree = some j.sorted := by
  have k1 : (strTokOf b!"protected").val = some b!"protected" := by decide
  have k2 : (strTokOf b!"recipients").val = some b!"recipients" := by decide
  have k3 : (strTokOf b!"iv").val = some b!"iv" := by decide
  have k4 : (strTokOf b!"ciphertext").val = some b!"ciphertext" := by decide
  have k5 : (strTokOf b!"tag").val = some b!"tag" := by decide
  have hr := toValues_map (f64 := f64) JweRecipient.toJson JweRecipient.sorted 126 j.recipients
    (fun r hr => recipient_value r (h.recipients r hr).1 (h.recipients r hr).2 _ (by decide))
  simp [JWE.toJson, JWE.sorted, Value.tree, Value.treeMembers, toValue, toMembers, k1, k2, k3, k4, k5,
    strTokOf_val h.protected_.1, strTokOf_val h.iv.1, strTokOf_val h.ciphertext.1, strTokOf_val h.tag.1, depthLimit, hr]
  rfl

theorem JWE.sorted_wf (j : JWE) (h : j.IsPlain) : j.sorted.WF f64 := by
  simp only [JWE.sorted, Value.WF, Value.WFM, and_true]
  refine ⟨by simp [SortedKeys, strLt]; decide, by decide, h.ciphertext.1, by decide, h.iv.1, by decide, h.protected_.1,
    by decide, ?_, by decide, h.tag.1⟩
  have : ∀ l : List JweRecipient, (∀ r ∈ l, Plain r.kid ∧ Plain r.encryptedKey) →
      Value.WFL f64 (l.map JweRecipient.sorted) := by
    intro l
    induction l with
    | nil => intro _; trivial
    | cons r l ih =>
      intro hr
      refine ⟨?_, ih (fun x hx => hr x (by simp [hx]))⟩
      simp only [JweRecipient.sorted, Value.WF, Value.WFM, and_true]
      exact ⟨by simp [SortedKeys, strLt]; decide, by decide, (hr r (by simp)).2.1, by decide, by simp [SortedKeys],
        by decide, (hr r (by simp)).1.1⟩
  exact this _ h.recipients

theorem JWE.sorted_depth (j : JWE) : j.sorted.depth < 124 := by
  have : ∀ l : List JweRecipient, Value.depthL (l.map JweRecipient.sorted) ≤ 2 := by
    intro l
    induction l with
    | nil => simp [Value.depthL]
    | cons r l ih =>
      simp only [List.map_cons, Value.depthL]
      have : r.sorted.depth ≤ 2 := by simp [JweRecipient.sorted, Value.depth, Value.depthM]
      omega
  have := this j.recipients
  simp only [JWE.sorted, Value.depth, Value.depthM]
  omega

theorem JWE.sorted_read (j : JWE) (h : j.IsPlain) : jweFromStr j.sorted.print = .ok j := by
  apply fromJson_print (j.sorted_wf (f64 := fun _ => none) h).numsOk
  unfold dJwe JWE.sorted
  rw [asStruct_tree _ _ _ (by decide) (by keys_utf8)]
  simp only [Option.bind_eq_bind, Option.bind_some]
  rw [reqField_tree (v := .str j.protected_) (by simp), dBorrow_plain h.protected_,
    reqField_tree (v := .arr (j.recipients.map JweRecipient.sorted)) (by simp),
    dVec_tree dJweRecipient JweRecipient.sorted _ _ (by decide)
      (fun s hs' => ?_),
    reqField_tree (v := .str j.iv) (by simp), dBorrow_plain h.iv,
    reqField_tree (v := .str j.ciphertext) (by simp), dBorrow_plain h.ciphertext,
    reqField_tree (v := .str j.tag) (by simp), dBorrow_plain h.tag]
  · rfl
  · obtain ⟨h1, h2⟩ := h.recipients s hs'
    unfold dJweRecipient JweRecipient.sorted
    rw [asStruct_tree _ _ _ (by decide) (by keys_utf8)]
    simp only [Option.bind_eq_bind, Option.bind_some]
    rw [reqField_tree (v := .obj [(b!"kid", .str s.kid)]) (by simp), dKidHeader_tree h1 _ (by decide),
      reqField_tree (v := .str s.encryptedKey) (by simp), dBorrow_plain h2]
    rfl

/-- Reading an envelope's text into a JSON value. -/
theorem jwe_reparse (j : JWE) (h : j.IsPlain) : fromJson (toValue f64) j.toJson.print = .ok j.sorted :=
  fromJson_print j.numsOk (jwe_value j h)

end DIDComm
