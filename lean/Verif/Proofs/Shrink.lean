import Verif.Proofs.Ends
import Verif.Proofs.Evidence
import Verif.Proofs.JsonPrint
import Verif.Spec.Shrinks

/-!
# What is unwrapped is smaller

The size of a text is the number of bytes in the strings of its JSON tree (`Tree.size`).  It
does not grow when a value is read and printed again, and it shrinks when an encrypted layer
around a forward message is removed.
-/

set_option autoImplicit false

namespace DIDComm

/-! ## Values -/

theorem strTokOf_size (s : Str) : (strTokOf s).size ≤ s.length := by
  unfold strTokOf StrTok.size
  simp only
  split <;> simp

theorem toNum_ok {f64 : Str → Option Str} (hf : ∀ s t, f64 s = some t → (fltTok t).isSome = true) {t : NumTok}
    {n : Num} (h : toNum f64 t = some n) : n.Ok := by
  unfold toNum at h
  have flt : ∀ raw, (f64 raw).map Num.flt = some n → n.Ok := by
    intro raw h
    rw [Option.map_eq_some_iff] at h
    obtain ⟨x, h1, rfl⟩ := h
    exact hf _ _ h1
  simp only at h
  split at h
  · split at h
    · split at h
      · cases h; rfl
      · exact flt _ h
    · split at h
      · cases h; rfl
      · exact flt _ h
  · exact flt _ h

theorem sizeM_btInsert (k : Str) (v : Value) : ∀ l : List (Str × Value),
    Tree.sizeM (Value.treeMembers (btInsert k v l)) ≤ k.length + v.tree.size + Tree.sizeM (Value.treeMembers l)
  | [] => by
    have := strTokOf_size k
    simp only [btInsert, Value.treeMembers, Tree.sizeM]
    omega
  | (k', v') :: r => by
    have := strTokOf_size k
    have ih := sizeM_btInsert k v r
    unfold btInsert
    split
    · simp only [Value.treeMembers, Tree.sizeM]; omega
    · split
      · simp only [Value.treeMembers, Tree.sizeM]; omega
      · simp only [Value.treeMembers, Tree.sizeM]; omega

theorem numsOkM_btInsert {k : Str} {v : Value} (hv : v.NumsOk) : ∀ {l : List (Str × Value)}, Value.NumsOkM l →
    Value.NumsOkM (btInsert k v l)
  | [], _ => ⟨hv, trivial⟩
  | (k', v') :: r, h => by
    unfold btInsert
    split
    · exact ⟨hv, h.2⟩
    · split
      · exact ⟨hv, h⟩
      · exact ⟨h.1, numsOkM_btInsert hv h.2⟩

section
variable {f64 : Str → Option Str} (hf : ∀ s t, f64 s = some t → (fltTok t).isSome = true)
include hf

mutual
/-- A value read from a tree is no larger than the tree, and its numbers can be printed. -/
theorem toValue_size : ∀ (t : Tree) (n : Nat) (v : Value), toValue f64 n t = some v →
    v.tree.size ≤ t.size ∧ v.NumsOk
  | .null, _, v, h => by simp only [toValue] at h; cases h; exact ⟨Nat.le_refl _, trivial⟩
  | .bool b, _, v, h => by simp only [toValue] at h; cases h; exact ⟨Nat.le_refl _, trivial⟩
  | .num t, _, v, h => by
    simp only [toValue, Option.map_eq_some_iff] at h
    obtain ⟨x, h, rfl⟩ := h
    exact ⟨by simp [Value.tree, Tree.size], toNum_ok hf h⟩
  | .str t, _, v, h => by
    simp only [toValue, Option.map_eq_some_iff] at h
    obtain ⟨x, h, rfl⟩ := h
    refine ⟨?_, trivial⟩
    simp only [Value.tree, Tree.size]
    refine Nat.le_trans (strTokOf_size x) ?_
    simp [StrTok.size, h]
  | .arr l, n, v, h => by
    simp only [toValue] at h
    split at h
    · cases h
    simp only [Option.map_eq_some_iff] at h
    obtain ⟨x, h, rfl⟩ := h
    simpa only [Value.tree, Tree.size, Value.NumsOk] using toValues_size l _ x h
  | .obj m, n, v, h => by
    simp only [toValue] at h
    split at h
    · cases h
    simp only [Option.map_eq_some_iff] at h
    obtain ⟨x, h, rfl⟩ := h
    have := toMembers_size m _ [] x trivial h
    simpa [Value.tree, Tree.size, Value.NumsOk, Value.treeMembers, Tree.sizeM] using this
theorem toValues_size : ∀ (l : List Tree) (n : Nat) (vs : List Value), toValues f64 n l = some vs →
    Tree.sizeL (Value.trees vs) ≤ Tree.sizeL l ∧ Value.NumsOkL vs
  | [], _, vs, h => by simp only [toValues] at h; cases h; exact ⟨Nat.le_refl _, trivial⟩
  | t :: r, n, vs, h => by
    simp only [toValues, Option.bind_eq_bind, Option.bind_eq_some_iff, Option.some.injEq] at h
    obtain ⟨v, h1, l, h2, rfl⟩ := h
    obtain ⟨a1, a2⟩ := toValue_size t n v h1
    obtain ⟨b1, b2⟩ := toValues_size r n l h2
    exact ⟨by simp only [Value.trees, Tree.sizeL]; omega, a2, b2⟩
theorem toMembers_size : ∀ (m : List (StrTok × Tree)) (n : Nat) (acc out : List (Str × Value)), Value.NumsOkM acc →
    toMembers f64 n m acc = some out →
    Tree.sizeM (Value.treeMembers out) ≤ Tree.sizeM (Value.treeMembers acc) + Tree.sizeM m ∧ Value.NumsOkM out
  | [], _, acc, out, ha, h => by simp only [toMembers] at h; cases h; exact ⟨by simp [Tree.sizeM], ha⟩
  | (k, t) :: r, n, acc, out, ha, h => by
    simp only [toMembers, Option.bind_eq_bind, Option.bind_eq_some_iff] at h
    obtain ⟨ks, h1, v, h2, h3⟩ := h
    obtain ⟨a1, a2⟩ := toValue_size t n v h2
    obtain ⟨b1, b2⟩ := toMembers_size r n _ out (numsOkM_btInsert (k := ks) a2 ha) h3
    refine ⟨?_, b2⟩
    have hk : k.size = ks.length := by simp [StrTok.size, h1]
    have := sizeM_btInsert ks v acc
    simp only [Tree.sizeM]
    omega
end
end

/-! ## Members -/

/-- The total size of the members' values. -/
def valsSize : List (Str × Tree) → Nat
  | [] => 0
  | (_, t) :: r => t.size + valsSize r

theorem decKeys_size : ∀ {m : List (StrTok × Tree)} {l : List (Str × Tree)}, decKeys m = some l →
    valsSize l ≤ Tree.sizeM m
  | [], l, h => by simp only [decKeys] at h; cases h; exact Nat.le_refl _
  | (k, t) :: r, l, h => by
    simp only [decKeys, Option.bind_eq_bind, Option.bind_eq_some_iff, Option.some.injEq] at h
    obtain ⟨_, _, l', h2, rfl⟩ := h
    have := decKeys_size h2
    simp only [valsSize, Tree.sizeM]
    omega

theorem zip_size : ∀ (ns : List Str) (l : List Tree), valsSize (ns.zip l) ≤ Tree.sizeL l
  | [], l => by simp [valsSize]
  | _ :: _, [] => by simp [valsSize]
  | _ :: ns, t :: l => by
    have := zip_size ns l
    simp only [List.zip_cons_cons, valsSize, Tree.sizeL]
    omega

theorem asMap_size {n : Nat} {t : Tree} {l : List (Str × Tree)} (h : asMap n t = some l) : valsSize l ≤ t.size := by
  unfold asMap at h
  split at h
  · split at h
    · cases h
    · simpa only [Tree.size] using decKeys_size h
  · cases h

theorem asStruct_size {names : List Str} {n : Nat} {t : Tree} {l : List (Str × Tree)}
    (h : asStruct names n t = some l) : valsSize l ≤ t.size := by
  unfold asStruct at h
  split at h
  · split at h
    · cases h
    · simpa only [Tree.size] using decKeys_size h
  · split at h
    · cases h
    · split at h
      · cases h; simpa only [Tree.size] using zip_size _ _
      · cases h
  · cases h

theorem field_mem {m : List (Str × Tree)} {name : Str} {t : Tree} (h : field m name = some (some t)) : (name, t) ∈ m := by
  unfold field at h
  split at h
  · cases h
  · rename_i k t' heq
    cases h
    have : (k, t) ∈ m.filter (fun p => p.1 == name) := by rw [heq]; exact List.mem_singleton.2 rfl
    rw [List.mem_filter] at this
    obtain ⟨h1, h2⟩ := this
    have h2 : k = name := eq_of_beq h2
    rw [← h2]
    exact h1
  · cases h

theorem mem_size {m : List (Str × Tree)} {k : Str} {t : Tree} (h : (k, t) ∈ m) : t.size ≤ valsSize m := by
  induction m with
  | nil => cases h
  | cons p r ih =>
    obtain ⟨k', t'⟩ := p
    simp only [valsSize]
    rcases List.mem_cons.1 h with h | h
    · cases h; omega
    · have := ih h; omega

theorem two_mem_size {m : List (Str × Tree)} {k k' : Str} {t t' : Tree} (hne : k ≠ k') (h : (k, t) ∈ m)
    (h' : (k', t') ∈ m) : t.size + t'.size ≤ valsSize m := by
  induction m with
  | nil => cases h
  | cons p r ih =>
    obtain ⟨k2, t2⟩ := p
    simp only [valsSize]
    rcases List.mem_cons.1 h with g | g <;> rcases List.mem_cons.1 h' with g' | g'
    · cases g; cases g'; exact absurd rfl hne
    · cases g; have := mem_size g'; omega
    · cases g'; have := mem_size g; omega
    · have := ih g g'; omega

theorem reqField_some {α : Type} {m : List (Str × Tree)} {name : Str} {d : Tree → Option α} {a : α} :
    reqField m name d = some a ↔ ∃ t, field m name = some (some t) ∧ d t = some a := by
  simp only [reqField, Option.bind_eq_bind, Option.bind_eq_some_iff]
  constructor
  · rintro ⟨_, h1, t, rfl, h2⟩; exact ⟨t, h1, h2⟩
  · rintro ⟨t, h1, h2⟩; exact ⟨_, h1, t, rfl, h2⟩

theorem optField_some {α : Type} {m : List (Str × Tree)} {name : Str} {d : Tree → Option α} {a : α}
    (h : optField m name d = some (some a)) : ∃ t, field m name = some (some t) ∧ d t = some a := by
  simp only [optField, Option.bind_eq_bind, Option.bind_eq_some_iff] at h
  obtain ⟨t, h1, h⟩ := h
  cases t with
  | none => cases h
  | some t =>
    refine ⟨t, h1, ?_⟩
    simp only [dOpt] at h
    split at h
    · cases h
    · rw [Option.map_eq_some_iff] at h
      obtain ⟨b, h, e⟩ := h
      cases e; exact h

theorem dBorrow_size {t : Tree} {s : Str} (h : dBorrow t = some s) : s.length = t.size := by
  unfold dBorrow at h
  split at h
  · cases h; simp [Tree.size, StrTok.size]
  · cases h

/-- The texts of ciphertext and tag are different strings of the JWE. -/
theorem dJwe_size {n : Nat} {t : Tree} {j : JWE} (h : dJwe n t = some j) :
    j.ciphertext.length + j.tag.length ≤ t.size := by
  simp only [dJwe, Option.bind_eq_bind, Option.bind_eq_some_iff] at h
  obtain ⟨m, hm, p, -, rs, -, iv, -, c, hc, tag, ht, h⟩ := h
  cases h
  obtain ⟨tc, h1, h2⟩ := reqField_some.1 hc
  obtain ⟨tt, h3, h4⟩ := reqField_some.1 ht
  have h5 := two_mem_size (by decide) (field_mem h1) (field_mem h3)
  have h6 := asStruct_size hm
  simp only [dBorrow_size h2, dBorrow_size h4]
  omega

theorem decAll_mem {α : Type} {d : Tree → Option α} : ∀ {l : List Tree} {r : List α} {a : α}, decAll d l = some r →
    a ∈ r → ∃ t ∈ l, d t = some a
  | [], r, a, h, ha => by simp only [decAll] at h; cases h; cases ha
  | t :: l, r, a, h, ha => by
    simp only [decAll, Option.bind_eq_bind, Option.bind_eq_some_iff, Option.some.injEq] at h
    obtain ⟨x, h1, r', h2, rfl⟩ := h
    rcases List.mem_cons.1 ha with rfl | ha
    · exact ⟨t, List.mem_cons_self, h1⟩
    · obtain ⟨t', h3, h4⟩ := decAll_mem h2 ha
      exact ⟨t', List.mem_cons_of_mem _ h3, h4⟩

theorem mem_sizeL {l : List Tree} {t : Tree} (h : t ∈ l) : t.size ≤ Tree.sizeL l := by
  induction l with
  | nil => cases h
  | cons x r ih =>
    simp only [Tree.sizeL]
    rcases List.mem_cons.1 h with rfl | h
    · omega
    · have := ih h; omega

theorem dVec_mem {α : Type} {d : Nat → Tree → Option α} {n : Nat} {t : Tree} {r : List α} {a : α}
    (h : dVec d n t = some r) (ha : a ∈ r) : ∃ n' t', d n' t' = some a ∧ t'.size ≤ t.size := by
  unfold dVec at h
  split at h
  · split at h
    · cases h
    · obtain ⟨t', h1, h2⟩ := decAll_mem h ha
      exact ⟨_, t', h2, by simpa only [Tree.size] using mem_sizeL h1⟩
  · cases h

/-! ## Messages -/

section
variable {f64 : Str → Option Str} (hf : ∀ s t, f64 s = some t → (fltTok t).isSome = true)
include hf

theorem dAttachmentData_size {n : Nat} {t : Tree} {v : Value} {jws : Option Str}
    (h : dAttachmentData f64 n t = some (.json v jws)) : v.tree.size ≤ t.size ∧ v.NumsOk := by
  simp only [dAttachmentData, Option.bind_eq_bind, Option.bind_eq_some_iff] at h
  obtain ⟨_, -, m, hm, h⟩ := h
  have hm := asMap_size hm
  split at h
  · rename_i d hd
    cases h
    simp only [dDataBase64, Option.bind_eq_bind, Option.bind_eq_some_iff] at hd
    obtain ⟨_, _, _, _, hd⟩ := hd
    cases hd
  · split at h
    · rename_i d hd
      cases h
      simp only [dDataJson, Option.bind_eq_bind, Option.bind_eq_some_iff] at hd
      obtain ⟨v', hv, _, _, hd⟩ := hd
      cases hd
      obtain ⟨t', h1, h2⟩ := reqField_some.1 hv
      obtain ⟨h3, h4⟩ := toValue_size hf _ _ _ h2
      have := mem_size (field_mem h1)
      exact ⟨by omega, h4⟩
    · simp only [dDataLinks, Option.bind_eq_bind, Option.bind_eq_some_iff] at h
      obtain ⟨_, _, _, _, _, _, h⟩ := h
      cases h

/-- The JSON carried by an attachment is no larger than the message. -/
theorem dMessage_size {n : Nat} {t : Tree} {m : Message} {l : List Attachment} {a : Attachment} {v : Value}
    {jws : Option Str} (h : dMessage f64 n t = some m) (hl : m.attachments = some l) (ha : a ∈ l)
    (hd : a.data = .json v jws) : v.tree.size ≤ t.size ∧ v.NumsOk := by
  simp only [dMessage, Option.bind_eq_bind, Option.bind_eq_some_iff] at h
  obtain ⟨ms, hm, _, -, _, -, _, -, _, -, _, -, _, -, _, -, _, -, _, -, _, -, _, -, _, -, as, hat, _, -, h⟩ := h
  cases h
  cases hl
  have hm := asMap_size hm
  obtain ⟨ta, h1, h2⟩ := optField_some hat
  have h1 := mem_size (field_mem h1)
  obtain ⟨n', t', h3, h4⟩ := dVec_mem h2 ha
  simp only [dAttachment, Option.bind_eq_bind, Option.bind_eq_some_iff] at h3
  obtain ⟨ms', hm', data, hdata, _, -, _, -, _, -, _, -, _, -, _, -, _, -, h3⟩ := h3
  cases h3
  cases hd
  have hm' := asStruct_size hm'
  obtain ⟨td, h5, h6⟩ := reqField_some.1 hdata
  have h5 := mem_size (field_mem h5)
  obtain ⟨h7, h8⟩ := dAttachmentData_size hf h6
  exact ⟨by omega, h8⟩
end

/-! ## Layers -/

variable {C : Crypto}

/-- Removing an anoncrypt layer: the payload is no longer than the strings of the JWE. -/
theorem anonOpens_size (hd : NeverLonger C) {t : Str} {kids : List Str} {alg : AnonCryptAlg} {c : Curve} {kid : Str}
    {rkey : C.Key} {payload : Bytes} (h : AnonOpens C t kids alg c kid rkey payload) :
    ∃ tree, parseJson t = .ok tree ∧ payload.length ≤ tree.size := by
  obtain ⟨j, hdr, apv, ce, epk, kw, tag, hr, -, -, -, -, -, -, -, r, ek, cek, ct, iv, -, -, -, ht, hc, -, -, hp⟩ := h
  obtain ⟨tree, h1, h2⟩ := fromJson_ok hr.text
  refine ⟨tree, h1, ?_⟩
  have := hd _ _ _ _ _ _ hp
  have := dJwe_size h2
  have := B64.decode_length ht
  have := B64.decode_length hc
  simp only [List.length_append] at *
  omega

/-- Taking the content of a forward: printed again it parses, and is smaller than the payload. -/
theorem forward_size (hf : PrintsFloats C) {t : Str} {m : Message} {next : Str} {v : Value}
    (hm : fromJson (dMessage C.f64) t = .ok m) (h : IsForward m next v) :
    parseJson v.print = .ok v.tree ∧ v.tree.size < t.length := by
  obtain ⟨-, -, a, r, jws, ha, hv⟩ := h
  obtain ⟨tree, h1, h2⟩ := fromJson_ok hm
  obtain ⟨h3, h4⟩ := dMessage_size hf h2 ha List.mem_cons_self hv
  exact ⟨parseJson_print v h4, by have := parseJson_size h1; omega⟩

/-- The loop over forward layers never runs out of fuel. -/
theorem unwrapLoop_enough (hd : NeverLonger C) (hf : PrintsFloats C) (o : UnpackOptions) :
    ∀ (n : Nat) (msg : Str) (md : UnpackMetadata), (∀ tree, parseJson msg = .ok tree → tree.size < n) → 0 < n →
    ∀ tr, ¬ Runs (unwrapLoop C o n msg md) tr (.error .fuel) := by
  intro n
  induction n with
  | zero => intro msg md _ h0; omega
  | succ n ih =>
    intro msg md hn _ tr hr
    unfold unwrapLoop at hr
    have noFuel : ∀ {β : Type} {p : Prog β} {tr : List Event}, Ends False (fun _ => False) p → ¬ Runs p tr (.error .fuel) := by
      intro β p tr he hr
      rcases he tr _ hr with ⟨k, h⟩ | ⟨h, -⟩ | h
      · cases h
      · cases h
      · exact h
    rcases runs_bind_error.1 hr with h | ⟨⟨anon, md1⟩, t1, t2, rfl, ha, h⟩
    · exact noFuel (tryUnpackAnoncrypt_ends _ _ _) h
    · cases anon with
      | none => exact noFuel .pure h
      | some payload =>
        simp only at h
        split at h
        · rcases runs_bind_error.1 h with h | ⟨f, t3, t4, rfl, hfw, h⟩
          · exact noFuel (tryUnwrapForwarded_ends _) h
          · cases f with
            | none => exact noFuel .pure h
            | some inner =>
              obtain ⟨kids, alg, kid, secret, key, hopen, -⟩ := anon_layer ha
              obtain ⟨m, next, v, hm, hfwd, rfl, -⟩ := forwarded_layer hfw
              obtain ⟨tree, hp, hs⟩ := anonOpens_size hd hopen
              obtain ⟨hp2, hs2⟩ := forward_size hf hm hfwd
              have := hn tree hp
              refine ih _ _ (fun tree' h' => ?_) (by omega) _ h
              rw [hp2] at h'
              cases h'
              omega
        · exact noFuel .pure h

end DIDComm
