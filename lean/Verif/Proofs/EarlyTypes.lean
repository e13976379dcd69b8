import Verif.Proofs.Early

/-! # The types that the library reads refuse no beginning of what they accept -/

set_option autoImplicit false

namespace DIDComm

variable {p : NumTok → Prop} {α : Type}

theorem Filled.nil {m : List (Str × Tree)} : Filled [] m := fun _ h => by cases h

theorem Filled.cons {f : Fld} {fs : List Fld} {m : List (Str × Tree)}
    (h : field m f.name = some none ∨ ∃ t, field m f.name = some (some t) ∧ f.fits t = true) (hr : Filled fs m) : Filled (f :: fs) m := by
  intro g hg
  rcases List.mem_cons.1 hg with rfl | hg
  · exact h
  · exact hr g hg

theorem Filled.req {name : Str} {d : Tree → Option α} {e : Cut → Bool} {fs : List Fld} {m : List (Str × Tree)} {a : α}
    (h : reqField m name d = some a) (hr : Filled fs m) : Filled (.req name d e :: fs) m := by
  refine .cons (.inr ?_) hr
  unfold reqField at h
  cases hf : field m name with
  | none => rw [hf] at h; cases h
  | some o =>
    cases o with
    | none => rw [hf] at h; cases h
    | some t =>
      rw [hf] at h
      exact ⟨t, hf, by show (d t).isSome = true; rw [show d t = some a from h]; rfl⟩

theorem Filled.opt {name : Str} {d : Tree → Option α} {e : Cut → Bool} {fs : List Fld} {m : List (Str × Tree)} {a : Option α}
    (h : optField m name d = some a) (hr : Filled fs m) : Filled (.opt name d e :: fs) m := by
  refine .cons ?_ hr
  unfold optField at h
  cases hf : field m name with
  | none => rw [hf] at h; cases h
  | some o =>
    cases o with
    | none => exact .inl hf
    | some t =>
      rw [hf] at h
      exact .inr ⟨t, hf, by show (dOpt d t).isSome = true; rw [show dOpt d t = some a from h]; rfl⟩

theorem Filled.typ {m : List (Str × Tree)} {fs : List Fld} {o : Option Tree} {s : Str} (h : field m b!"typ" = some o) (hs : dTyp o = some s)
    (hr : Filled fs m) : Filled (.req b!"typ" dStr earlyStr :: fs) m := by
  refine .cons ?_ hr
  cases o with
  | none => exact .inl h
  | some t => exact .inr ⟨t, h, by show (dStr t).isSome = true; rw [show dStr t = some s from hs]; rfl⟩

theorem AllSteady.nil : AllSteady p [] := fun _ h => by cases h

theorem AllSteady.cons {f : Fld} {fs : List Fld} (h : Steady p f.fits f.early) (hr : AllSteady p fs) : AllSteady p (f :: fs) := by
  intro g hg
  rcases List.mem_cons.1 hg with rfl | hg
  · exact h
  · exact hr g hg

theorem AllSteady.req {name : Str} {d : Tree → Option α} {e : Cut → Bool} {fs : List Fld} (h : Steady p (fun t => (d t).isSome) e)
    (hr : AllSteady p fs) : AllSteady p (.req name d e :: fs) := .cons h hr

theorem AllSteady.optStr {name : Str} {fs : List Fld} (hr : AllSteady p fs) : AllSteady p (.opt name dStr earlyStr :: fs) :=
  .cons (steady_str.opt fun c hc => by rcases begins_null hc with rfl | rfl <;> rfl) hr

theorem AllSteady.optBorrow {name : Str} {fs : List Fld} (hr : AllSteady p fs) : AllSteady p (.opt name dBorrow earlyStr :: fs) :=
  .cons (steady_borrow.opt fun c hc => by rcases begins_null hc with rfl | rfl <;> rfl) hr

theorem AllSteady.optU64 {name : Str} {fs : List Fld} (hr : AllSteady p fs) : AllSteady p (.opt name dU64 earlyU64 :: fs) :=
  .cons (steady_u64.opt fun c hc => by rcases begins_null hc with rfl | rfl <;> rfl) hr

theorem AllSteady.optVec {name : Str} {fs : List Fld} {d : Nat → Tree → Option α} {e : Nat → Cut → Bool} {n : Nat}
    (h : Steady p (fun t => (d (n - 1) t).isSome) (e (n - 1))) (hr : AllSteady p fs) :
    AllSteady p (.opt name (dVec d n) (earlyVec d e n) :: fs) :=
  .cons ((steady_vec h).opt fun c hc => by rcases begins_null hc with rfl | rfl <;> rfl) hr

/-! ## Envelopes -/

theorem steady_kidHeader (n : Nat) : Steady p (fun t => (dKidHeader n t).isSome) (earlyKidHeader n) := by
  intro c t hb hp h
  obtain ⟨a, h⟩ := Option.isSome_iff_exists.1 h
  obtain ⟨m, hm, h⟩ := Option.bind_eq_some_iff.1 h
  exact steady_struct hb hp (by decide) hm (.req h .nil) (.req steady_borrow .nil)

theorem steady_jwsSig (n : Nat) : Steady p (fun t => (dJwsSig n t).isSome) (earlyJwsSig n) := by
  intro c t hb hp h
  obtain ⟨a, h⟩ := Option.isSome_iff_exists.1 h
  obtain ⟨m, hm, h⟩ := Option.bind_eq_some_iff.1 h
  obtain ⟨_, h1, h⟩ := Option.bind_eq_some_iff.1 h
  obtain ⟨_, h2, h⟩ := Option.bind_eq_some_iff.1 h
  obtain ⟨_, h3, h⟩ := Option.bind_eq_some_iff.1 h
  exact steady_struct hb hp (by simp only [List.map, Fld.req]; decide) hm (.req h1 (.req h2 (.req h3 .nil)))
    (.req (steady_kidHeader _) (.req steady_borrow (.req steady_borrow .nil)))

theorem allSteady_jws (n : Nat) : AllSteady p [.req b!"signatures" (dVec dJwsSig (n - 1)) (earlyVec dJwsSig earlyJwsSig (n - 1)),
    .req b!"payload" dBorrow earlyStr] := .req (steady_vec (steady_jwsSig _)) (.req steady_borrow .nil)

theorem steady_jws (n : Nat) : Steady p (fun t => (dJws n t).isSome) (earlyJws n) := by
  intro c t hb hp h
  obtain ⟨a, h⟩ := Option.isSome_iff_exists.1 h
  obtain ⟨m, hm, h⟩ := Option.bind_eq_some_iff.1 h
  obtain ⟨_, h1, h⟩ := Option.bind_eq_some_iff.1 h
  obtain ⟨_, h2, h⟩ := Option.bind_eq_some_iff.1 h
  exact steady_struct hb hp (by simp only [List.map, Fld.req]; decide) hm (.req h1 (.req h2 .nil))
    (allSteady_jws n)

theorem steady_jwsHeader (n : Nat) : Steady p (fun t => (dJwsHeader n t).isSome) (earlyJwsHeader n) := by
  intro c t hb hp h
  obtain ⟨a, h⟩ := Option.isSome_iff_exists.1 h
  obtain ⟨m, hm, h⟩ := Option.bind_eq_some_iff.1 h
  obtain ⟨_, h1, h⟩ := Option.bind_eq_some_iff.1 h
  obtain ⟨_, h2, h⟩ := Option.bind_eq_some_iff.1 h
  exact steady_struct hb hp (by simp only [List.map, Fld.req]; decide) hm (.req h1 (.req h2 .nil))
    (.req steady_str (.req steady_str .nil))

theorem steady_compactHeader (n : Nat) : Steady p (fun t => (dCompactHeader n t).isSome) (earlyCompactHeader n) := by
  intro c t hb hp h
  obtain ⟨a, h⟩ := Option.isSome_iff_exists.1 h
  obtain ⟨m, hm, h⟩ := Option.bind_eq_some_iff.1 h
  obtain ⟨_, h1, h⟩ := Option.bind_eq_some_iff.1 h
  obtain ⟨_, h2, h⟩ := Option.bind_eq_some_iff.1 h
  obtain ⟨_, h3, h⟩ := Option.bind_eq_some_iff.1 h
  exact steady_struct hb hp (by simp only [List.map, Fld.req]; decide) hm (.req h1 (.req h2 (.req h3 .nil)))
    (.req steady_borrow (.req steady_str (.req steady_borrow .nil)))

theorem steady_jweRecipient (n : Nat) : Steady p (fun t => (dJweRecipient n t).isSome) (earlyJweRecipient n) := by
  intro c t hb hp h
  obtain ⟨a, h⟩ := Option.isSome_iff_exists.1 h
  obtain ⟨m, hm, h⟩ := Option.bind_eq_some_iff.1 h
  obtain ⟨_, h1, h⟩ := Option.bind_eq_some_iff.1 h
  obtain ⟨_, h2, h⟩ := Option.bind_eq_some_iff.1 h
  exact steady_struct hb hp (by simp only [List.map, Fld.req]; decide) hm (.req h1 (.req h2 .nil))
    (.req (steady_kidHeader _) (.req steady_borrow .nil))

theorem allSteady_jwe (n : Nat) : AllSteady p [.req b!"protected" dBorrow earlyStr,
    .req b!"recipients" (dVec dJweRecipient (n - 1)) (earlyVec dJweRecipient earlyJweRecipient (n - 1)),
    .req b!"iv" dBorrow earlyStr, .req b!"ciphertext" dBorrow earlyStr, .req b!"tag" dBorrow earlyStr] :=
  .req steady_borrow (.req (steady_vec (steady_jweRecipient _)) (.req steady_borrow (.req steady_borrow (.req steady_borrow .nil))))

theorem steady_jwe (n : Nat) : Steady p (fun t => (dJwe n t).isSome) (earlyJwe n) := by
  intro c t hb hp h
  obtain ⟨a, h⟩ := Option.isSome_iff_exists.1 h
  obtain ⟨m, hm, h⟩ := Option.bind_eq_some_iff.1 h
  obtain ⟨_, h1, h⟩ := Option.bind_eq_some_iff.1 h
  obtain ⟨_, h2, h⟩ := Option.bind_eq_some_iff.1 h
  obtain ⟨_, h3, h⟩ := Option.bind_eq_some_iff.1 h
  obtain ⟨_, h4, h⟩ := Option.bind_eq_some_iff.1 h
  obtain ⟨_, h5, h⟩ := Option.bind_eq_some_iff.1 h
  exact steady_struct hb hp (by simp only [List.map, Fld.req]; decide) hm (.req h1 (.req h2 (.req h3 (.req h4 (.req h5 .nil)))))
    (allSteady_jwe n)

theorem steady_jweHeader {f64 : Str → Option Str} (hv : ∀ n, p n → CutsRead f64 n) (n : Nat) :
    Steady p (fun t => (dJweHeader f64 n t).isSome) (earlyJweHeader f64 n) := by
  intro c t hb hp h
  obtain ⟨a, h⟩ := Option.isSome_iff_exists.1 h
  obtain ⟨m, hm, h⟩ := Option.bind_eq_some_iff.1 h
  obtain ⟨_, h1, h⟩ := Option.bind_eq_some_iff.1 h
  obtain ⟨_, h2, h⟩ := Option.bind_eq_some_iff.1 h
  obtain ⟨_, h3, h⟩ := Option.bind_eq_some_iff.1 h
  obtain ⟨_, h4, h⟩ := Option.bind_eq_some_iff.1 h
  obtain ⟨_, h5, h⟩ := Option.bind_eq_some_iff.1 h
  obtain ⟨_, h6, h⟩ := Option.bind_eq_some_iff.1 h
  obtain ⟨_, h7, h⟩ := Option.bind_eq_some_iff.1 h
  exact steady_struct hb hp (by simp only [List.map, Fld.req, Fld.opt]; decide) hm
    (.opt h1 (.req h2 (.req h3 (.opt h4 (.opt h5 (.req h6 (.req h7 .nil)))))))
    (.optStr (.req steady_str (.req steady_str (.optBorrow (.optBorrow (.req steady_borrow (.req (steady_value hv _) .nil)))))))

theorem steady_fromPrior (n : Nat) : Steady p (fun t => (dFromPrior n t).isSome) (earlyFromPrior n) := by
  intro c t hb hp h
  obtain ⟨a, h⟩ := Option.isSome_iff_exists.1 h
  obtain ⟨m, hm, h⟩ := Option.bind_eq_some_iff.1 h
  obtain ⟨_, h1, h⟩ := Option.bind_eq_some_iff.1 h
  obtain ⟨_, h2, h⟩ := Option.bind_eq_some_iff.1 h
  obtain ⟨_, h3, h⟩ := Option.bind_eq_some_iff.1 h
  obtain ⟨_, h4, h⟩ := Option.bind_eq_some_iff.1 h
  obtain ⟨_, h5, h⟩ := Option.bind_eq_some_iff.1 h
  obtain ⟨_, h6, h⟩ := Option.bind_eq_some_iff.1 h
  obtain ⟨_, h7, h⟩ := Option.bind_eq_some_iff.1 h
  exact steady_struct hb hp (by simp only [List.map, Fld.req, Fld.opt]; decide) hm
    (.req h1 (.req h2 (.opt h3 (.opt h4 (.opt h5 (.opt h6 (.opt h7 .nil)))))))
    (.req steady_str (.req steady_str (.optStr (.optU64 (.optU64 (.optU64 (.optStr .nil)))))))

/-! ## Messages -/

theorem steady_data {f64 : Str → Option Str} (hv : ∀ n, p n → CutsRead f64 n) (n : Nat) :
    Steady p (fun t => (dAttachmentData f64 n t).isSome) (earlyValue f64 n) := by
  intro c t hb hp h
  obtain ⟨a, h⟩ := Option.isSome_iff_exists.1 h
  obtain ⟨v, h1, -⟩ := Option.bind_eq_some_iff.1 h
  exact steady_value hv n c t hb hp (by simp only [h1]; rfl)

theorem steady_attachment {f64 : Str → Option Str} (hv : ∀ n, p n → CutsRead f64 n) (n : Nat) :
    Steady p (fun t => (dAttachment f64 n t).isSome) (earlyAttachment f64 n) := by
  intro c t hb hp h
  obtain ⟨a, h⟩ := Option.isSome_iff_exists.1 h
  obtain ⟨m, hm, h⟩ := Option.bind_eq_some_iff.1 h
  obtain ⟨_, h1, h⟩ := Option.bind_eq_some_iff.1 h
  obtain ⟨_, h2, h⟩ := Option.bind_eq_some_iff.1 h
  obtain ⟨_, h3, h⟩ := Option.bind_eq_some_iff.1 h
  obtain ⟨_, h4, h⟩ := Option.bind_eq_some_iff.1 h
  obtain ⟨_, h5, h⟩ := Option.bind_eq_some_iff.1 h
  obtain ⟨_, h6, h⟩ := Option.bind_eq_some_iff.1 h
  obtain ⟨_, h7, h⟩ := Option.bind_eq_some_iff.1 h
  obtain ⟨_, h8, h⟩ := Option.bind_eq_some_iff.1 h
  exact steady_struct hb hp (by simp only [List.map, Fld.req, Fld.opt]; decide) hm
    (.req h1 (.opt h2 (.opt h3 (.opt h4 (.opt h5 (.opt h6 (.opt h7 (.opt h8 .nil))))))))
    (.req (steady_data hv _) (.optStr (.optStr (.optStr (.optStr (.optStr (.optU64 (.optU64 .nil))))))))

theorem dExtra_values {f64 : Str → Option Str} {n : Nat} {m : List (Str × Tree)} {acc r : List (Str × Value)} (h : dExtra f64 n m acc = some r) :
    ∀ q ∈ m, reservedHeaders.contains q.1 = false → (toValue f64 n q.2).isSome := by
  induction m generalizing acc with
  | nil => intro q hq; cases hq
  | cons a m ih =>
    obtain ⟨k, t⟩ := a
    rw [dExtra] at h
    intro q hq hc
    split at h
    · rename_i hk
      rcases List.mem_cons.1 hq with rfl | hq
      · rw [hk] at hc; cases hc
      · exact ih h q hq hc
    · obtain ⟨v, h1, h2⟩ := Option.bind_eq_some_iff.1 h
      rcases List.mem_cons.1 hq with rfl | hq
      · rw [h1]; rfl
      · exact ih h2 q hq hc

theorem steady_message {f64 : Str → Option Str} (hv : ∀ n, p n → CutsRead f64 n) (n : Nat) :
    Steady p (fun t => (dMessage f64 n t).isSome) (earlyMessage f64 n) := by
  intro c t hb hp h
  obtain ⟨a, h⟩ := Option.isSome_iff_exists.1 h
  obtain ⟨m, hm, h⟩ := Option.bind_eq_some_iff.1 h
  obtain ⟨_, h1, h⟩ := Option.bind_eq_some_iff.1 h
  obtain ⟨_, h2, h⟩ := Option.bind_eq_some_iff.1 h
  obtain ⟨_, h2', h⟩ := Option.bind_eq_some_iff.1 h
  obtain ⟨_, h3, h⟩ := Option.bind_eq_some_iff.1 h
  obtain ⟨_, h4, h⟩ := Option.bind_eq_some_iff.1 h
  obtain ⟨_, h5, h⟩ := Option.bind_eq_some_iff.1 h
  obtain ⟨_, h6, h⟩ := Option.bind_eq_some_iff.1 h
  obtain ⟨_, h7, h⟩ := Option.bind_eq_some_iff.1 h
  obtain ⟨_, h8, h⟩ := Option.bind_eq_some_iff.1 h
  obtain ⟨_, h9, h⟩ := Option.bind_eq_some_iff.1 h
  obtain ⟨_, h10, h⟩ := Option.bind_eq_some_iff.1 h
  obtain ⟨_, h11, h⟩ := Option.bind_eq_some_iff.1 h
  obtain ⟨_, h12, h⟩ := Option.bind_eq_some_iff.1 h
  obtain ⟨_, h13, h⟩ := Option.bind_eq_some_iff.1 h
  refine steady_map hb hp hm
    (.req h1 (.typ h2 h2' (.req h3 (.req h4 (.opt h5 (.opt h6 (.opt h7 (.opt h8 (.opt h9 (.opt h10 (.opt h11 (.opt h12 .nil))))))))))))
    (.req steady_str (.req steady_str (.req steady_str (.req (steady_value hv _) (.optStr (.optVec steady_str (.optStr (.optStr
      (.optU64 (.optU64 (.optStr (.optVec (steady_attachment hv _) .nil))))))))))))
    (steady_value hv _) fun q hq hne => dExtra_values h13 q hq ?_
  rw [Bool.eq_false_iff]
  intro hc
  have hc := List.contains_iff_mem.1 hc
  simp only [List.forall_mem_cons, Fld.req, Fld.opt] at hne
  simp only [reservedHeaders, List.mem_cons, List.not_mem_nil, or_false] at hc
  obtain ⟨n1, n2, n3, n4, n5, n6, n7, n8, n9, n10, n11, n12, -⟩ := hne
  rcases hc with e | e | e | e | e | e | e | e | e | e | e | e
  · exact n1 e.symm
  · exact n2 e.symm
  · exact n3 e.symm
  · exact n4 e.symm
  · exact n5 e.symm
  · exact n6 e.symm
  · exact n7 e.symm
  · exact n8 e.symm
  · exact n9 e.symm
  · exact n10 e.symm
  · exact n11 e.symm
  · exact n12 e.symm

end DIDComm
