import Verif.Spec.Bindings

/-! # The callback's invariant -/

set_option autoImplicit false

namespace DIDComm

variable {V : Type}

theorem firstTake_append (h : List (CbAction V)) (a : CbAction V) :
    firstTake (h ++ [a]) = match firstTake h with
      | some x => some x
      | none => firstTake [a] := by
  induction h with
  | nil => rfl
  | cons b r ih => cases b <;> first | exact ih | rfl

/-- What calls other than the first return. -/
def Others (s : CbState V) (i : Nat) : Prop :=
  ∀ j, j ≠ i → (s.called j = false ∧ s.returned j = none) ∨ (s.called j = true ∧ s.returned j = some (.error .invalidState))

/-- The invariant of a callback with history `h`. -/
structure CbInv (h : List (CbAction V)) (s : CbState V) : Prop where
  calls : ∀ j, s.called j = true ↔ ∃ v, CbAction.take j v ∈ h
  dropped : s.waiter = .dropped ↔ CbAction.dropWaiter ∈ h
  alive : s.alive = false ↔ CbAction.dropCallback ∈ h
  sends : ∀ i, CbAction.send i ∈ h → ∃ v, firstTake h = some (i, v) ∧ s.sender = .gone
  phase :
    (s.sender = .cell ∧ firstTake h = none ∧ s.content = none ∧ (∀ j, s.returned j = none) ∧
      (s.waiter = .waiting ∨ s.waiter = .dropped) ∧ s.alive = true) ∨
    (∃ i v, s.sender = .held i v ∧ firstTake h = some (i, v) ∧ s.content = none ∧ s.returned i = none ∧ s.called i = true ∧
      Others s i ∧ (s.waiter = .waiting ∨ s.waiter = .dropped) ∧ NothingSent h) ∨
    (s.sender = .gone ∧ firstTake h = none ∧ s.content = none ∧ (∀ j, s.returned j = none) ∧ s.alive = false ∧
      (s.waiter = .waiting ∨ s.waiter = .dropped ∨ s.waiter = .canceled)) ∨
    (∃ i v, s.sender = .gone ∧ firstTake h = some (i, v) ∧ s.called i = true ∧ Others s i ∧ CbAction.send i ∈ h ∧
      ((s.returned i = some (.ok ()) ∧ s.content = some v ∧ (s.waiter = .waiting ∨ s.waiter = .dropped ∨ s.waiter = .got v)) ∨
       (s.returned i = some (.error .invalidState) ∧ s.content = none ∧ s.waiter = .dropped)))

theorem cbInv_new : CbInv [] (CbState.new : CbState V) := by
  refine ⟨?_, ?_, ?_, ?_, .inl ⟨rfl, rfl, rfl, fun _ => rfl, .inl rfl, rfl⟩⟩ <;> simp [CbState.new]

theorem cbInv_take {h : List (CbAction V)} {s s' : CbState V} {i : Nat} {v : V} (hi : CbInv h s)
    (hs : s.step (.take i v) = some s') : CbInv (h ++ [.take i v]) s' := by
  obtain ⟨h1, h2, h3, h4, h5⟩ := hi
  unfold CbState.step at hs
  dsimp only at hs
  split at hs
  rotate_left
  · cases hs
  rename_i hc
  have calls : ∀ j, (if j = i then true else s.called j) = true ↔ ∃ w, CbAction.take j w ∈ h ++ [.take i v] := by
    intro j
    by_cases hj : j = i
    · subst hj
      simp
    · simp [hj, h1]
  have noti : ∀ j, s.called j = false → s.returned j = none := by
    intro j hj
    rcases h5 with ⟨-, -, -, q, -⟩ | ⟨k, w, -, -, -, -, q1, q2, -⟩ | ⟨-, -, -, q, -⟩ | ⟨k, w, -, -, q1, q2, -⟩
    · exact q j
    · by_cases hk : j = k
      · subst hk; rw [hj] at q1; cases q1
      · rcases q2 j hk with h | h
        · exact h.2
        · rw [hj] at h; cases h.1
    · exact q j
    · by_cases hk : j = k
      · subst hk; rw [hj] at q1; cases q1
      · rcases q2 j hk with h | h
        · exact h.2
        · rw [hj] at h; cases h.1
  have others : ∀ (k : Nat) (sn : SenderAt V), k ≠ i → Others s k →
      Others (CbState.mk sn s.content s.waiter s.alive (fun j => if j = i then true else s.called j)
        (fun j => if j = i then some (.error .invalidState) else s.returned j)) k := by
    intro k sn hk ho j hj
    by_cases hji : j = i
    · simp [hji]
    · simpa [hji] using ho j hj
  split at hs <;> cases hs
  · rename_i hcell
    rcases h5 with ⟨q0, q1, q2, q3, q4, q5⟩ | ⟨k, w, q, -⟩ | ⟨q, -⟩ | ⟨k, w, q, -⟩
    rotate_left
    · rw [hcell] at q; cases q
    · rw [hcell] at q; cases q
    · rw [hcell] at q; cases q
    have hns : NothingSent h := by
      intro j hj
      obtain ⟨_, _, x⟩ := h4 j hj
      rw [hcell] at x
      cases x
    have hfirst : firstTake (h ++ [.take i v]) = some (i, v) := by rw [firstTake_append, q1]; rfl
    refine ⟨calls, by simpa using h2, by simpa using h3, ?_, .inr (.inl ⟨i, v, rfl, hfirst, q2, q3 i, by simp, ?_, q4, ?_⟩)⟩
    · intro j hj
      simp only [List.mem_append, List.mem_singleton, reduceCtorEq, or_false] at hj
      exact absurd hj (hns j)
    · intro j hj
      refine .inl ⟨?_, q3 j⟩
      simp only [if_neg hj]
      cases hcj : s.called j with
      | false => rfl
      | true =>
        exfalso
        obtain ⟨w, hw⟩ := (h1 j).1 hcj
        have : ∀ l : List (CbAction V), firstTake l = none → CbAction.take j w ∉ l := by
          intro l
          induction l with
          | nil => simp
          | cons a r ih => cases a <;> simp_all [firstTake]
        exact this h q1 hw
    · intro j hj
      simp only [List.mem_append, List.mem_singleton, reduceCtorEq, or_false] at hj
      exact hns j hj
  · rename_i hcell
    refine ⟨calls, by simpa using h2, by simpa using h3, ?_, ?_⟩
    · intro j hj
      simp only [List.mem_append, List.mem_singleton, reduceCtorEq, or_false] at hj
      obtain ⟨w, x, y⟩ := h4 j hj
      exact ⟨w, by rw [firstTake_append, x], y⟩
    · rcases h5 with ⟨q, -⟩ | ⟨k, w, q0, q1, q2, q3, q4, q5, q6, q7⟩ | ⟨q0, q1, q2, q3, q4, q5⟩ | ⟨k, w, q0, q1, q2, q3, q4, q5⟩
      · exact absurd q hcell
      · have hk : k ≠ i := by rintro rfl; rw [hc.2] at q4; cases q4
        refine .inr (.inl ⟨k, w, q0, by rw [firstTake_append, q1], q2, by simp [hk, q3], by simp [q4], others k _ hk q5, q6, ?_⟩)
        intro j hj
        simp only [List.mem_append, List.mem_singleton, reduceCtorEq, or_false] at hj
        exact q7 j hj
      · rw [hc.1] at q4; cases q4
      · have hk : k ≠ i := by rintro rfl; rw [hc.2] at q2; cases q2
        refine .inr (.inr (.inr ⟨k, w, q0, by rw [firstTake_append, q1], by simp [q2], others k _ hk q3, by simp [q4], ?_⟩))
        simpa [hk] using q5

theorem cbInv_send {h : List (CbAction V)} {s s' : CbState V} {i : Nat} (hi : CbInv h s)
    (hs : s.step (.send i) = some s') : CbInv (h ++ [.send i]) s' := by
  obtain ⟨h1, h2, h3, h4, h5⟩ := hi
  unfold CbState.step at hs
  dsimp only at hs
  split at hs
  rotate_left
  · cases hs
  rename_i k w hheld
  split at hs
  rotate_left
  · cases hs
  rename_i hik
  subst hik
  rcases h5 with ⟨q, -⟩ | ⟨k, w', q0, q1, q2, q3, q4, q5, q6, q7⟩ | ⟨q, -⟩ | ⟨k, w', q, -⟩
  · rw [hheld] at q; cases q
  rotate_left
  · rw [hheld] at q; cases q
  · rw [hheld] at q; cases q
  rw [hheld] at q0
  cases q0
  have hf : firstTake (h ++ [.send i]) = some (i, w) := by rw [firstTake_append, q1]
  have sends : ∀ j, CbAction.send j ∈ h ++ [.send i] → ∃ v, firstTake (h ++ [.send i]) = some (j, v) := by
    intro j hj
    simp only [List.mem_append, List.mem_singleton, CbAction.send.injEq] at hj
    rcases hj with hj | rfl
    · exact absurd hj (q7 j)
    · exact ⟨w, hf⟩
  have others : ∀ (r : Option (Except ErrorKind Unit)) (c : Option V),
      Others (CbState.mk .gone c s.waiter s.alive s.called (fun k => if k = i then r else s.returned k)) i := by
    intro r c j hj
    simpa [hj] using q5 j hj
  split at hs <;> cases hs
  · rename_i hd
    refine ⟨by simpa using h1, by simpa using h2, by simpa using h3, fun j hj => ?_, ?_⟩
    · obtain ⟨v, hv⟩ := sends j hj
      exact ⟨v, hv, rfl⟩
    · exact .inr (.inr (.inr ⟨i, w, rfl, hf, q4, others _ _, by simp, .inr ⟨by simp, q2, hd⟩⟩))
  · rename_i hd
    refine ⟨by simpa using h1, by simpa using h2, by simpa using h3, fun j hj => ?_, ?_⟩
    · obtain ⟨v, hv⟩ := sends j hj
      exact ⟨v, hv, rfl⟩
    · refine .inr (.inr (.inr ⟨i, w, rfl, hf, q4, others _ _, by simp, .inl ⟨by simp, rfl, ?_⟩⟩))
      rcases q6 with q | q
      · exact .inl q
      · exact .inr (.inl q)

theorem cbInv_poll {h : List (CbAction V)} {s s' : CbState V} (hi : CbInv h s)
    (hs : s.step .poll = some s') : CbInv (h ++ [.poll]) s' := by
  obtain ⟨h1, h2, h3, h4, h5⟩ := hi
  have hf : firstTake (h ++ [.poll]) = firstTake h := by rw [firstTake_append]; cases firstTake h <;> rfl
  have hsent : ∀ i, CbAction.send i ∈ h ++ [.poll] ↔ CbAction.send i ∈ h := by simp
  unfold CbState.step at hs
  dsimp only at hs
  split at hs
  rotate_left
  · cases hs
  rename_i hw
  have hnd : CbAction.dropWaiter ∉ h := by
    intro x
    rw [h2.2 x] at hw
    cases hw
  split at hs <;> cases hs
  · rename_i v hv
    refine ⟨by simpa using h1, by simpa using hnd, by simpa using h3, ?_, ?_⟩
    · simpa [hf] using h4
    · rcases h5 with ⟨-, -, q, -⟩ | ⟨k, w, -, -, q, -⟩ | ⟨-, -, q, -⟩ | ⟨k, w, q0, q1, q2, q3, q4, q5⟩
      · rw [hv] at q; cases q
      · rw [hv] at q; cases q
      · rw [hv] at q; cases q
      · rcases q5 with ⟨q5, q6, -⟩ | ⟨-, q6, -⟩
        · rw [hv] at q6
          cases q6
          exact .inr (.inr (.inr ⟨k, v, q0, by rw [hf, q1], q2, q3, by simp [q4], .inl ⟨q5, hv, .inr (.inr rfl)⟩⟩))
        · rw [hv] at q6; cases q6
  · rename_i hc hg
    refine ⟨by simpa using h1, by simpa using hnd, by simpa using h3, ?_, ?_⟩
    · simpa [hf] using h4
    · rcases h5 with ⟨q, -⟩ | ⟨k, w, q, -⟩ | ⟨q0, q1, q2, q3, q4, -⟩ | ⟨k, w, q0, q1, q2, q3, q4, q5⟩
      · rw [hg] at q; cases q
      · rw [hg] at q; cases q
      · exact .inr (.inr (.inl ⟨q0, by rw [hf, q1], q2, q3, q4, .inr (.inr rfl)⟩))
      · rcases q5 with ⟨q5, q6, -⟩ | ⟨-, q6, q7⟩
        · rw [hc] at q6; cases q6
        · rw [hw] at q7; cases q7
  · refine ⟨by simpa using h1, by simpa using h2, by simpa using h3, by simpa [hf] using h4, ?_⟩
    simpa [hf, hsent, NothingSent] using h5

theorem cbInv_dropWaiter {h : List (CbAction V)} {s s' : CbState V} (hi : CbInv h s)
    (hs : s.step .dropWaiter = some s') : CbInv (h ++ [.dropWaiter]) s' := by
  obtain ⟨h1, h2, h3, h4, h5⟩ := hi
  have hf : firstTake (h ++ [.dropWaiter]) = firstTake h := by rw [firstTake_append]; cases firstTake h <;> rfl
  unfold CbState.step at hs
  dsimp only at hs
  split at hs
  rotate_left
  · cases hs
  rename_i hw
  cases hs
  refine ⟨by simpa using h1, by simp, by simpa using h3, by simpa [hf] using h4, ?_⟩
  rcases h5 with ⟨q0, q1, q2, q3, q4, q5⟩ | ⟨k, w, q0, q1, q2, q3, q4, q5, q6, q7⟩ | ⟨q0, q1, q2, q3, q4, q5⟩ | ⟨k, w, q0, q1, q2, q3, q4, q5⟩
  · exact .inl ⟨q0, by rw [hf, q1], q2, q3, .inr rfl, q5⟩
  · exact .inr (.inl ⟨k, w, q0, by rw [hf, q1], q2, q3, q4, q5, .inr rfl, by simpa [NothingSent] using q7⟩)
  · exact .inr (.inr (.inl ⟨q0, by rw [hf, q1], q2, q3, q4, .inr (.inl rfl)⟩))
  · refine .inr (.inr (.inr ⟨k, w, q0, by rw [hf, q1], q2, q3, by simp [q4], ?_⟩))
    rcases q5 with ⟨q5, q6, -⟩ | ⟨q5, q6, -⟩
    · exact .inl ⟨q5, q6, .inr (.inl rfl)⟩
    · exact .inr ⟨q5, q6, rfl⟩

theorem cbInv_dropCallback {h : List (CbAction V)} {s s' : CbState V} (hi : CbInv h s)
    (hs : s.step .dropCallback = some s') : CbInv (h ++ [.dropCallback]) s' := by
  obtain ⟨h1, h2, h3, h4, h5⟩ := hi
  have hf : firstTake (h ++ [.dropCallback]) = firstTake h := by rw [firstTake_append]; cases firstTake h <;> rfl
  unfold CbState.step at hs
  dsimp only at hs
  split at hs
  rotate_left
  · cases hs
  rename_i ha
  split at hs
  · cases hs
  rename_i hn
  cases hs
  refine ⟨by simpa using h1, by simpa using h2, by simp, ?_, ?_⟩
  · intro i hi
    simp only [List.mem_append, List.mem_singleton, reduceCtorEq, or_false] at hi
    obtain ⟨v, hv, -⟩ := h4 i hi
    exact ⟨v, by rw [hf, hv], rfl⟩
  rcases h5 with ⟨q0, q1, q2, q3, q4, q5⟩ | ⟨k, w, q0, -⟩ | ⟨q0, q1, q2, q3, q4, q5⟩ | ⟨k, w, q0, q1, q2, q3, q4, q5⟩
  · refine .inr (.inr (.inl ⟨rfl, by rw [hf, q1], q2, q3, rfl, ?_⟩))
    rcases q4 with q | q
    · exact .inl q
    · exact .inr (.inl q)
  · exact absurd q0 (hn k w)
  · exact .inr (.inr (.inl ⟨rfl, by rw [hf, q1], q2, q3, rfl, q5⟩))
  · exact .inr (.inr (.inr ⟨k, w, rfl, by rw [hf, q1], q2, q3, by simp [q4], q5⟩))

theorem cbInv_step {h : List (CbAction V)} {s s' : CbState V} {a : CbAction V} (hi : CbInv h s) (hs : s.step a = some s') :
    CbInv (h ++ [a]) s' := by
  cases a with
  | take i v => exact cbInv_take hi hs
  | send i => exact cbInv_send hi hs
  | poll => exact cbInv_poll hi hs
  | dropWaiter => exact cbInv_dropWaiter hi hs
  | dropCallback => exact cbInv_dropCallback hi hs

theorem cbInv_run {acts : List (CbAction V)} : ∀ {h : List (CbAction V)} {s s' : CbState V}, CbInv h s →
    CbState.run acts s = some s' → CbInv (h ++ acts) s' := by
  induction acts with
  | nil => intro h s s' hi hs; cases hs; simpa using hi
  | cons a r ih =>
    intro h s s' hi hs
    unfold CbState.run at hs
    rw [Option.bind_eq_some_iff] at hs
    obtain ⟨t, h1, h2⟩ := hs
    have := ih (cbInv_step hi h1) h2
    simpa using this

/-- Every history of a callback keeps the invariant. -/
theorem cbInv {acts : List (CbAction V)} {s : CbState V} (h : CbState.run acts .new = some s) : CbInv acts s := by
  simpa using cbInv_run cbInv_new h

end DIDComm
