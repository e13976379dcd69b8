import Verif.Model.Prog

/-! # Lemmas about runs of programs -/

set_option autoImplicit false

namespace DIDComm

variable {α β : Type}

theorem runs_ret {r r' : Res α} {tr : List Event} :
    Runs (.ret r) tr r' ↔ tr = [] ∧ r' = r := by
  constructor
  · intro h; cases h; exact ⟨rfl, rfl⟩
  · rintro ⟨rfl, rfl⟩; exact .ret _

@[simp] theorem runs_lift {r r' : Res α} {tr : List Event} :
    Runs (Prog.lift r) tr r' ↔ tr = [] ∧ r' = r := runs_ret

@[simp] theorem runs_pure {a : α} {r' : Res α} {tr : List Event} :
    Runs (pure a : Prog α) tr r' ↔ tr = [] ∧ r' = .ok a := runs_ret

@[simp] theorem runs_fail {k : ErrorKind} {r' : Res α} {tr : List Event} :
    Runs (Prog.fail k : Prog α) tr r' ↔ tr = [] ∧ r' = .error (.kind k) := runs_ret

theorem runs_ask {q : Query} {k : q.Ans → Prog α} {tr : List Event} {r : Res α} :
    Runs (.ask q k) tr r ↔ ∃ a tr', tr = ⟨q, a⟩ :: tr' ∧ Runs (k a) tr' r := by
  constructor
  · intro h; cases h with | ask _ _ a tr _ h => exact ⟨a, tr, rfl, h⟩
  · rintro ⟨a, tr', rfl, h⟩; exact .ask _ _ _ _ _ h

/-- How a sequence ends: the first part fails, or both parts run. -/
theorem runs_bind {p : Prog α} {f : α → Prog β} {tr : List Event} {r : Res β} :
    Runs (p >>= f) tr r ↔
      (∃ e, Runs p tr (.error e) ∧ r = .error e) ∨
      (∃ a tr1 tr2, tr = tr1 ++ tr2 ∧ Runs p tr1 (.ok a) ∧ Runs (f a) tr2 r) := by
  change Runs (p.bind f) tr r ↔ _
  induction p generalizing tr with
  | ret x =>
    cases x with
    | ok a =>
      simp only [Prog.bind, runs_ret]
      constructor
      · intro h; exact .inr ⟨a, [], tr, rfl, ⟨rfl, rfl⟩, h⟩
      · rintro (⟨e, ⟨_, h⟩, _⟩ | ⟨a', t1, t2, rfl, ⟨rfl, h⟩, h2⟩)
        · cases h
        · cases h; simpa using h2
    | error e =>
      simp only [Prog.bind, runs_ret]
      constructor
      · rintro ⟨rfl, rfl⟩; exact .inl ⟨e, ⟨rfl, rfl⟩, rfl⟩
      · rintro (⟨e', ⟨rfl, h⟩, rfl⟩ | ⟨a', t1, t2, rfl, ⟨rfl, h⟩, h2⟩)
        · cases h; exact ⟨rfl, rfl⟩
        · cases h
  | ask q k ih =>
    simp only [Prog.bind, runs_ask, ih]
    constructor
    · rintro ⟨a, tr', rfl, (⟨e, h, rfl⟩ | ⟨b, t1, t2, rfl, h1, h2⟩)⟩
      · exact .inl ⟨e, ⟨a, tr', rfl, h⟩, rfl⟩
      · exact .inr ⟨b, ⟨q, a⟩ :: t1, t2, rfl, ⟨a, t1, rfl, h1⟩, h2⟩
    · rintro (⟨e, ⟨a, tr', rfl, h⟩, rfl⟩ | ⟨b, t1, t2, rfl, ⟨a, t1', rfl, h1⟩, h2⟩)
      · exact ⟨a, tr', rfl, .inl ⟨e, h, rfl⟩⟩
      · exact ⟨a, t1' ++ t2, rfl, .inr ⟨b, t1', t2, rfl, h1, h2⟩⟩

theorem runs_bind_ok {p : Prog α} {f : α → Prog β} {tr : List Event} {b : β} :
    Runs (p >>= f) tr (.ok b) ↔
      ∃ a tr1 tr2, tr = tr1 ++ tr2 ∧ Runs p tr1 (.ok a) ∧ Runs (f a) tr2 (.ok b) := by
  rw [runs_bind]
  constructor
  · rintro (⟨e, _, h⟩ | h)
    · cases h
    · exact h
  · exact .inr

theorem runs_bind_error {p : Prog α} {f : α → Prog β} {tr : List Event} {e : Err} :
    Runs (p >>= f) tr (.error e) ↔
      Runs p tr (.error e) ∨
      (∃ a tr1 tr2, tr = tr1 ++ tr2 ∧ Runs p tr1 (.ok a) ∧ Runs (f a) tr2 (.error e)) := by
  rw [runs_bind]
  constructor
  · rintro (⟨e', h, h'⟩ | h)
    · cases h'; exact .inl h
    · exact .inr h
  · rintro (h | h)
    · exact .inl ⟨e, h, rfl⟩
    · exact .inr h

/-- A pure step in front: it contributes no events. -/
@[simp] theorem runs_lift_bind {x : Res α} {f : α → Prog β} {tr : List Event} {r : Res β} :
    Runs (Prog.lift x >>= f) tr r ↔
      (∃ e, x = .error e ∧ tr = [] ∧ r = .error e) ∨ (∃ a, x = .ok a ∧ Runs (f a) tr r) := by
  rw [runs_bind]
  simp only [runs_lift]
  constructor
  · rintro (⟨e, ⟨rfl, rfl⟩, rfl⟩ | ⟨a, t1, t2, rfl, ⟨rfl, rfl⟩, h⟩)
    · exact .inl ⟨e, rfl, rfl, rfl⟩
    · exact .inr ⟨a, rfl, h⟩
  · rintro (⟨e, rfl, rfl, rfl⟩ | ⟨a, rfl, h⟩)
    · exact .inl ⟨e, ⟨rfl, rfl⟩, rfl⟩
    · exact .inr ⟨a, [], tr, rfl, ⟨rfl, rfl⟩, h⟩

theorem runs_lift_bind_ok {x : Res α} {f : α → Prog β} {tr : List Event} {b : β} :
    Runs (Prog.lift x >>= f) tr (.ok b) ↔ ∃ a, x = .ok a ∧ Runs (f a) tr (.ok b) := by
  rw [runs_lift_bind]
  constructor
  · rintro (⟨e, _, _, h⟩ | h)
    · cases h
    · exact h
  · exact .inr

@[simp] theorem runs_pure_bind {x : α} {f : α → Prog β} {tr : List Event} {r : Res β} :
    Runs ((pure x : Prog α) >>= f) tr r ↔ Runs (f x) tr r := Iff.rfl

@[simp] theorem runs_fail_bind {k : ErrorKind} {f : α → Prog β} {tr : List Event} {r : Res β} :
    Runs ((Prog.fail k : Prog α) >>= f) tr r ↔ tr = [] ∧ r = .error (.kind k) := runs_ret

theorem runs_resolve {d : Str} {tr : List Event} {r : Res (Option DIDDoc)} :
    Runs (resolve d) tr r ↔
      (∃ x, tr = [⟨.resolve d, (.ok x : Except ErrorKind (Option DIDDoc))⟩] ∧ r = .ok x) ∨
      (∃ k, tr = [⟨.resolve d, (.error k : Except ErrorKind (Option DIDDoc))⟩] ∧ r = .error (.kind k)) := by
  unfold resolve
  rw [runs_ask]
  constructor
  · rintro ⟨a, t, rfl, h⟩
    cases a with
    | ok x => rw [runs_ret] at h; exact .inl ⟨x, by rw [h.1], h.2⟩
    | error k => rw [runs_ret] at h; exact .inr ⟨k, by rw [h.1], h.2⟩
  · rintro (⟨x, rfl, rfl⟩ | ⟨k, rfl, rfl⟩)
    · exact ⟨_, [], rfl, .ret _⟩
    · exact ⟨_, [], rfl, .ret _⟩

theorem runs_findSecrets {d : List Str} {tr : List Event} {r : Res (List Str)} :
    Runs (findSecrets d) tr r ↔
      (∃ x, tr = [⟨.findSecrets d, (.ok x : Except ErrorKind (List Str))⟩] ∧ r = .ok x) ∨
      (∃ k, tr = [⟨.findSecrets d, (.error k : Except ErrorKind (List Str))⟩] ∧ r = .error (.kind k)) := by
  unfold findSecrets
  rw [runs_ask]
  constructor
  · rintro ⟨a, t, rfl, h⟩
    cases a with
    | ok x => rw [runs_ret] at h; exact .inl ⟨x, by rw [h.1], h.2⟩
    | error k => rw [runs_ret] at h; exact .inr ⟨k, by rw [h.1], h.2⟩
  · rintro (⟨x, rfl, rfl⟩ | ⟨k, rfl, rfl⟩)
    · exact ⟨_, [], rfl, .ret _⟩
    · exact ⟨_, [], rfl, .ret _⟩

theorem runs_getSecret {d : Str} {tr : List Event} {r : Res (Option Secret)} :
    Runs (getSecret d) tr r ↔
      (∃ x, tr = [⟨.getSecret d, (.ok x : Except ErrorKind (Option Secret))⟩] ∧ r = .ok x) ∨
      (∃ k, tr = [⟨.getSecret d, (.error k : Except ErrorKind (Option Secret))⟩] ∧ r = .error (.kind k)) := by
  unfold getSecret
  rw [runs_ask]
  constructor
  · rintro ⟨a, t, rfl, h⟩
    cases a with
    | ok x => rw [runs_ret] at h; exact .inl ⟨x, by rw [h.1], h.2⟩
    | error k => rw [runs_ret] at h; exact .inr ⟨k, by rw [h.1], h.2⟩
  · rintro (⟨x, rfl, rfl⟩ | ⟨k, rfl, rfl⟩)
    · exact ⟨_, [], rfl, .ret _⟩
    · exact ⟨_, [], rfl, .ret _⟩

theorem runs_random {tr : List Event} {r : Res Nat} :
    Runs random tr r ↔ ∃ n, tr = [⟨.random, (n : Nat)⟩] ∧ r = .ok n := by
  unfold random
  rw [runs_ask]
  constructor
  · rintro ⟨a, t, rfl, h⟩
    rw [runs_ret] at h; exact ⟨a, by rw [h.1], h.2⟩
  · rintro ⟨n, rfl, rfl⟩
    exact ⟨_, [], rfl, .ret _⟩

theorem runs_withKind {k : ErrorKind} {p : Prog α} {tr : List Event} {r : Res α} :
    Runs (p.withKind k) tr r ↔ ∃ r', Runs p tr r' ∧ r = withKind k r' := by
  induction p generalizing tr with
  | ret x =>
    simp only [Prog.withKind, runs_ret]
    constructor
    · rintro ⟨rfl, rfl⟩; exact ⟨x, ⟨rfl, rfl⟩, rfl⟩
    · rintro ⟨_, ⟨rfl, rfl⟩, rfl⟩; exact ⟨rfl, rfl⟩
  | ask q f ih =>
    simp only [Prog.withKind, runs_ask, ih]
    constructor
    · rintro ⟨a, t, rfl, r', h, rfl⟩; exact ⟨r', ⟨a, t, rfl, h⟩, rfl⟩
    · rintro ⟨r', ⟨a, t, rfl, h⟩, rfl⟩; exact ⟨a, t, rfl, r', h, rfl⟩

/-! ## Results -/

@[simp] theorem okOr_eq_ok {k : ErrorKind} {o : Option α} {a : α} : okOr k o = .ok a ↔ o = some a := by
  cases o <;> simp [okOr]

@[simp] theorem okOr_eq_error {k : ErrorKind} {o : Option α} {e : Err} :
    okOr k o = .error e ↔ o = none ∧ e = .kind k := by
  cases o <;> simp [okOr, eq_comm]

@[simp] theorem withKind_eq_ok {k : ErrorKind} {x : Res α} {a : α} : withKind k x = .ok a ↔ x = .ok a := by
  rcases x with (_ | _ | _) | _ <;> simp [withKind]

theorem res_bind_ok {x : Res α} {f : α → Res β} {b : β} :
    (x >>= f) = .ok b ↔ ∃ a, x = .ok a ∧ f a = .ok b := by
  cases x <;> simp [bind, Except.bind]

theorem res_bind_error {x : Res α} {f : α → Res β} {e : Err} :
    (x >>= f) = .error e ↔ x = .error e ∨ ∃ a, x = .ok a ∧ f a = .error e := by
  cases x <;> simp [bind, Except.bind]

theorem except_bind_ok {ε : Type} {x : Except ε α} {f : α → Except ε β} {b : β} :
    (x >>= f) = .ok b ↔ ∃ a, x = .ok a ∧ f a = .ok b := by
  cases x <;> simp [bind, Except.bind]

theorem except_bind_error {ε : Type} {x : Except ε α} {f : α → Except ε β} {e : ε} :
    (x >>= f) = .error e ↔ x = .error e ∨ ∃ a, x = .ok a ∧ f a = .error e := by
  cases x <;> simp [bind, Except.bind]

end DIDComm
