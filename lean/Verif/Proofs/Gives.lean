import Verif.Spec.Env
import Verif.Proofs.Runs
import Verif.Proofs.SimpSet

/-! # Programs with a determined result -/

set_option autoImplicit false

namespace DIDComm

variable {α β : Type}

/-- In the environment `E` every run of `p` ends with `r`. -/
def Gives (E : Env) (p : Prog α) (r : Res α) : Prop := ∀ tr r', Answers E tr → Runs p tr r' → r' = r

theorem answers_nil (E : Env) : Answers E [] := fun _ h => by cases h

theorem answers_append {E : Env} {a b : List Event} : Answers E (a ++ b) ↔ Answers E a ∧ Answers E b := by
  unfold Answers
  constructor
  · intro h; exact ⟨fun ev he => h ev (by simp [he]), fun ev he => h ev (by simp [he])⟩
  · rintro ⟨h1, h2⟩ ev he
    rcases List.mem_append.1 he with h | h
    · exact h1 ev h
    · exact h2 ev h

theorem answers_cons {E : Env} {e : Event} {b : List Event} : Answers E (e :: b) ↔ E.Agrees e ∧ Answers E b := by
  unfold Answers; simp

theorem Gives.lift {E : Env} {x : Res α} : Gives E (Prog.lift x) x := by
  intro tr r' _ h; exact (runs_lift.1 h).2

theorem Gives.pure {E : Env} {x : α} : Gives E (Pure.pure x : Prog α) (.ok x) := by
  intro tr r' _ h; exact (runs_pure.1 h).2

theorem Gives.fail {E : Env} {k : ErrorKind} : Gives E (Prog.fail k : Prog α) (.error (.kind k)) := by
  intro tr r' _ h; exact (runs_fail.1 h).2

theorem Gives.bind {E : Env} {p : Prog α} {f : α → Prog β} {a : α} {r : Res β}
    (h1 : Gives E p (.ok a)) (h2 : Gives E (f a) r) : Gives E (p >>= f) r := by
  intro tr r' ha h
  rcases runs_bind.1 h with ⟨e, hp, rfl⟩ | ⟨x, t1, t2, rfl, h, h'⟩
  · cases h1 _ _ ha hp
  · rw [answers_append] at ha
    cases h1 _ _ ha.1 h
    exact h2 _ _ ha.2 h'

theorem Gives.bind_error {E : Env} {p : Prog α} {f : α → Prog β} {e : Err}
    (h1 : Gives E p (.error e)) : Gives E (p >>= f) (.error e) := by
  intro tr r' ha h
  rcases runs_bind.1 h with ⟨e', hp, rfl⟩ | ⟨x, t1, t2, rfl, h, h'⟩
  · cases h1 _ _ ha hp; rfl
  · rw [answers_append] at ha
    cases h1 _ _ ha.1 h

theorem Gives.lift_bind {E : Env} {x : Res α} {f : α → Prog β} {a : α} {r : Res β}
    (h1 : x = .ok a) (h2 : Gives E (f a) r) : Gives E (Prog.lift x >>= f) r :=
  Gives.bind (h1 ▸ Gives.lift) h2

theorem Gives.lift_error {E : Env} {x : Res α} {f : α → Prog β} {e : Err}
    (h1 : x = .error e) : Gives E (Prog.lift x >>= f) (.error e) :=
  Gives.bind_error (h1 ▸ Gives.lift)

theorem Gives.resolve {E : Env} {d : Str} {x : Option DIDDoc} (h : E.resolve d = .ok x) :
    Gives E (DIDComm.resolve d) (.ok x) := by
  intro tr r' ha hr
  rcases runs_resolve.1 hr with ⟨y, rfl, rfl⟩ | ⟨y, rfl, rfl⟩
  · have := ha _ (List.mem_singleton.2 rfl)
    simp only [Env.Agrees, h] at this; cases this; rfl
  · have := ha _ (List.mem_singleton.2 rfl)
    simp only [Env.Agrees, h] at this; cases this

theorem Gives.findSecrets {E : Env} {d : List Str} {x : List Str} (h : E.findSecrets d = .ok x) :
    Gives E (DIDComm.findSecrets d) (.ok x) := by
  intro tr r' ha hr
  rcases runs_findSecrets.1 hr with ⟨y, rfl, rfl⟩ | ⟨y, rfl, rfl⟩
  · have := ha _ (List.mem_singleton.2 rfl)
    simp only [Env.Agrees, h] at this; cases this; rfl
  · have := ha _ (List.mem_singleton.2 rfl)
    simp only [Env.Agrees, h] at this; cases this

theorem Gives.getSecret {E : Env} {d : Str} {x : Option Secret} (h : E.getSecret d = .ok x) :
    Gives E (DIDComm.getSecret d) (.ok x) := by
  intro tr r' ha hr
  rcases runs_getSecret.1 hr with ⟨y, rfl, rfl⟩ | ⟨y, rfl, rfl⟩
  · have := ha _ (List.mem_singleton.2 rfl)
    simp only [Env.Agrees, h] at this; cases this; rfl
  · have := ha _ (List.mem_singleton.2 rfl)
    simp only [Env.Agrees, h] at this; cases this

theorem Gives.withKind {E : Env} {p : Prog α} {a : α} {k : ErrorKind} (h : Gives E p (.ok a)) :
    Gives E (p.withKind k) (.ok a) := by
  intro tr r' ha hr
  obtain ⟨r1, h1, rfl⟩ := runs_withKind.1 hr
  rw [h _ _ ha h1]; rfl

/-! ## Inverting successful runs -/

theorem ok_resolve_bind {d : Str} {f : Option DIDDoc → Prog β} {tr : List Event} {b : β} :
    Runs (resolve d >>= f) tr (.ok b) ↔
      ∃ x tr', tr = ⟨.resolve d, (.ok x : Except ErrorKind (Option DIDDoc))⟩ :: tr' ∧ Runs (f x) tr' (.ok b) := by
  rw [runs_bind_ok]
  constructor
  · rintro ⟨a, t1, t2, rfl, h, h2⟩
    rcases runs_resolve.1 h with ⟨x, rfl, hx⟩ | ⟨k, rfl, hx⟩
    · exact ⟨x, t2, rfl, Except.ok.inj hx ▸ h2⟩
    · cases hx
  · rintro ⟨x, t, rfl, h⟩
    exact ⟨x, [_], t, rfl, runs_resolve.2 (.inl ⟨x, rfl, rfl⟩), h⟩

theorem ok_findSecrets_bind {d : List Str} {f : List Str → Prog β} {tr : List Event} {b : β} :
    Runs (findSecrets d >>= f) tr (.ok b) ↔
      ∃ x tr', tr = ⟨.findSecrets d, (.ok x : Except ErrorKind (List Str))⟩ :: tr' ∧ Runs (f x) tr' (.ok b) := by
  rw [runs_bind_ok]
  constructor
  · rintro ⟨a, t1, t2, rfl, h, h2⟩
    rcases runs_findSecrets.1 h with ⟨x, rfl, hx⟩ | ⟨k, rfl, hx⟩
    · exact ⟨x, t2, rfl, Except.ok.inj hx ▸ h2⟩
    · cases hx
  · rintro ⟨x, t, rfl, h⟩
    exact ⟨x, [_], t, rfl, runs_findSecrets.2 (.inl ⟨x, rfl, rfl⟩), h⟩

theorem ok_getSecret_bind {d : Str} {f : Option Secret → Prog β} {tr : List Event} {b : β} :
    Runs (getSecret d >>= f) tr (.ok b) ↔
      ∃ x tr', tr = ⟨.getSecret d, (.ok x : Except ErrorKind (Option Secret))⟩ :: tr' ∧ Runs (f x) tr' (.ok b) := by
  rw [runs_bind_ok]
  constructor
  · rintro ⟨a, t1, t2, rfl, h, h2⟩
    rcases runs_getSecret.1 h with ⟨x, rfl, hx⟩ | ⟨k, rfl, hx⟩
    · exact ⟨x, t2, rfl, Except.ok.inj hx ▸ h2⟩
    · cases hx
  · rintro ⟨x, t, rfl, h⟩
    exact ⟨x, [_], t, rfl, runs_getSecret.2 (.inl ⟨x, rfl, rfl⟩), h⟩

theorem runs_random_bind {f : Nat → Prog β} {tr : List Event} {b : Res β} :
    Runs (random >>= f) tr b ↔ ∃ (x : Nat) (tr' : List Event), tr = ⟨.random, x⟩ :: tr' ∧ Runs (f x) tr' b := by
  rw [runs_bind]
  constructor
  · rintro (⟨e, h, -⟩ | ⟨a, t1, t2, rfl, h, h2⟩)
    · obtain ⟨n, rfl, hx⟩ := runs_random.1 h; cases hx
    · obtain ⟨n, rfl, hx⟩ := runs_random.1 h
      exact ⟨n, t2, rfl, Except.ok.inj hx ▸ h2⟩
  · rintro ⟨x, t, rfl, h⟩
    exact .inr ⟨x, [_], t, rfl, runs_random.2 ⟨x, rfl, rfl⟩, h⟩

theorem ok_lift {x : Res α} {tr : List Event} {b : α} :
    Runs (Prog.lift x) tr (.ok b) ↔ tr = [] ∧ x = .ok b := by
  rw [runs_lift]; constructor <;> rintro ⟨rfl, h⟩ <;> exact ⟨rfl, h.symm⟩

theorem not_ok_fail {k : ErrorKind} {tr : List Event} {b : α} : ¬ Runs (Prog.fail k) tr (.ok b) := by
  intro h; cases (runs_fail.1 h).2

attribute [runs_ok] ok_resolve_bind ok_findSecrets_bind ok_getSecret_bind runs_random_bind runs_lift_bind_ok
  okOr_eq_ok ok_lift withKind_eq_ok Except.ok.injEq Prod.mk.injEq Prod.exists runs_pure
attribute [runs_ok low] runs_bind_ok

end DIDComm
