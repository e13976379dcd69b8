import Verif.Model.Prog

/-!
# Environments

An environment fixes what the resolvers answer; randomness stays free.  `Answers E tr`
says that all resolver answers recorded in a history are those of `E`.
-/

set_option autoImplicit false

namespace DIDComm

/-- Resolvers as functions. -/
structure Env where
  resolve : Str → Except ErrorKind (Option DIDDoc)
  findSecrets : List Str → Except ErrorKind (List Str)
  getSecret : Str → Except ErrorKind (Option Secret)

/-- The answer in the event is the one `E` gives. -/
def Env.Agrees (E : Env) : Event → Prop
  | ⟨.resolve d, a⟩ => a = E.resolve d
  | ⟨.findSecrets ks, a⟩ => a = E.findSecrets ks
  | ⟨.getSecret k, a⟩ => a = E.getSecret k
  | ⟨.random, _⟩ => True

/-- All answers in the history are those of `E`. -/
def Answers (E : Env) (tr : List Event) : Prop := ∀ ev ∈ tr, E.Agrees ev

/-- Run a program in an environment, with a given stream of random draws. -/
def Prog.run {α : Type} (E : Env) : (Nat → Nat) → Prog α → List Event × Res α
  | _, .ret r => ([], r)
  | rnd, .ask (.resolve d) k =>
    let x := (k (E.resolve d)).run E rnd
    (⟨.resolve d, E.resolve d⟩ :: x.1, x.2)
  | rnd, .ask (.findSecrets ks) k =>
    let x := (k (E.findSecrets ks)).run E rnd
    (⟨.findSecrets ks, E.findSecrets ks⟩ :: x.1, x.2)
  | rnd, .ask (.getSecret s) k =>
    let x := (k (E.getSecret s)).run E rnd
    (⟨.getSecret s, E.getSecret s⟩ :: x.1, x.2)
  | rnd, .ask .random k =>
    let x := (k (rnd 0)).run E (fun n => rnd (n + 1))
    (⟨.random, rnd 0⟩ :: x.1, x.2)

/-- Every program has a run in every environment. -/
theorem Prog.run_spec {α : Type} (E : Env) (rnd : Nat → Nat) (p : Prog α) :
    Runs p (p.run E rnd).1 (p.run E rnd).2 ∧ Answers E (p.run E rnd).1 := by
  induction p generalizing rnd with
  | ret r => exact ⟨.ret r, fun ev h => by cases h⟩
  | ask q k ih =>
    have key : ∀ (a : q.Ans) (rnd : Nat → Nat), E.Agrees ⟨q, a⟩ →
        Runs (.ask q k) (⟨q, a⟩ :: ((k a).run E rnd).1) ((k a).run E rnd).2 ∧
        Answers E (⟨q, a⟩ :: ((k a).run E rnd).1) := by
      intro a rnd ha
      refine ⟨.ask _ _ _ _ _ (ih a rnd).1, fun ev h => ?_⟩
      rcases List.mem_cons.1 h with rfl | h
      · exact ha
      · exact (ih a rnd).2 ev h
    cases q with
    | resolve d => exact key _ rnd rfl
    | findSecrets ks => exact key _ rnd rfl
    | getSecret s => exact key _ rnd rfl
    | random => exact key _ _ trivial

end DIDComm
