import Verif.Spec.UniffiSystem
import Verif.Proofs.Bindings

/-! # Operations that run at the same time: invariants -/

set_option autoImplicit false

namespace DIDComm

variable {α V : Type}

theorem path_snoc {p p' : Prog α} {tr : List Event} (h : Path p tr p') :
    ∀ {q : Query} {k : q.Ans → Prog α}, p' = .ask q k → ∀ a, Path p (tr ++ [⟨q, a⟩]) (k a) := by
  induction h with
  | here p =>
    intro q k e a
    subst e
    exact .next q k a [] _ (.here _)
  | next q0 k0 a0 tr0 p'0 h0 ih =>
    intro q k e a
    exact .next _ _ _ _ _ (ih e a)

theorem path_runs {p p' : Prog α} {tr tr' : List Event} {r : Res α} (h : Path p tr p') (hr : Runs p' tr' r) :
    Runs p (tr ++ tr') r := by
  induction h with
  | here p => exact hr
  | next q0 k0 a0 tr0 p'0 h0 ih => exact .ask _ _ _ _ _ (ih hr)

theorem toResolvers_append (tr tr' : List Event) : toResolvers (tr ++ tr') = toResolvers tr ++ toResolvers tr' := by
  simp [toResolvers]

theorem questionsOf_eq (tr : List Event) : questionsOf tr = (toResolvers tr).map Event.query := by
  simp only [questionsOf, toResolvers, List.filter_map]
  rfl

theorem foreignOn_append (j : Nat) (q : Query) (l l' : List TaskAct) :
    foreignOn j q (l ++ l') = foreignOn j q l ++ foreignOn j q l' := by
  induction l with
  | nil => rfl
  | cons a r ih =>
    cases a with
    | foreign j' q' a =>
      simp only [List.cons_append, foreignOn]
      split
      · rw [ih]; rfl
      · exact ih
    | draw n => exact ih
    | call => exact ih
    | poll => exact ih
    | finish => exact ih

theorem foreignOn_self (j : Nat) (q : Query) (a : ForeignAct q.Ans) : foreignOn j q [.foreign j q a] = [a.toCb] := by
  simp [foreignOn]

theorem foreignOn_nil_of_forall {j : Nat} {q : Query} {l : List TaskAct} (h : ∀ q' a, TaskAct.foreign j q' a ∉ l) :
    foreignOn j q l = [] := by
  induction l with
  | nil => rfl
  | cons a r ih =>
    have hr := ih fun q' a' hm => h q' a' (List.mem_cons_of_mem _ hm)
    cases a with
    | foreign j' q' a =>
      simp only [foreignOn]
      split
      · rename_i hj
        exact absurd (hj.1 ▸ List.mem_cons_self) (h q' a)
      · exact hr
    | draw n => exact hr
    | call => exact hr
    | poll => exact hr
    | finish => exact hr

/-- Not the waiting side's doing. -/
def CbAction.byForeign : CbAction V → Bool
  | .poll => false
  | .dropWaiter => false
  | _ => true

theorem byForeign_toCb (a : ForeignAct V) : a.toCb.byForeign = true := by cases a <;> rfl

theorem foreignOn_byForeign (j : Nat) (q : Query) (l : List TaskAct) : ∀ a ∈ foreignOn j q l, a.byForeign = true ∧ a ≠ .dropWaiter := by
  induction l with
  | nil => intro a h; cases h
  | cons a r ih =>
    cases a with
    | foreign j' q' a =>
      simp only [foreignOn]
      split
      · rename_i h
        intro b hb
        rcases List.mem_cons.1 hb with rfl | hb
        · refine ⟨byForeign_toCb _, fun e => ?_⟩
          generalize h.2 ▸ a = x at e
          cases x <;> cases e
        · exact ih b hb
      · exact ih
    | draw n => exact ih
    | call => exact ih
    | poll => exact ih
    | finish => exact ih

theorem firstTake_filter (h : List (CbAction V)) : firstTake (h.filter CbAction.byForeign) = firstTake h := by
  induction h with
  | nil => rfl
  | cons a r ih =>
    cases a with
    | take i v => rfl
    | send i => exact ih
    | poll => exact ih
    | dropWaiter => exact ih
    | dropCallback => exact ih

theorem cbRun_append (h h' : List (CbAction V)) (s : CbState V) :
    CbState.run (h ++ h') s = (CbState.run h s).bind (CbState.run h') := by
  induction h generalizing s with
  | nil => rfl
  | cons a r ih =>
    simp only [List.cons_append, CbState.run]
    cases s.step a with
    | none => rfl
    | some s1 => exact ih s1

/-- The state of a callback with which the foreign side did what `acts` says. -/
def CbHistory (acts : List TaskAct) (j : Nat) (q : Query) (s : CbState q.Ans) : Prop :=
  ∃ h, CbState.run h .new = some s ∧ h.filter CbAction.byForeign = foreignOn j q acts

theorem cbHistory_new {acts : List TaskAct} {j : Nat} {q : Query} (h : ∀ q' a, TaskAct.foreign j q' a ∉ acts) :
    CbHistory acts j q .new := ⟨[], rfl, (foreignOn_nil_of_forall h).symm⟩

theorem cbHistory_other {acts : List TaskAct} {j : Nat} {q : Query} {s : CbState q.Ans} {a : TaskAct} (hs : CbHistory acts j q s)
    (h : foreignOn j q [a] = []) : CbHistory (acts ++ [a]) j q s := by
  obtain ⟨l, h1, h2⟩ := hs
  exact ⟨l, h1, by rw [foreignOn_append, h, List.append_nil, h2]⟩

theorem cbHistory_poll {acts : List TaskAct} {j : Nat} {q : Query} {s s' : CbState q.Ans} (hs : CbHistory acts j q s)
    (h : s.step .poll = some s') : CbHistory (acts ++ [.poll]) j q s' := by
  obtain ⟨l, h1, h2⟩ := hs
  refine ⟨l ++ [.poll], ?_, ?_⟩
  · rw [cbRun_append, h1]
    simp only [Option.bind_some, CbState.run, h]
  · rw [List.filter_append, h2, foreignOn_append]
    rfl

theorem cbHistory_foreign {acts : List TaskAct} {j : Nat} {q q' : Query} {s s' : CbState q.Ans} {a : ForeignAct q'.Ans}
    (hs : CbHistory acts j q s) (h : s.foreign q' a = some s') : CbHistory (acts ++ [.foreign j q' a]) j q s' := by
  obtain ⟨l, h1, h2⟩ := hs
  unfold CbState.foreign at h
  split at h
  · rename_i e
    subst e
    refine ⟨l ++ [a.toCb], ?_, ?_⟩
    · rw [cbRun_append, h1]
      simp only [Option.bind_some, CbState.run]
      have h' : s.step a.toCb = some s' := h
      rw [h']
      rfl
    · rw [List.filter_append, h2, foreignOn_append, foreignOn_self]
      simp [byForeign_toCb]
  · cases h

theorem step_foreign_waiter {s s' : CbState V} {a : ForeignAct V} (h : s.step a.toCb = some s') : s'.waiter = s.waiter := by
  cases a with
  | take i v =>
    simp only [ForeignAct.toCb, CbState.step] at h
    split at h
    · split at h <;> cases h <;> rfl
    · cases h
  | send i =>
    simp only [ForeignAct.toCb, CbState.step] at h
    split at h
    · split at h
      · split at h <;> cases h <;> rfl
      · cases h
    · cases h
  | drop =>
    simp only [ForeignAct.toCb, CbState.step] at h
    split at h
    · split at h <;> cases h <;> rfl
    · cases h

theorem foreign_waiter {q q' : Query} {s s' : CbState q.Ans} {a : ForeignAct q'.Ans} (h : s.foreign q' a = some s') :
    s'.waiter = s.waiter := by
  unfold CbState.foreign at h
  split at h
  · exact step_foreign_waiter h
  · cases h

/-- What is handed to the core, from the history of the callback. -/
theorem result_completion {l : List (CbAction (Except ErrorKind α))} {s : CbState (Except ErrorKind α)} {a : Except ErrorKind α}
    (h : CbState.run l .new = some s) (hw : s.waiter.result = some a) : a = completion l ∧ Settled l := by
  obtain ⟨-, -, h3, -, h5⟩ := cbInv h
  unfold completion Settled
  unfold Waiter.result at hw
  rcases h5 with ⟨-, -, -, -, q | q, -⟩ | ⟨k, w, -, -, -, -, -, -, q | q, -⟩ | ⟨-, q1, -, -, q2, q | q | q⟩ |
      ⟨k, w, -, q1, -, -, q2, ⟨-, -, q | q | q⟩ | ⟨-, -, q⟩⟩ <;> rw [q] at hw <;> try cases hw
  · rw [q1]
    exact ⟨rfl, .inr ⟨rfl, h3.1 q2⟩⟩
  · rw [q1]
    cases w with
    | ok x => cases hw; exact ⟨rfl, .inl ⟨k, _, rfl, q2⟩⟩
    | error x => cases hw; exact ⟨rfl, .inl ⟨k, _, rfl, q2⟩⟩

theorem settled_filter {l : List (CbAction V)} (h : Settled l) : Settled (l.filter CbAction.byForeign) := by
  unfold Settled
  rw [firstTake_filter]
  rcases h with ⟨i, v, h1, h2⟩ | ⟨h1, h2⟩
  · exact .inl ⟨i, v, h1, List.mem_filter.2 ⟨h2, rfl⟩⟩
  · exact .inr ⟨h1, List.mem_filter.2 ⟨h2, rfl⟩⟩

theorem completion_filter (l : List (CbAction (Except ErrorKind α))) : completion (l.filter CbAction.byForeign) = completion l := by
  unfold completion
  rw [firstTake_filter]

theorem keepRequested_eq (ks found : List Str) : keepRequested ks found = ks.filter fun k => decide (k ∈ found) := by
  unfold keepRequested
  congr 1
  funext k
  rw [Bool.eq_iff_iff, List.find?_isSome]
  constructor
  · rintro ⟨x, hx, he⟩
    rw [beq_iff_eq] at he
    subst he
    simpa using hx
  · intro h
    exact ⟨k, by simpa using h, by simp⟩

theorem adapter_answer {acts : List TaskAct} {j : Nat} {q : Query} {s : CbState q.Ans} {a : q.Ans} (hs : CbHistory acts j q s)
    (ha : adapterResult q s.waiter = some a) : a = answerTo q (foreignOn j q acts) ∧ Settled (foreignOn j q acts) := by
  obtain ⟨l, h1, h2⟩ := hs
  rw [← h2]
  cases q with
  | resolve d =>
    obtain ⟨e1, e2⟩ := result_completion (α := Option DIDDoc) h1 ha
    exact ⟨e1.trans (completion_filter (α := Option DIDDoc) l).symm, settled_filter e2⟩
  | getSecret d =>
    obtain ⟨e1, e2⟩ := result_completion (α := Option Secret) h1 ha
    exact ⟨e1.trans (completion_filter (α := Option Secret) l).symm, settled_filter e2⟩
  | findSecrets ks =>
    obtain ⟨b, hb, rfl⟩ := Option.map_eq_some_iff.1 ha
    obtain ⟨e1, e2⟩ := result_completion (α := List Str) h1 hb
    refine ⟨?_, settled_filter e2⟩
    subst e1
    have e : (fun found => ks.filter fun k => decide (k ∈ found)) = keepRequested ks := funext fun found => (keepRequested_eq ks found).symm
    show Except.map (keepRequested ks) (completion (α := List Str) l) =
      Except.map (fun found => ks.filter fun k => decide (k ∈ found)) (completion (α := List Str) (List.filter CbAction.byForeign l))
    rw [e]
    exact congrArg (Except.map (keepRequested ks)) (completion_filter (α := List Str) l).symm
  | random => cases ha

theorem adapter_uniffi {acts : List TaskAct} {j : Nat} {q : Query} {s : CbState q.Ans} {a : q.Ans} (hs : CbHistory acts j q s)
    (ha : adapterResult q s.waiter = some a) : UniffiAnswers ⟨q, a⟩ := by
  obtain ⟨l, h1, -⟩ := hs
  cases q with
  | resolve d => exact .resolve d l s a h1 ha
  | getSecret d => exact .getSecret d l s a h1 ha
  | findSecrets ks =>
    obtain ⟨b, hb, rfl⟩ := Option.map_eq_some_iff.1 ha
    exact .findSecrets ks l s b h1 hb
  | random => cases ha

/-- The invariant of an operation that runs `p`, after `acts`, with the questions and answers `tr`. -/
structure TaskInv (p : Prog α) (acts : List TaskAct) (t : Task α) (tr : List Event) : Prop where
  reached : Reached p tr t.phase
  len : (toResolvers tr).length = t.old.length
  old : ∀ j c, t.old[j]? = some c → CbHistory acts j c.query c.state ∧
    ∃ a, adapterResult c.query c.state.waiter = some a ∧ (toResolvers tr)[j]? = some ⟨c.query, a⟩
  current : ∀ q cb k, t.phase = .waiting q cb k → CbHistory acts t.old.length q cb ∧ cb.waiter = .waiting ∧ q.toResolver = true
  fresh : ∀ j q a, TaskAct.foreign j q a ∈ acts →
    j < t.old.length ∨ j = t.old.length ∧ ∃ q cb k, t.phase = .waiting q cb k
  reports : t.reports = match t.phase with
    | .ended r => uniffiReport r
    | _ => []
  drawn : draws tr = drawnBy acts

theorem draws_snoc (tr : List Event) (ev : Event) : draws (tr ++ [ev]) = draws tr ++ draws [ev] := by
  induction tr with
  | nil => rfl
  | cons e r ih =>
    obtain ⟨q, a⟩ := e
    cases q with
    | random => exact congrArg _ ih
    | resolve d => exact ih
    | getSecret d => exact ih
    | findSecrets d => exact ih

theorem drawnBy_append (l l' : List TaskAct) : drawnBy (l ++ l') = drawnBy l ++ drawnBy l' := by
  induction l with
  | nil => rfl
  | cons a r ih =>
    cases a with
    | draw n => exact congrArg _ ih
    | call => exact ih
    | poll => exact ih
    | finish => exact ih
    | foreign j q a => exact ih

theorem draws_toResolver {q : Query} (h : q.toResolver = true) (a : q.Ans) : draws [⟨q, a⟩] = [] := by
  cases q <;> first | rfl | cases h

theorem taskInv_new (p : Prog α) : TaskInv p [] (Task.new p) [] := by
  refine ⟨.here p, rfl, ?_, ?_, ?_, rfl, rfl⟩
  · intro j c h
    simp [Task.new] at h
  · intro q cb k h
    cases h
  · intro j q a h
    cases h

theorem taskInv_draw {p : Prog α} {acts : List TaskAct} {t t' : Task α} {tr : List Event} {n : Nat} (hi : TaskInv p acts t tr)
    (hs : t.step (.draw n) = some t') : TaskInv p (acts ++ [.draw n]) t' (tr ++ [evRandom n]) := by
  obtain ⟨h1, h2, h3, h4, h5, h6, h7⟩ := hi
  simp only [Task.step] at hs
  split at hs
  · rename_i k hp
    cases hs
    rw [hp] at h1 h6
    have e : toResolvers (tr ++ [evRandom n]) = toResolvers tr := by rw [toResolvers_append]; simp [toResolvers, Query.toResolver]
    refine ⟨path_snoc (p' := .ask .random k) h1 rfl n, by rw [e]; exact h2, ?_, ?_, ?_, h6, by rw [draws_snoc, drawnBy_append, h7]; rfl⟩
    · intro j c hc
      rw [e]
      exact ⟨cbHistory_other (h3 j c hc).1 rfl, (h3 j c hc).2⟩
    · intro q cb k' h
      cases h
    · intro j q a hm
      rcases List.mem_append.1 hm with hm | hm
      · rcases h5 j q a hm with h | ⟨-, q, cb, k', h⟩
        · exact .inl h
        · rw [hp] at h; cases h
      · simp at hm
  · cases hs

theorem taskInv_call {p : Prog α} {acts : List TaskAct} {t t' : Task α} {tr : List Event} (hi : TaskInv p acts t tr)
    (hs : t.step .call = some t') : TaskInv p (acts ++ [.call]) t' tr := by
  obtain ⟨h1, h2, h3, h4, h5, h6, h7⟩ := hi
  simp only [Task.step] at hs
  split at hs
  · cases hs
  · rename_i q k hq hp
    cases hs
    rw [hp] at h1 h6
    refine ⟨h1, h2, ?_, ?_, ?_, h6, by rw [drawnBy_append, h7]; simp [drawnBy]⟩
    · intro j c hc
      exact ⟨cbHistory_other (h3 j c hc).1 rfl, (h3 j c hc).2⟩
    · intro q' cb k' h
      cases h
      refine ⟨cbHistory_new ?_, rfl, ?_⟩
      · intro q' a hm
        rcases List.mem_append.1 hm with hm | hm
        · rcases h5 _ q' a hm with h | ⟨-, q, cb, k', h⟩
          · exact absurd h (Nat.lt_irrefl _)
          · rw [hp] at h; cases h
        · simp at hm
      · cases q <;> first | rfl | exact absurd HEq.rfl (hq _ rfl)
    · intro j q' a hm
      rcases List.mem_append.1 hm with hm | hm
      · rcases h5 j q' a hm with h | ⟨-, q, cb, k', h⟩
        · exact .inl h
        · rw [hp] at h; cases h
      · simp at hm
  · cases hs

theorem taskInv_finish {p : Prog α} {acts : List TaskAct} {t t' : Task α} {tr : List Event} (hi : TaskInv p acts t tr)
    (hs : t.step .finish = some t') : TaskInv p (acts ++ [.finish]) t' tr := by
  obtain ⟨h1, h2, h3, h4, h5, h6, h7⟩ := hi
  simp only [Task.step] at hs
  split at hs
  · rename_i r hp
    cases hs
    rw [hp] at h1 h6
    refine ⟨?_, h2, ?_, ?_, ?_, ?_, by rw [drawnBy_append, h7]; simp [drawnBy]⟩
    · have := path_runs h1 (.ret r)
      rwa [List.append_nil] at this
    · intro j c hc
      exact ⟨cbHistory_other (h3 j c hc).1 rfl, (h3 j c hc).2⟩
    · intro q' cb k' h
      cases h
    · intro j q' a hm
      rcases List.mem_append.1 hm with hm | hm
      · rcases h5 j q' a hm with h | ⟨-, q, cb, k', h⟩
        · exact .inl h
        · rw [hp] at h; cases h
      · simp at hm
    · show t.reports ++ uniffiReport r = uniffiReport r
      rw [h6]
      rfl
  · cases hs

theorem poll_waiter {s s' : CbState V} (h : s.step .poll = some s') : s'.waiter ≠ .dropped := by
  simp only [CbState.step] at h
  split at h
  · rename_i hw
    split at h <;> cases h <;> simp [hw]
  · cases h

theorem adapter_none {q : Query} (hq : q.toResolver = true) {w : Waiter q.Ans} (h : adapterResult q w = none) (hd : w ≠ .dropped) :
    w = .waiting := by
  have key : ∀ {β : Type} (w : Waiter (Except ErrorKind β)), w.result = none → w ≠ .dropped → w = .waiting := by
    intro β w h hd
    cases w with
    | waiting => rfl
    | dropped => exact absurd rfl hd
    | canceled => cases h
    | got v => cases v <;> cases h
  cases q with
  | resolve d => exact key (β := Option DIDDoc) w h hd
  | getSecret d => exact key (β := Option Secret) w h hd
  | findSecrets ks =>
    exact key (β := List Str) w (Option.map_eq_none_iff.1 h) hd
  | random => cases hq

theorem taskInv_poll {p : Prog α} {acts : List TaskAct} {t t' : Task α} {tr : List Event} (hi : TaskInv p acts t tr)
    (hs : t.step .poll = some t') : ∃ tr', TaskInv p (acts ++ [.poll]) t' (tr ++ tr') := by
  obtain ⟨h1, h2, h3, h4, h5, h6, h7⟩ := hi
  simp only [Task.step] at hs
  split at hs
  · rename_i q cb k hp
    obtain ⟨c1, c2, c3⟩ := h4 q cb k hp
    rw [hp] at h1 h6
    rw [Option.map_eq_some_iff] at hs
    obtain ⟨cb', hcb, hs⟩ := hs
    have hfr : ∀ j q' a, TaskAct.foreign j q' a ∈ acts ++ [.poll] → j < t.old.length ∨ j = t.old.length := by
      intro j q' a hm
      rcases List.mem_append.1 hm with hm | hm
      · rcases h5 j q' a hm with h | ⟨h, -⟩
        · exact .inl h
        · exact .inr h
      · simp at hm
    split at hs
    · rename_i a ha
      subst hs
      have e : toResolvers (tr ++ [⟨q, a⟩]) = toResolvers tr ++ [⟨q, a⟩] := by
        rw [toResolvers_append]
        simp [toResolvers, c3]
      refine ⟨[⟨q, a⟩], path_snoc (p' := .ask q k) h1 rfl a, ?_, ?_, ?_, ?_, h6, by rw [draws_snoc, draws_toResolver c3, drawnBy_append, h7]; rfl⟩
      · rw [e]; simp [h2]
      · intro j c hc
        rw [e]
        rcases Nat.lt_trichotomy j t.old.length with hj | hj | hj
        · rw [List.getElem?_append_left hj] at hc
          refine ⟨cbHistory_other (h3 j c hc).1 rfl, ?_⟩
          obtain ⟨a', g1, g2⟩ := (h3 j c hc).2
          refine ⟨a', g1, ?_⟩
          rw [List.getElem?_append_left (by rw [h2]; exact hj)]
          exact g2
        · subst hj
          rw [List.getElem?_append_right (Nat.le_refl _)] at hc
          simp at hc
          subst hc
          refine ⟨cbHistory_poll c1 hcb, a, ha, ?_⟩
          rw [← h2, List.getElem?_append_right (Nat.le_refl _)]
          simp
        · rw [List.getElem?_eq_none (by simp; omega)] at hc
          cases hc
      · intro q' cb k' h
        cases h
      · intro j q' a' hm
        left
        have := hfr j q' a' hm
        simp
        omega
    · rename_i ha
      subst hs
      refine ⟨[], ?_⟩
      rw [List.append_nil]
      refine ⟨h1, h2, ?_, ?_, ?_, h6, by rw [drawnBy_append, h7]; simp [drawnBy]⟩
      · intro j c hc
        exact ⟨cbHistory_other (h3 j c hc).1 rfl, (h3 j c hc).2⟩
      · intro q' cb2 k' h
        cases h
        exact ⟨cbHistory_poll c1 hcb, adapter_none c3 ha (poll_waiter hcb), c3⟩
      · intro j q' a' hm
        rcases hfr j q' a' hm with h | h
        · exact .inl h
        · exact .inr ⟨h, _, _, _, rfl⟩
  · cases hs

theorem foreignOn_ne {j j' : Nat} (q q' : Query) (a : ForeignAct q'.Ans) (h : j' ≠ j) : foreignOn j q [.foreign j' q' a] = [] := by
  simp [foreignOn, h]

theorem taskInv_foreign {p : Prog α} {acts : List TaskAct} {t t' : Task α} {tr : List Event} {j : Nat} {q : Query}
    {a : ForeignAct q.Ans} (hi : TaskInv p acts t tr) (hs : t.step (.foreign j q a) = some t') :
    TaskInv p (acts ++ [.foreign j q a]) t' tr := by
  obtain ⟨h1, h2, h3, h4, h5, h6, h7⟩ := hi
  simp only [Task.step] at hs
  split at hs
  · rename_i c hc
    rw [Option.map_eq_some_iff] at hs
    obtain ⟨s, hs, rfl⟩ := hs
    have hj : j < t.old.length := (List.getElem?_eq_some_iff.1 hc).1
    refine ⟨h1, by simpa using h2, ?_, ?_, ?_, h6, by rw [drawnBy_append, h7]; simp [drawnBy]⟩
    · intro i d hd
      by_cases hij : j = i
      · subst hij
        rw [List.getElem?_set_self hj] at hd
        cases hd
        refine ⟨cbHistory_foreign (h3 j c hc).1 hs, ?_⟩
        show ∃ a, adapterResult c.query s.waiter = some a ∧ _
        rw [foreign_waiter hs]
        exact (h3 j c hc).2
      · rw [List.getElem?_set_ne hij] at hd
        exact ⟨cbHistory_other (h3 i d hd).1 (foreignOn_ne _ _ _ hij), (h3 i d hd).2⟩
    · intro q' cb k hp
      obtain ⟨c1, c2, c3⟩ := h4 q' cb k hp
      rw [List.length_set]
      exact ⟨cbHistory_other c1 (foreignOn_ne _ _ _ (Nat.ne_of_lt hj)), c2, c3⟩
    · intro i q' a' hm
      rw [List.length_set]
      rcases List.mem_append.1 hm with hm | hm
      · exact h5 i q' a' hm
      · simp only [List.mem_singleton] at hm
        cases hm
        exact .inl hj
  · rename_i hn
    split at hs
    · rename_i q' cb k hp
      split at hs
      · rename_i hj
        subst hj
        rw [Option.map_eq_some_iff] at hs
        obtain ⟨s, hs, rfl⟩ := hs
        obtain ⟨c1, c2, c3⟩ := h4 q' cb k hp
        rw [hp] at h1 h6
        refine ⟨h1, h2, ?_, ?_, ?_, h6, by rw [drawnBy_append, h7]; simp [drawnBy]⟩
        · intro i d hd
          have hi : i < t.old.length := (List.getElem?_eq_some_iff.1 hd).1
          exact ⟨cbHistory_other (h3 i d hd).1 (foreignOn_ne _ _ _ (Nat.ne_of_gt hi)), (h3 i d hd).2⟩
        · intro q2 cb2 k2 h
          cases h
          exact ⟨cbHistory_foreign c1 hs, by rw [foreign_waiter hs]; exact c2, c3⟩
        · intro i q2 a2 hm
          rcases List.mem_append.1 hm with hm | hm
          · rcases h5 i q2 a2 hm with h | ⟨h, -⟩
            · exact .inl h
            · exact .inr ⟨h, _, _, _, rfl⟩
          · simp only [List.mem_singleton] at hm
            cases hm
            exact .inr ⟨rfl, _, _, _, rfl⟩
      · cases hs
    · cases hs

theorem taskInv_step {p : Prog α} {acts : List TaskAct} {t t' : Task α} {tr : List Event} {a : TaskAct} (hi : TaskInv p acts t tr)
    (hs : t.step a = some t') : ∃ tr', TaskInv p (acts ++ [a]) t' (tr ++ tr') := by
  cases a with
  | draw n => exact ⟨_, taskInv_draw hi hs⟩
  | call => exact ⟨[], by simpa using taskInv_call hi hs⟩
  | poll => exact taskInv_poll hi hs
  | finish => exact ⟨[], by simpa using taskInv_finish hi hs⟩
  | foreign j q a => exact ⟨[], by simpa using taskInv_foreign hi hs⟩

theorem taskInv_run {p : Prog α} {acts l : List TaskAct} {t t' : Task α} {tr : List Event} (hi : TaskInv p acts t tr)
    (hs : Task.run l t = some t') : ∃ tr', TaskInv p (acts ++ l) t' (tr ++ tr') := by
  induction l generalizing acts t tr with
  | nil =>
    cases hs
    exact ⟨[], by simpa using hi⟩
  | cons a r ih =>
    simp only [Task.run, Option.bind_eq_some_iff] at hs
    obtain ⟨t1, h1, h2⟩ := hs
    obtain ⟨tr1, hi1⟩ := taskInv_step hi h1
    obtain ⟨tr2, hi2⟩ := ih hi1 h2
    exact ⟨tr1 ++ tr2, by simpa using hi2⟩

theorem taskInv {p : Prog α} {acts : List TaskAct} {t : Task α} (h : Task.run acts (Task.new p) = some t) :
    ∃ tr, TaskInv p acts t tr := by
  simpa using taskInv_run (taskInv_new p) h

theorem taskRun_append (l l' : List TaskAct) (t : Task α) : Task.run (l ++ l') t = (Task.run l t).bind (Task.run l') := by
  induction l generalizing t with
  | nil => rfl
  | cons a r ih =>
    simp only [List.cons_append, Task.run]
    cases t.step a with
    | none => rfl
    | some s1 => exact ih s1

/-! ## All tasks -/

theorem system_run {H : List SystemAct} {s0 s : List AnyTask} (h : systemRun H s0 = some s) :
    s.length = s0.length + (started H).length ∧
    (∀ (i : Nat) (t0 : AnyTask), s0[i]? = some t0 → ∃ t, Task.run (ownActs i H) t0.task = some t ∧ s[i]? = some ⟨t0.α, t⟩) ∧
    (∀ (i : Nat) (β : Type) (p : Prog β), (started H)[i]? = some ⟨β, p⟩ →
      ∃ t, Task.run (ownActs (s0.length + i) H) (Task.new p) = some t ∧ s[s0.length + i]? = some ⟨β, t⟩) := by
  induction H generalizing s0 with
  | nil =>
    cases h
    refine ⟨rfl, fun i t0 ht => ⟨t0.task, rfl, ht⟩, fun i β p hp => ?_⟩
    simp [started] at hp
  | cons a r ih =>
    simp only [systemRun, Option.bind_eq_some_iff] at h
    obtain ⟨s1, h1, h2⟩ := h
    obtain ⟨i1, i2, i3⟩ := ih h2
    cases a with
    | start p =>
      simp only [systemStep, Option.some.injEq] at h1
      subst h1
      refine ⟨?_, ?_, ?_⟩
      · rw [i1]
        simp only [started, List.length_append, List.length_cons, List.length_nil]
        omega
      · intro i t0 ht
        have hi := (List.getElem?_eq_some_iff.1 ht).1
        exact i2 i t0 (by rw [List.getElem?_append_left hi]; exact ht)
      · intro i β p' hp
        cases i with
        | zero =>
          simp only [started, List.getElem?_cons_zero, Option.some.injEq] at hp
          cases hp
          exact i2 s0.length ⟨_, Task.new p⟩ (by simp)
        | succ i =>
          simp only [started, List.getElem?_cons_succ] at hp
          have := i3 i β p' hp
          simp only [List.length_append, List.length_cons, List.length_nil] at this
          have e : s0.length + (0 + 1) + i = s0.length + (i + 1) := by omega
          rw [e] at this
          exact this
    | task j b =>
      simp only [systemStep] at h1
      split at h1
      · rename_i t ht
        rw [Option.map_eq_some_iff] at h1
        obtain ⟨t', hst, rfl⟩ := h1
        have hj := (List.getElem?_eq_some_iff.1 ht).1
        refine ⟨by rw [i1, List.length_set]; rfl, ?_, ?_⟩
        · intro i t0 ht0
          by_cases hij : j = i
          · subst hij
            rw [ht] at ht0
            cases ht0
            have := i2 j ⟨t.α, t'⟩ (by rw [List.getElem?_set_self hj])
            simpa [ownActs, Task.run, hst] using this
          · have := i2 i t0 (by rw [List.getElem?_set_ne hij]; exact ht0)
            simpa [ownActs, hij] using this
        · intro i β p hp
          have := i3 i β p hp
          rw [List.length_set] at this
          have hij : j ≠ s0.length + i := by omega
          simpa [ownActs, hij] using this
      · cases h1

/-! ## Ends -/

theorem task_foreign_current {t : Task α} {q : Query} {cb cb' : CbState q.Ans} {k : q.Ans → Prog α} {a : ForeignAct q.Ans}
    (hp : t.phase = .waiting q cb k) (h : cb.step a.toCb = some cb') :
    t.step (.foreign t.old.length q a) = some { t with phase := .waiting q cb' k } := by
  simp only [Task.step]
  rw [List.getElem?_eq_none (Nat.le_refl _)]
  simp only [hp, if_true, CbState.foreign, dif_pos]
  rw [h]
  rfl

theorem task_poll_current {t : Task α} {q : Query} {cb cb' : CbState q.Ans} {k : q.Ans → Prog α} {a : q.Ans}
    (hp : t.phase = .waiting q cb k) (h : cb.step .poll = some cb') (ha : adapterResult q cb'.waiter = some a) :
    t.step .poll = some { t with phase := .running (k a), old := t.old ++ [⟨q, cb'⟩] } := by
  simp only [Task.step, hp, h, Option.map_some, ha]

/-- The core's view of a completion with `v`. -/
def seen : (q : Query) → q.Ans → q.Ans
  | .resolve _, v => blurred (α := Option DIDDoc) v
  | .getSecret _, v => blurred (α := Option Secret) v
  | .findSecrets ks, v => (blurred (α := List Str) v).map (keepRequested ks)
  | .random, v => v

theorem adapter_got {q : Query} (hq : q.toResolver = true) (v : q.Ans) : adapterResult q (.got v) = some (seen q v) := by
  have key : ∀ {β : Type} (v : Except ErrorKind β), Waiter.result (.got v) = some (blurred v) := by
    intro β v
    cases v <;> rfl
  cases q with
  | resolve d => exact key (β := Option DIDDoc) v
  | getSecret d => exact key (β := Option Secret) v
  | findSecrets ks =>
    show Option.map _ (Waiter.result (α := List Str) (.got v)) = _
    rw [key (β := List Str) v]
    rfl
  | random => cases hq

theorem adapter_ready {q : Query} {w : Waiter q.Ans} {a : q.Ans} (h : adapterResult q w = some a) : w ≠ .waiting ∧ w ≠ .dropped := by
  constructor <;> rintro rfl <;> cases q <;> cases h

theorem adapter_canceled {q : Query} (hq : q.toResolver = true) : ∃ a, adapterResult q .canceled = some a := by
  cases q with
  | resolve d => exact ⟨_, rfl⟩
  | getSecret d => exact ⟨_, rfl⟩
  | findSecrets ks => exact ⟨_, rfl⟩
  | random => cases hq

theorem seen_answer (E : Env) (q : Query) : seen q (E.answer q) = E.throughUniffi.answer q := by
  cases q with
  | resolve d => rfl
  | getSecret d => rfl
  | findSecrets ks =>
    show Except.map (keepRequested ks) _ = Except.map (fun found => ks.filter fun k => decide (k ∈ found)) _
    rw [show keepRequested ks = _ from funext (keepRequested_eq ks)]
    rfl
  | random => rfl

/-- Completing callbacks from number `n` on as `E` answers. -/
def CompletesFrom (E : Env) (n : Nat) (acts : List TaskAct) : Prop :=
  ∀ (j : Nat) (q : Query), (j < n → foreignOn j q acts = []) ∧
    (∀ i v, firstTake (foreignOn j q acts) = some (i, v) → v = E.answer q) ∧ CbAction.dropCallback ∉ foreignOn j q acts

theorem foreignOn_quiet {j : Nat} {q : Query} {a : TaskAct} {l : List TaskAct} (h : foreignOn j q [a] = []) :
    foreignOn j q (a :: l) = foreignOn j q l := by
  have := foreignOn_append j q [a] l
  rw [h] at this
  exact this

/-- An operation that is running can be taken to its end. -/
theorem realise (E : Env) (p : Prog α) : ∀ (rnd : Nat → Nat) (t : Task α), t.phase = .running p →
    ∃ acts t', Task.run acts t = some t' ∧ t'.phase = .ended (p.run E.throughUniffi rnd).2 ∧ CompletesFrom E t.old.length acts := by
  induction p with
  | ret r =>
    intro rnd t hp
    refine ⟨[.finish], { t with phase := .ended r, reports := t.reports ++ uniffiReport r }, ?_, ?_, ?_⟩
    · simp only [Task.run, Task.step, hp]
      rfl
    · rfl
    · intro j q
      exact ⟨fun _ => rfl, fun i v h => (by cases h), fun h => (by cases h)⟩
  | ask q k ih =>
    intro rnd t hp
    by_cases hq : q.toResolver = true
    · have key : ∃ acts t', Task.run acts t = some t' ∧ t'.phase = .ended ((k (seen q (E.answer q))).run E.throughUniffi rnd).2 ∧
          CompletesFrom E t.old.length acts := by
        let cb1 : CbState q.Ans := { (CbState.new : CbState q.Ans) with sender := .held 0 (E.answer q), called := fun j => if j = 0 then true else false }
        let cb2 : CbState q.Ans := { cb1 with sender := .gone, content := some (E.answer q), returned := fun k => if k = 0 then some (.ok ()) else none }
        let cb3 : CbState q.Ans := { cb2 with waiter := .got (E.answer q) }
        let t0 : Task α := { t with phase := .waiting q .new k }
        let t1 : Task α := { t with phase := .waiting q cb1 k }
        let t2 : Task α := { t with phase := .waiting q cb2 k }
        let t3 : Task α := { t with phase := .running (k (seen q (E.answer q))), old := t.old ++ [⟨q, cb3⟩] }
        have s0 : t.step .call = some t0 := by
          cases q with
          | random => cases hq
          | resolve d => simp only [Task.step, hp]; rfl
          | getSecret d => simp only [Task.step, hp]; rfl
          | findSecrets d => simp only [Task.step, hp]; rfl
        have s1 : t0.step (.foreign t.old.length q (.take 0 (E.answer q))) = some t1 :=
          task_foreign_current (t := t0) (cb' := cb1) rfl rfl
        have s2 : t1.step (.foreign t.old.length q (.send 0)) = some t2 :=
          task_foreign_current (t := t1) (cb' := cb2) rfl rfl
        have s3 : t2.step .poll = some t3 := task_poll_current (t := t2) (cb' := cb3) rfl rfl (adapter_got hq _)
        obtain ⟨acts, t', g1, g2, g3⟩ := ih (seen q (E.answer q)) rnd t3 rfl
        refine ⟨.call :: .foreign t.old.length q (.take 0 (E.answer q)) :: .foreign t.old.length q (.send 0) :: .poll :: acts, t', ?_, g2, ?_⟩
        · simp only [Task.run, s0, s1, s2, s3, Option.bind_some, g1]
        · intro j q'
          obtain ⟨c1, c2, c3⟩ := g3 j q'
          have hl : t3.old.length = t.old.length + 1 := by simp [t3]
          rw [hl] at c1
          rw [foreignOn_quiet rfl]
          by_cases hj : t.old.length = j ∧ q = q'
          · obtain ⟨rfl, rfl⟩ := hj
            have hnil := c1 (Nat.lt_succ_self _)
            have e : foreignOn t.old.length q (.foreign t.old.length q (.take 0 (E.answer q)) :: .foreign t.old.length q (.send 0) :: .poll :: acts)
                = [.take 0 (E.answer q), .send 0] := by
              simp only [foreignOn, and_self, dif_pos]
              rw [hnil]
              rfl
            rw [e]
            refine ⟨fun h => absurd h (Nat.lt_irrefl _), fun i v h => ?_, by simp⟩
            cases h
            rfl
          · have e : foreignOn j q' (.foreign t.old.length q (.take 0 (E.answer q)) :: .foreign t.old.length q (.send 0) :: .poll :: acts)
                = foreignOn j q' acts := by
              simp only [foreignOn, hj, dif_neg, not_false_iff]
            rw [e]
            exact ⟨fun h => c1 (by omega), c2, c3⟩
      rw [seen_answer] at key
      cases q with
      | random => cases hq
      | resolve d => exact key
      | getSecret d => exact key
      | findSecrets d => exact key
    · cases q with
      | random =>
        obtain ⟨acts, t', g1, g2, g3⟩ := ih (rnd 0) (fun n => rnd (n + 1)) { t with phase := .running (k (rnd 0)) } rfl
        refine ⟨.draw (rnd 0) :: acts, t', ?_, ?_, g3⟩
        · simp only [Task.run, Task.step, hp, Option.bind_some]
          exact g1
        · exact g2
      | resolve d => exact absurd rfl hq
      | getSecret d => exact absurd rfl hq
      | findSecrets d => exact absurd rfl hq

theorem poll_content {s : CbState V} {v : V} (hw : s.waiter = .waiting) (hc : s.content = some v) :
    s.step .poll = some { s with waiter := .got v } := by
  simp only [CbState.step, hw, hc]

/-- A callback that is waited for can be settled. -/
theorem settle {l : List (CbAction V)} {s : CbState V} (h : CbState.run l .new = some s) (hw : s.waiter = .waiting) (v : V) :
    ∃ (acts : List (ForeignAct V)) (s' : CbState V), CbState.run (acts.map ForeignAct.toCb) s = some s' ∧ s'.waiter = .waiting ∧
      ∃ s'', s'.step .poll = some s'' ∧ ((∃ w, s''.waiter = .got w) ∨ s''.waiter = .canceled) := by
  have hi := cbInv h
  obtain ⟨h1, -, -, -, h5⟩ := hi
  rcases h5 with ⟨q1, q2, q3, q4, -, q5⟩ | ⟨i, w, q1, -, q2, -⟩ | ⟨q1, -, q3, -⟩ | ⟨i, w, -, -, -, -, -, ⟨-, q3, -⟩ | ⟨-, -, q⟩⟩
  · have hc : s.called 0 = false := by
      cases hc : s.called 0 with
      | false => rfl
      | true =>
        obtain ⟨v', hv⟩ := (h1 0).1 hc
        have : ∀ (l : List (CbAction V)) j v, CbAction.take j v ∈ l → firstTake l ≠ none := by
          intro l j v hm
          induction l with
          | nil => cases hm
          | cons a r ih =>
            cases a with
            | take i v => intro h; cases h
            | send i => exact ih (by simpa using hm)
            | poll => exact ih (by simpa using hm)
            | dropWaiter => exact ih (by simpa using hm)
            | dropCallback => exact ih (by simpa using hm)
        exact absurd q2 (this l 0 v' hv)
    refine ⟨[.take 0 v, .send 0], { s with sender := .gone, content := some v, called := fun j => if j = 0 then true else s.called j, returned := fun k => if k = 0 then some (.ok ()) else s.returned k }, ?_, hw, _, poll_content hw rfl, .inl ⟨v, rfl⟩⟩
    simp [CbState.run, ForeignAct.toCb, CbState.step, q5, hc, q1, hw]
  · refine ⟨[.send i], { s with sender := .gone, content := some w, returned := fun k => if k = i then some (.ok ()) else s.returned k }, ?_, hw, _, poll_content hw rfl, .inl ⟨w, rfl⟩⟩
    simp [CbState.run, ForeignAct.toCb, CbState.step, q1, hw]
  · refine ⟨[], s, rfl, hw, { s with waiter := .canceled }, ?_, .inr rfl⟩
    simp only [CbState.step, hw, q3, q1]
  · refine ⟨[], s, rfl, hw, { s with waiter := .got w }, ?_, .inl ⟨w, rfl⟩⟩
    simp only [CbState.step, hw, q3]
  · rw [hw] at q; cases q

theorem task_foreigns {q : Query} {k : q.Ans → Prog α} (acts : List (ForeignAct q.Ans)) : ∀ (t : Task α) (cb cb' : CbState q.Ans),
    t.phase = .waiting q cb k → CbState.run (acts.map ForeignAct.toCb) cb = some cb' →
    Task.run (acts.map fun a => .foreign t.old.length q a) t = some { t with phase := .waiting q cb' k } := by
  induction acts with
  | nil =>
    intro t cb cb' hp h
    cases h
    simp only [List.map_nil, Task.run]
    cases t
    cases hp
    rfl
  | cons a r ih =>
    intro t cb cb' hp h
    simp only [List.map_cons, CbState.run, Option.bind_eq_some_iff] at h
    obtain ⟨s1, h1, h2⟩ := h
    simp only [List.map_cons, Task.run, task_foreign_current hp h1, Option.bind_some]
    exact ih { t with phase := .waiting q s1 k } s1 cb' rfl h2

end DIDComm
