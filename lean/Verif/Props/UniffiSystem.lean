import Verif.Proofs.UniffiSystem
import Verif.Props.Bindings
import Verif.Props.Questions
import Verif.Props.PackQuestions

/-! # Operations that run at the same time through the uniffi binding, and operations that are abandoned -/

set_option autoImplicit false

namespace DIDComm

variable {α : Type}

/-! ## C90: operations at the same time -/

/-- C90: whatever operations are started and in whatever order their steps and the foreign side's interleave, each operation is
where it would be if only its own steps had happened. -/
theorem C90_separate (H : List SystemAct) (s : List AnyTask) (h : systemRun H [] = some s) :
    s.length = (started H).length ∧ ∀ (i : Nat) (β : Type) (p : Prog β), (started H)[i]? = some ⟨β, p⟩ →
      ∃ t, Task.run (ownActs i H) (Task.new p) = some t ∧ s[i]? = some ⟨β, t⟩ := by
  obtain ⟨h1, -, h3⟩ := system_run h
  refine ⟨by simpa using h1, fun i β p hp => ?_⟩
  have := h3 i β p hp
  rw [List.length_nil, Nat.zero_add] at this
  exact this

/-- C90: what an operation can do next does not depend on the other operations. -/
theorem C90_possible (H : List SystemAct) (s : List AnyTask) (h : systemRun H [] = some s) (i : Nat) (β : Type) (p : Prog β)
    (hp : (started H)[i]? = some ⟨β, p⟩) (a : TaskAct) :
    (systemStep s (.task i a)).isSome = (Task.run (ownActs i H ++ [a]) (Task.new p)).isSome := by
  obtain ⟨t, ht, hs⟩ := (C90_separate H s h).2 i β p hp
  rw [taskRun_append, ht]
  simp only [systemStep, hs, Option.bind_some, Task.run]
  cases t.step a <;> rfl

/-- C90: an operation does what the core does, with answers that come from its own callbacks: the callbacks it gave out are for the
questions of the core, in order; the answer to each is what the foreign side did with that callback, number `j` of this operation,
when it was through with it; the random values are those drawn. -/
theorem C90_operation (p : Prog α) (acts : List TaskAct) (t : Task α) (h : Task.run acts (Task.new p) = some t) :
    ∃ tr, Reached p tr t.phase ∧
      (t.given = questionsOf tr ++ match t.phase with
        | .waiting q _ _ => [q]
        | _ => []) ∧
      (∀ (j : Nat) (ev : Event), (toResolvers tr)[j]? = some ev →
        ev.ans = answerTo ev.query (foreignOn j ev.query acts) ∧ Settled (foreignOn j ev.query acts)) ∧
      (∀ ev ∈ tr, UniffiAnswers ev) ∧ draws tr = drawnBy acts := by
  obtain ⟨tr, h1, h2, h3, h4, h5, h6, h7⟩ := taskInv h
  have key : ∀ (j : Nat) (ev : Event), (toResolvers tr)[j]? = some ev → ∃ c a, t.old[j]? = some c ∧
      CbHistory acts j c.query c.state ∧ adapterResult c.query c.state.waiter = some a ∧ ev = ⟨c.query, a⟩ := by
    intro j ev hev
    have hj := (List.getElem?_eq_some_iff.1 hev).1
    rw [h2] at hj
    obtain ⟨g1, a, g2, g3⟩ := h3 j t.old[j] (by simp [hj])
    rw [hev] at g3
    cases g3
    exact ⟨_, a, by simp [hj], g1, g2, rfl⟩
  refine ⟨tr, h1, ?_, ?_, ?_, h7⟩
  · unfold Task.given
    congr 1
    rw [questionsOf_eq]
    apply List.ext_getElem?
    intro j
    rw [List.getElem?_map, List.getElem?_map]
    cases hev : (toResolvers tr)[j]? with
    | none =>
      rw [List.getElem?_eq_none_iff, h2, ← List.getElem?_eq_none_iff] at hev
      rw [hev]
      rfl
    | some ev =>
      obtain ⟨c, a, g1, -, -, rfl⟩ := key j ev hev
      rw [g1]
      rfl
  · intro j ev hev
    obtain ⟨c, a, -, g1, g2, rfl⟩ := key j ev hev
    exact adapter_answer g1 g2
  · intro ev hm
    obtain ⟨q, a⟩ := ev
    by_cases hq : q.toResolver = true
    · obtain ⟨j, hj⟩ := List.getElem?_of_mem (List.mem_filter.2 ⟨hm, hq⟩ : (⟨q, a⟩ : Event) ∈ toResolvers tr)
      obtain ⟨c, a', -, g1, g2, e⟩ := key j _ hj
      rw [e]
      exact adapter_uniffi g1 g2
    · cases q with
      | random => exact .random a
      | resolve d => exact absurd rfl hq
      | getSecret d => exact absurd rfl hq
      | findSecrets d => exact absurd rfl hq

/-- C90: an operation that has not ended has not called back; one that has ended has called back once, with the result of the core,
or not at all if the core panicked; and nothing that happens later changes that. -/
theorem C90_once (p : Prog α) (acts : List TaskAct) (t : Task α) (h : Task.run acts (Task.new p) = some t) :
    (t.reports = match t.phase with
      | .ended r => uniffiReport r
      | _ => []) ∧
    ∀ r, t.phase = .ended r → ∀ more t', Task.run more t = some t' → t'.phase = .ended r ∧ t'.reports = t.reports := by
  obtain ⟨tr, hi⟩ := taskInv h
  refine ⟨hi.reports, fun r hr more => ?_⟩
  clear h hi
  induction more generalizing t with
  | nil => intro t' h; cases h; exact ⟨hr, rfl⟩
  | cons a l ih =>
    intro t' h
    simp only [Task.run, Option.bind_eq_some_iff] at h
    obtain ⟨t1, h1, h2⟩ := h
    have key : t1.phase = .ended r ∧ t1.reports = t.reports := by
      cases a with
      | foreign j q a =>
        simp only [Task.step, hr] at h1
        split at h1
        · rw [Option.map_eq_some_iff] at h1
          obtain ⟨s, -, rfl⟩ := h1
          exact ⟨rfl, rfl⟩
        · cases h1
      | draw n => simp [Task.step, hr] at h1
      | call => simp [Task.step, hr] at h1
      | poll => simp [Task.step, hr] at h1
      | finish => simp [Task.step, hr] at h1
    obtain ⟨g1, g2⟩ := ih t1 key.1 t' h2
    exact ⟨g1, g2.trans key.2⟩

/-- C90: an operation whose core is running can go on, whatever the other operations and the foreign side do: it takes any random
value, asks with a new callback, or ends. -/
theorem C90_runs (t : Task α) (p : Prog α) (hp : t.phase = .running p) :
    match p with
    | .ret r => ∃ t', t.step .finish = some t' ∧ t'.phase = .ended r
    | .ask .random k => ∀ n, ∃ t', t.step (.draw n) = some t' ∧ t'.phase = .running (k n)
    | .ask q _ => ∃ t', t.step .call = some t' ∧ t'.given = t.given ++ [q] := by
  cases p with
  | ret r => exact ⟨{ t with phase := .ended r, reports := t.reports ++ uniffiReport r }, by simp only [Task.step, hp], rfl⟩
  | ask q k =>
    cases q with
    | random => exact fun n => ⟨{ t with phase := .running (k n) }, by simp only [Task.step, hp], rfl⟩
    | resolve d => exact ⟨{ t with phase := .waiting (.resolve d) .new k }, by simp only [Task.step, hp], by simp [Task.given, hp]⟩
    | getSecret d => exact ⟨{ t with phase := .waiting (.getSecret d) .new k }, by simp only [Task.step, hp], by simp [Task.given, hp]⟩
    | findSecrets d => exact ⟨{ t with phase := .waiting (.findSecrets d) .new k }, by simp only [Task.step, hp], by simp [Task.given, hp]⟩

/-- C90: an operation that waits goes on as soon as the foreign side is through with its callback, and not before. -/
theorem C90_waits (p : Prog α) (acts : List TaskAct) (t : Task α) (h : Task.run acts (Task.new p) = some t) (q : Query)
    (cb : CbState q.Ans) (k : q.Ans → Prog α) (hp : t.phase = .waiting q cb k) :
    ∃ t', t.step .poll = some t' ∧
      (Settled (foreignOn t.old.length q acts) → t'.phase = .running (k (answerTo q (foreignOn t.old.length q acts)))) ∧
      (¬ Settled (foreignOn t.old.length q acts) → t' = t) := by
  obtain ⟨tr, hi⟩ := taskInv h
  obtain ⟨hc, hw, hq⟩ := hi.current q cb k hp
  have hpoll : ∃ cb', cb.step .poll = some cb' ∧ ((∃ w, cb'.waiter = .got w) ∨ cb'.waiter = .canceled ∨
      cb' = cb ∧ ¬ Settled (foreignOn t.old.length q acts)) := by
    obtain ⟨l, g1, g2⟩ := hc
    have hf := firstTake_filter l
    rw [g2] at hf
    have hsend : ∀ i, CbAction.send i ∈ foreignOn t.old.length q acts → CbAction.send i ∈ l := fun i hm => by
      rw [← g2] at hm
      exact (List.mem_filter.1 hm).1
    have hdrop : CbAction.dropCallback ∈ foreignOn t.old.length q acts → CbAction.dropCallback ∈ l := fun hm => by
      rw [← g2] at hm
      exact (List.mem_filter.1 hm).1
    obtain ⟨-, -, h3, -, h5⟩ := cbInv g1
    rcases h5 with ⟨q1, q2, q3, -, -, q4⟩ | ⟨i, w, q1, q2, q3, -, -, -, -, q4⟩ | ⟨q1, -, q3, -⟩ |
        ⟨i, w, -, -, -, -, -, ⟨-, q3, -⟩ | ⟨-, -, q⟩⟩
    · refine ⟨cb, by simp only [CbState.step, hw, q3, q1], .inr (.inr ⟨rfl, ?_⟩)⟩
      rintro (⟨i, v, e, -⟩ | ⟨-, e⟩)
      · rw [hf, q2] at e; cases e
      · rw [h3.2 (hdrop e)] at q4; cases q4
    · refine ⟨cb, by simp only [CbState.step, hw, q3, q1], .inr (.inr ⟨rfl, ?_⟩)⟩
      rintro (⟨i, v, -, e⟩ | ⟨e, -⟩)
      · exact q4 i (hsend i e)
      · rw [hf, q2] at e; cases e
    · exact ⟨{ cb with waiter := .canceled }, by simp only [CbState.step, hw, q3, q1], .inr (.inl rfl)⟩
    · exact ⟨{ cb with waiter := .got w }, by simp only [CbState.step, hw, q3], .inl ⟨w, rfl⟩⟩
    · rw [hw] at q; cases q
  obtain ⟨cb', hs, hcase⟩ := hpoll
  have ready : ∀ a, adapterResult q cb'.waiter = some a → ∃ t', t.step .poll = some t' ∧
      (Settled (foreignOn t.old.length q acts) → t'.phase = .running (k (answerTo q (foreignOn t.old.length q acts)))) ∧
      (¬ Settled (foreignOn t.old.length q acts) → t' = t) := by
    intro a ha
    have hh := cbHistory_poll hc hs
    have e : foreignOn t.old.length q (acts ++ [.poll]) = foreignOn t.old.length q acts := by
      rw [foreignOn_append]
      exact List.append_nil _
    obtain ⟨e1, e2⟩ := adapter_answer hh ha
    rw [e] at e1 e2
    exact ⟨_, task_poll_current hp hs ha, fun _ => by rw [← e1], fun hn => absurd e2 hn⟩
  rcases hcase with ⟨w, e⟩ | e | ⟨rfl, hn⟩
  · exact ready _ (by rw [e]; exact adapter_got hq w)
  · obtain ⟨a, ha⟩ := adapter_canceled hq
    exact ready a (by rw [e]; exact ha)
  · refine ⟨t, ?_, fun hs => absurd hs hn, fun _ => rfl⟩
    have hnone : adapterResult q cb'.waiter = none := by
      rw [hw]
      cases q <;> rfl
    simp only [Task.step, hp, hs, Option.map_some, hnone]
    cases t
    cases hp
    rfl

/-- C90: from wherever it is, an operation can still end: no order of steps leads it into a state from which it cannot. -/
theorem C90_can_end (p : Prog α) (acts : List TaskAct) (t : Task α) (h : Task.run acts (Task.new p) = some t) :
    ∃ more t' r, Task.run more t = some t' ∧ t'.phase = .ended r := by
  let E : Env := ⟨fun _ => .ok none, fun _ => .ok [], fun _ => .ok none⟩
  have running : ∀ (t : Task α) p', t.phase = .running p' → ∃ more t' r, Task.run more t = some t' ∧ t'.phase = .ended r := by
    intro t p' hp
    obtain ⟨more, t', g1, g2, -⟩ := realise E p' id t hp
    exact ⟨more, t', _, g1, g2⟩
  cases hp : t.phase with
  | running p' => exact running t p' hp
  | ended r => exact ⟨[], t, r, rfl, hp⟩
  | waiting q cb k =>
    obtain ⟨tr, hi⟩ := taskInv h
    obtain ⟨⟨l, g1, -⟩, hw, hq⟩ := hi.current q cb k hp
    obtain ⟨facts, cb1, f1, -, cb2, f3, f4⟩ := settle g1 hw (E.answer q)
    have s1 := task_foreigns facts t cb cb1 hp f1
    have hr : ∃ a, adapterResult q cb2.waiter = some a := by
      rcases f4 with ⟨w, e⟩ | e
      · exact ⟨_, by rw [e]; exact adapter_got hq w⟩
      · rw [e]; exact adapter_canceled hq
    obtain ⟨a, ha⟩ := hr
    have s2 := task_poll_current (t := { t with phase := .waiting q cb1 k }) rfl f3 ha
    obtain ⟨more, t', r, s3, s4⟩ := running { t with phase := .running (k a), old := t.old ++ [⟨q, cb2⟩] } (k a) rfl
    refine ⟨(facts.map fun a => .foreign t.old.length q a) ++ (.poll :: more), t', r, ?_, s4⟩
    rw [taskRun_append, s1]
    simp only [Option.bind_some, Task.run, s2]
    exact s3

/-- C90: completing the callback of a question that was already answered is told `InvalidState` and does not change where the
operation is. -/
theorem C90_late (p : Prog α) (acts : List TaskAct) (t t' : Task α) (h : Task.run acts (Task.new p) = some t) (j : Nat) (q : Query)
    (i : Nat) (v : q.Ans) (hj : j < t.old.length) (hs : t.step (.foreign j q (.take i v)) = some t') :
    t'.phase = t.phase ∧ t'.reports = t.reports ∧ t'.given = t.given ∧
      ∃ cb : CbState q.Ans, t'.old[j]? = some ⟨q, cb⟩ ∧ cb.returned i = some (.error .invalidState) := by
  obtain ⟨tr, hi⟩ := taskInv h
  obtain ⟨c, hc⟩ : ∃ c, t.old[j]? = some c := ⟨t.old[j], by simp [hj]⟩
  obtain ⟨⟨l, g1, -⟩, a, g2, -⟩ := hi.old j c hc
  simp only [Task.step, hc, Option.map_eq_some_iff] at hs
  obtain ⟨s, hs, rfl⟩ := hs
  unfold CbState.foreign at hs
  split at hs
  · rename_i e
    subst e
    have hgone : c.state.sender = .gone := by
      obtain ⟨-, -, -, -, h5⟩ := cbInv g1
      have hn : c.state.waiter ≠ .waiting ∧ c.state.waiter ≠ .dropped := adapter_ready g2
      rcases h5 with ⟨-, -, -, -, q | q, -⟩ | ⟨k, w, -, -, -, -, -, -, q | q, -⟩ | ⟨q, -⟩ | ⟨k, w, q, -⟩
      · exact absurd q hn.1
      · exact absurd q hn.2
      · exact absurd q hn.1
      · exact absurd q hn.2
      · exact q
      · exact q
    refine ⟨rfl, rfl, ?_, s, List.getElem?_set_self hj, ?_⟩
    · unfold Task.given
      congr 1
      apply List.ext_getElem?
      intro n
      rw [List.getElem?_map, List.getElem?_map]
      by_cases hn : j = n
      · subst hn
        rw [List.getElem?_set_self hj, hc]
        rfl
      · rw [List.getElem?_set_ne hn]
    · simp only [ForeignAct.toCb, CbState.step, hgone] at hs
      split at hs
      · cases hs
        simp
      · cases hs
  · cases hs

/-- C90: completing the callback that is waited for once more is told `InvalidState` and has no other effect. -/
theorem C90_twice (p : Prog α) (acts : List TaskAct) (t t' : Task α) (h : Task.run acts (Task.new p) = some t) (q : Query)
    (cb : CbState q.Ans) (k : q.Ans → Prog α) (hp : t.phase = .waiting q cb k) (i : Nat) (v : q.Ans)
    (hf : firstTake (foreignOn t.old.length q acts) ≠ none) (hs : t.step (.foreign t.old.length q (.take i v)) = some t') :
    t'.old = t.old ∧ t'.reports = t.reports ∧ ∃ cb' : CbState q.Ans, t'.phase = .waiting q cb' k ∧
      cb'.returned i = some (.error .invalidState) ∧ cb'.sender = cb.sender ∧ cb'.content = cb.content ∧ cb'.waiter = cb.waiter ∧
      cb'.alive = cb.alive := by
  obtain ⟨tr, hi⟩ := taskInv h
  obtain ⟨⟨l, g1, g2⟩, -, -⟩ := hi.current q cb k hp
  rw [← g2, firstTake_filter] at hf
  simp only [Task.step, List.getElem?_eq_none (Nat.le_refl _), hp, if_true, CbState.foreign, dif_pos, Option.map_eq_some_iff] at hs
  obtain ⟨s, hs, rfl⟩ := hs
  obtain ⟨e1, e2, e3, e4, e5, -⟩ := C59_no_effect l cb s g1 hf i v hs
  exact ⟨rfl, rfl, s, rfl, e1, e2, e3, e4, e5⟩

/-- C90: if the foreign side completes callbacks as `E` answers, the core gets the answers of `E` as seen through the binding; so
everything that holds of the core with such answers holds of the operation, whatever else is running. -/
theorem C90_faithful (E : Env) (p : Prog α) (acts : List TaskAct) (t : Task α) (h : Task.run acts (Task.new p) = some t)
    (hf : Faithful E acts) : ∃ tr, Reached p tr t.phase ∧ Answers E.throughUniffi tr ∧
      t.given = questionsOf tr ++ match t.phase with
        | .waiting q _ _ => [q]
        | _ => [] := by
  obtain ⟨tr, h1, h2, h3, -⟩ := C90_operation p acts t h
  refine ⟨tr, h1, fun ev hm => ?_, h2⟩
  have key : ∀ {β : Type} (l : List (CbAction (Except ErrorKind β))) (e : Except ErrorKind β), Settled l →
      (∀ i v, firstTake l = some (i, v) → v = e) → (CbAction.dropCallback ∈ l → firstTake l ≠ none) → completion l = blurred e := by
    intro β l e hs hv hd
    rcases hs with ⟨i, v, g1, -⟩ | ⟨g1, g2⟩
    · have := hv i v g1
      subst this
      unfold completion
      rw [g1]
      cases v <;> rfl
    · exact absurd g1 (hd g2)
  obtain ⟨q, a⟩ := ev
  by_cases hq : q.toResolver = true
  · obtain ⟨j, hj⟩ := List.getElem?_of_mem (List.mem_filter.2 ⟨hm, hq⟩ : (⟨q, a⟩ : Event) ∈ toResolvers tr)
    obtain ⟨e1, e2⟩ := h3 j _ hj
    obtain ⟨f1, f2⟩ := hf j q
    dsimp only at e1 e2
    subst e1
    cases q with
    | random => cases hq
    | resolve d => exact key (β := Option DIDDoc) _ _ e2 f1 f2
    | getSecret d => exact key (β := Option Secret) _ _ e2 f1 f2
    | findSecrets ks =>
      exact congrArg (Except.map fun found => ks.filter fun k => decide (k ∈ found)) (key (β := List Str) _ _ e2 f1 f2)
  · cases q with
    | random => trivial
    | resolve d => exact absurd rfl hq
    | getSecret d => exact absurd rfl hq
    | findSecrets d => exact absurd rfl hq

/-- C90: such a history exists for all resolvers and all random values: the operation ends with the result the core has with those
answers. -/
theorem C90_realised (E : Env) (rnd : Nat → Nat) (p : Prog α) : ∃ acts t, Task.run acts (Task.new p) = some t ∧ Faithful E acts ∧
    t.phase = .ended (p.run E.throughUniffi rnd).2 := by
  obtain ⟨acts, t, h1, h2, h3⟩ := realise E p rnd (Task.new p) rfl
  exact ⟨acts, t, h1, fun j q => ⟨(h3 j q).2.1, fun hd => absurd hd (h3 j q).2.2⟩, h2⟩

/-- C90: resolvers that fail with nothing but `InvalidState` and find nothing that was not asked for, in the order asked, are seen
as they are. -/
theorem C90_unchanged (E : Env) (h1 : ∀ d k, E.resolve d = .error k → k = .invalidState)
    (h2 : ∀ d k, E.getSecret d = .error k → k = .invalidState) (h3 : ∀ ks k, E.findSecrets ks = .error k → k = .invalidState)
    (h4 : ∀ ks found, E.findSecrets ks = .ok found → found = ks.filter fun k => decide (k ∈ found)) : E.throughUniffi = E := by
  have key : ∀ {β : Type} (e : Except ErrorKind β), (∀ k, e = .error k → k = .invalidState) → blurred e = e := by
    intro β e h
    cases e with
    | ok a => rfl
    | error k => rw [h k rfl]; rfl
  unfold Env.throughUniffi
  cases E with
  | mk r f g =>
    simp only [Env.mk.injEq]
    refine ⟨funext fun d => key _ (h1 d), funext fun ks => ?_, funext fun d => key _ (h2 d)⟩
    rw [key _ (h3 ks)]
    show Except.map _ (f ks) = f ks
    cases e : f ks with
    | error k => rfl
    | ok found => exact congrArg Except.ok (h4 ks found e).symm

/-- Two operations at the same time.  The second one is answered first; the first one gets the second completion only as an error,
and a late completion of the second one's callback changes nothing. -/
example : ∃ s t0 t1, systemRun
    [.start (resolve b!"did:a"), .start (findSecrets [b!"k1", b!"k2"]), .task 0 .call, .task 1 .call, .task 0 .poll,
      .task 1 (.foreign 0 (.findSecrets [b!"k1", b!"k2"]) (.take 7 (.ok [b!"k3", b!"k2"]))),
      .task 0 (.foreign 0 (.resolve b!"did:a") (.take 1 (.error .ioError))),
      .task 1 (.foreign 0 (.findSecrets [b!"k1", b!"k2"]) (.send 7)), .task 1 .poll, .task 1 .finish,
      .task 0 (.foreign 0 (.resolve b!"did:a") (.take 2 (.ok none))), .task 0 (.foreign 0 (.resolve b!"did:a") (.send 1)),
      .task 1 (.foreign 0 (.findSecrets [b!"k1", b!"k2"]) (.take 8 (.ok []))), .task 0 .poll, .task 0 .finish] [] = some s ∧
    s[0]? = some ⟨Option DIDDoc, t0⟩ ∧ s[1]? = some ⟨List Str, t1⟩ ∧ t0.reports = [.error .invalidState] ∧ t1.reports = [.success [b!"k2"]] :=
  ⟨_, _, _, rfl, rfl, rfl, rfl, rfl⟩

/-- An operation that waits for a callback that was completed but is not polled yet, and one that waits for a callback that was
not. -/
example : (∃ t q cb k, Task.run [.call, .foreign 0 (.getSecret b!"k") (.take 0 (.ok none)), .foreign 0 (.getSecret b!"k") (.send 0)]
      (Task.new (getSecret b!"k")) = some t ∧ t.phase = .waiting q cb k) ∧
    Settled (foreignOn 0 (.getSecret b!"k") [.call, .foreign 0 (.getSecret b!"k") (.take 0 (.ok none)), .foreign 0 (.getSecret b!"k") (.send 0)]) ∧
    (∃ t q cb k, Task.run [.call, .foreign 0 (.getSecret b!"k") (.take 0 (.ok none))] (Task.new (getSecret b!"k")) = some t ∧
      t.phase = .waiting q cb k) ∧
    ¬ Settled (foreignOn 0 (.getSecret b!"k") [.call, .foreign 0 (.getSecret b!"k") (.take 0 (.ok none))]) := by
  refine ⟨⟨_, _, _, _, rfl, rfl⟩, .inl ⟨0, .ok none, rfl, ?_⟩, ⟨_, _, _, _, rfl, rfl⟩, ?_⟩
  · simp [foreignOn, ForeignAct.toCb]
  · rintro (⟨i, v, -, h⟩ | ⟨h, -⟩)
    · simp [foreignOn, ForeignAct.toCb] at h
    · simp [foreignOn, ForeignAct.toCb, firstTake] at h

/-- The resolvers of the example world, as the library sees them through the binding, are themselves. -/
theorem throughUniffi_envOf (docs : List DIDDoc) (secrets : List Secret) :
    (World.envOf docs secrets).throughUniffi = World.envOf docs secrets := by
  refine C90_unchanged _ (fun d k h => by cases h) (fun d k h => by cases h) (fun ks k h => by cases h) (fun ks found h => ?_)
  cases h
  unfold exampleFindSecrets
  apply List.filter_congr
  intro k hk
  rw [Bool.eq_iff_iff, decide_eq_true_iff, List.mem_filter]
  exact ⟨fun h => ⟨hk, h⟩, fun h => h.2⟩

/-- C90_realised with packing for Bob as Alice: there is such a history, and it ends with a packed message being reported. -/
example : ∃ acts t x, Task.run acts (Task.new (packEncrypted Toy.crypto World.msg World.bob (some World.alice) none {})) = some t ∧
    Faithful World.env acts ∧ t.reports = [.success x] := by
  have h : World.test World.env (packEncrypted Toy.crypto World.msg World.bob (some World.alice) none {}) (fun _ => true) = true := by
    decide +kernel
  obtain ⟨acts, t, h1, h2, h3⟩ := C90_realised World.env id (packEncrypted Toy.crypto World.msg World.bob (some World.alice) none {})
  rw [show World.env.throughUniffi = World.env from throughUniffi_envOf _ _] at h3
  have h4 := (C90_once _ acts t h1).1
  rw [h3] at h4
  unfold World.test at h
  split at h
  · rename_i x hx
    rw [hx] at h4
    exact ⟨acts, t, x, h1, h2, h4⟩
  · cases h

/-! ## C91: operations that are abandoned -/

/-- C91: an operation that was abandoned, wherever that was, has done the beginning of what it would have done: for all resolvers
that gave the answers so far, a complete run begins like this. -/
theorem C91_begins (E : Env) (p p' : Prog α) (tr : List Event) (h : Path p tr p') (ha : Answers E tr) :
    ∃ tr' r, Runs p (tr ++ tr') r ∧ Answers E (tr ++ tr') := by
  obtain ⟨h1, h2⟩ := Prog.run_spec E id p'
  refine ⟨_, _, path_runs h h1, fun ev hm => ?_⟩
  rcases List.mem_append.1 hm with hm | hm
  · exact ha ev hm
  · exact h2 ev hm

/-- C91: and every beginning of a run is a place to be abandoned at. -/
theorem C91_anywhere (p : Prog α) (tr tr' : List Event) (r : Res α) (h : Runs p (tr ++ tr') r) :
    ∃ p', Path p tr p' ∧ Runs p' tr' r := by
  induction tr generalizing p with
  | nil => exact ⟨p, .here p, h⟩
  | cons ev tr ih =>
    cases h with
    | ask q k a _ _ h =>
      obtain ⟨p', g1, g2⟩ := ih _ h
      exact ⟨p', .next _ _ _ _ _ g1, g2⟩

variable {C : Crypto} {E : Env}

/-- C91: unpacking that was abandoned has asked the first of the questions unpacking asks. -/
theorem C91_unpack (hd : NeverLonger C) (hf : PrintsFloats C) (t : Str) (opts : UnpackOptions) (tr : List Event)
    (p' : Prog (Message × UnpackMetadata)) (h : Path (unpack C t opts) tr p') (ha : Answers E tr) :
    ∃ qs, UnpackQuestions C E opts t qs ∧ tr.map Event.query <+: qs := by
  obtain ⟨tr', r, h1, h2⟩ := C91_begins E _ p' tr h ha
  exact ⟨_, C88_questions hd hf t opts _ r h1 h2, by rw [List.map_append]; exact List.prefix_append _ _⟩

theorem questionsOf_prefix (tr tr' : List Event) : questionsOf tr <+: questionsOf (tr ++ tr') := by
  rw [questionsOf_eq, questionsOf_eq, toResolvers_append, List.map_append]
  exact List.prefix_append _ _

/-- C91: packing that was abandoned has asked the first of the questions packing asks. -/
theorem C91_pack (ht : TextEnv E) (m : Message) (to : Str) (from_ signBy : Option Str) (opts : PackEncryptedOptions) (tr : List Event)
    (p' : Prog (Str × PackEncryptedMetadata)) (h : Path (packEncrypted C m to from_ signBy opts) tr p') (ha : Answers E tr) :
    ∃ r qs, PackQuestions C E m to from_ signBy opts r qs ∧ questionsOf tr <+: qs := by
  obtain ⟨tr', r, h1, h2⟩ := C91_begins E _ p' tr h ha
  exact ⟨_, _, C89_encrypted ht m to from_ signBy opts _ r h1 h2, questionsOf_prefix tr tr'⟩

/-- C91: and for no other documents than packing asks for. -/
theorem C91_documents (ht : TextEnv E) (m : Message) (to : Str) (from_ signBy : Option Str) (opts : PackEncryptedOptions)
    (tr : List Event) (p' : Prog (Str × PackEncryptedMetadata)) (h : Path (packEncrypted C m to from_ signBy opts) tr p')
    (ha : Answers E tr) (d : Str) (hd : .resolve d ∈ questionsOf tr) : PackDocument E m to from_ signBy opts d := by
  obtain ⟨tr', r, h1, h2⟩ := C91_begins E _ p' tr h ha
  exact C89_documents ht m to from_ signBy opts _ r h1 h2 d ((questionsOf_prefix tr tr').subset hd)

/-- C91: the same through the uniffi binding, at any moment, also while a callback is waited for, whatever else is running: if the
foreign side answers as `E`, the callbacks given out are for the first of the questions of a complete run. -/
theorem C91_uniffi (p : Prog α) (acts : List TaskAct) (t : Task α) (h : Task.run acts (Task.new p) = some t) (hf : Faithful E acts) :
    ∃ tr r, Runs p tr r ∧ Answers E.throughUniffi tr ∧ t.given <+: questionsOf tr := by
  obtain ⟨tr, h1, h2, h3⟩ := C90_faithful E p acts t h hf
  cases hp : t.phase with
  | running p' =>
    rw [hp] at h1 h3
    obtain ⟨tr', r, g1, g2⟩ := C91_begins E.throughUniffi p p' tr h1 h2
    exact ⟨_, r, g1, g2, by rw [h3, List.append_nil]; exact questionsOf_prefix tr tr'⟩
  | ended r =>
    rw [hp] at h1 h3
    exact ⟨tr, r, h1, h2, by rw [h3, List.append_nil]; exact List.prefix_rfl⟩
  | waiting q cb k =>
    obtain ⟨_, hi⟩ := taskInv h
    have hq := (hi.current q cb k hp).2.2
    rw [hp] at h1 h3
    have h2' : Answers E.throughUniffi (tr ++ [⟨q, E.throughUniffi.answer q⟩]) := by
      intro ev hm
      rcases List.mem_append.1 hm with hm | hm
      · exact h2 ev hm
      · rw [List.mem_singleton.1 hm]
        cases q <;> first | rfl | cases hq
    obtain ⟨tr', r, g1, g2⟩ := C91_begins E.throughUniffi p _ _ (path_snoc h1 rfl (E.throughUniffi.answer q)) h2'
    refine ⟨_, r, g1, g2, ?_⟩
    have e : questionsOf tr ++ [q] = questionsOf (tr ++ [⟨q, E.throughUniffi.answer q⟩]) := by
      rw [questionsOf_eq, questionsOf_eq, toResolvers_append, List.map_append]
      simp [toResolvers, hq]
    rw [h3, e]
    exact questionsOf_prefix _ tr'

/-- C91: packing through the binding has, at any moment, asked the first of the questions packing asks, and for no other documents
than packing asks for. -/
theorem C91_uniffi_pack (ht : TextEnv E.throughUniffi) (m : Message) (to : Str) (from_ signBy : Option Str) (opts : PackEncryptedOptions)
    (acts : List TaskAct) (t : Task (Str × PackEncryptedMetadata))
    (h : Task.run acts (Task.new (packEncrypted C m to from_ signBy opts)) = some t) (hf : Faithful E acts) :
    (∃ r qs, PackQuestions C E.throughUniffi m to from_ signBy opts r qs ∧ t.given <+: qs) ∧
      ∀ d, .resolve d ∈ t.given → PackDocument E.throughUniffi m to from_ signBy opts d := by
  obtain ⟨tr', r, g1, g2, g3⟩ := C91_uniffi _ acts t h hf
  exact ⟨⟨_, _, C89_encrypted ht m to from_ signBy opts _ r g1 g2, g3⟩, fun d hd =>
    C89_documents ht m to from_ signBy opts _ r g1 g2 d (g3.subset hd)⟩

theorem KeyQuestions.noRandom {β : Type} {all : Bool} {tried : Str → KeyPair C → Res β → Prop} {l : List Str} {qs : List Query}
    (h : KeyQuestions C E all tried l qs) : .random ∉ qs := by
  induction h with
  | none => simp
  | stop => simp
  | next _ _ _ _ ih => simpa using ih

theorem OpenQuestions.noRandom {β : Type} {all : Bool} {tried : Str → KeyPair C → Res β → Prop} {kids : List Str} {qs : List Query}
    (h : OpenQuestions C E all tried kids qs) : .random ∉ qs := by
  cases h with
  | manyDids => simp
  | failed => simp
  | found _ _ hq => simpa using hq.noRandom

theorem UnwrapQuestions.noRandom {opts : UnpackOptions} {t : Str} {qs : List Query} (h : UnwrapQuestions C E opts t qs) :
    .random ∉ qs := by
  have anon : ∀ {all t qs}, AnonQuestions C E all t qs → .random ∉ qs := by
    rintro all t qs (_ | ⟨-, hq⟩)
    · simp
    · exact hq.noRandom
  have fwd : ∀ {t qs}, ForwardQuestions C E t qs → .random ∉ qs := by
    rintro t qs (_ | _ | _ | _) <;> simp
  induction h with
  | closed _ hq => exact anon hq
  | opened _ _ hq => exact anon hq
  | last _ _ _ hq hqf => simp [anon hq, fwd hqf]
  | again _ _ _ hq hqf _ ih => simp [anon hq, fwd hqf, ih]

theorem UnpackQuestions.noRandom {opts : UnpackOptions} {t : Str} {qs : List Query} (h : UnpackQuestions C E opts t qs) :
    .random ∉ qs := by
  have auth : ∀ {all t qs}, AuthQuestions C E all t qs → .random ∉ qs := by
    rintro all t qs (_ | _ | ⟨-, -, hq⟩)
    · simp
    · simp
    · simpa using hq.noRandom
  have sign : ∀ {t qs}, SignQuestions t qs → .random ∉ qs := by
    rintro t qs (_ | _) <;> simp
  have plain : ∀ {t qs}, PlainQuestions C t qs → .random ∉ qs := by
    rintro t qs (_ | _) <;> simp
  cases h with
  | unwrapping _ hq => exact hq.noRandom
  | auth _ _ hq ha => simp [hq.noRandom, auth ha]
  | sign _ _ _ hq ha hs => simp [hq.noRandom, auth ha, sign hs]
  | message _ _ _ hq ha hs hp => simp [hq.noRandom, auth ha, sign hs, plain hp]

/-- C91: unpacking through the binding has, at any moment, asked the first of the questions unpacking asks. -/
theorem C91_uniffi_unpack (hd : NeverLonger C) (hp : PrintsFloats C) (text : Str) (opts : UnpackOptions) (acts : List TaskAct)
    (t : Task (Message × UnpackMetadata)) (h : Task.run acts (Task.new (unpack C text opts)) = some t) (hf : Faithful E acts) :
    ∃ qs, UnpackQuestions C E.throughUniffi opts text qs ∧ t.given <+: qs := by
  obtain ⟨tr', r, g1, g2, g3⟩ := C91_uniffi _ acts t h hf
  have hq := C88_questions hd hp text opts _ r g1 g2
  refine ⟨_, hq, ?_⟩
  have e : questionsOf tr' = tr'.map Event.query := by
    unfold questionsOf
    rw [List.filter_eq_self]
    intro q hm
    cases q with
    | random => exact absurd hm hq.noRandom
    | resolve d => rfl
    | getSecret d => rfl
    | findSecrets d => rfl
  rw [← e]
  exact g3

set_option maxRecDepth 100000 in
/-- An operation abandoned in the middle: packing for Bob as Alice, after two questions. -/
example : ∃ tr p', Path (packEncrypted Toy.crypto World.msg World.bob (some World.alice) none {}) tr p' ∧ Answers World.env tr ∧
    questionsOf tr = [.resolve World.bob, .resolve World.alice] ∧ ∀ r, p' ≠ .ret r := by
  obtain ⟨h1, h2⟩ := Prog.run_spec World.env id (packEncrypted Toy.crypto World.msg World.bob (some World.alice) none {})
  have hq : questionsOf (((packEncrypted Toy.crypto World.msg World.bob (some World.alice) none {}).run World.env id).1.take 2) =
      [.resolve World.bob, .resolve World.alice] := by decide +kernel
  have hn : ((packEncrypted Toy.crypto World.msg World.bob (some World.alice) none {}).run World.env id).1.drop 2 ≠ [] := by
    intro h
    have : (((packEncrypted Toy.crypto World.msg World.bob (some World.alice) none {}).run World.env id).1.drop 2).length = 0 := by rw [h]; rfl
    revert this
    decide +kernel
  generalize ((packEncrypted Toy.crypto World.msg World.bob (some World.alice) none {}).run World.env id).1 = tr at h1 h2 hq hn
  rw [← List.take_append_drop 2 tr] at h1
  obtain ⟨p', g1, g2⟩ := C91_anywhere _ _ _ _ h1
  refine ⟨_, p', g1, fun ev hm => h2 ev (List.mem_of_mem_take hm), hq, fun r e => ?_⟩
  subst e
  generalize tr.drop 2 = l at g2 hn
  cases g2
  exact hn rfl

/-- The hypothesis of C91_uniffi_pack about the resolvers is met. -/
example : TextEnv World.env.throughUniffi := by
  rw [show World.env.throughUniffi = World.env from throughUniffi_envOf _ _]
  exact textEnv_world

end DIDComm
