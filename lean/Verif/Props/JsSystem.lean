import Verif.Proofs.JsSystem
import Verif.Props.JsEnv
import Verif.Props.UniffiSystem

/-!
# C95: operations that run at the same time through the JavaScript binding

Operations are called, run, wait for promises and end in any order; the application settles promises and changes objects in between.
-/

set_option autoImplicit false

namespace DIDComm

variable {f64 : Str → Option Str}

/-- C95: whatever happens in whatever order, an operation that has run does what the core does, with the JSON that the objects it was
given had when it first ran; the answer to its question number `j` is made of what the promise that the resolver returned for that
question was settled with, the first time; the random values are those it drew.  An operation that has not run is where it was. -/
theorem C95_operation (first : Nat → Str) (H : List JsAct) (s : JsSystem) (h : JsSystem.run f64 H (.init first) = some s) (i : Nat)
    (c : JsCall) (hc : (jsStarted H)[i]? = some c) :
    ∃ t, s.tasks[i]? = some ⟨c.α, t⟩ ∧ (beforeBegin i H = none → t.phase = .called c.objs c.body) ∧
      ∀ B, beforeBegin i H = some B → ∃ tr, JsReached (c.body (c.objs.map fun o => objectAfter o (first o) B)) tr t.phase ∧
        (∀ (j : Nat) (ev : Event), (toResolvers tr)[j]? = some ev →
          ∃ n x, (promisesOf (jsOwn i H))[j]? = some n ∧ settledWith n H = some x ∧ wasmAnswer f64 ev.query x = some ev.ans) ∧
        draws tr = jsDrawn (jsOwn i H) := by
  obtain ⟨t, h1, h2⟩ := (jsSysInv h).tasks i c hc
  refine ⟨t, h1, fun hB => (h2.called hB).1, fun B hB => ?_⟩
  obtain ⟨tr, g1, g2, -, g4⟩ := h2.began B hB
  exact ⟨tr, g1, g2, g4⟩

/-- C95: other operations do not matter: leaving out all that happened to them leaves an operation, the promises and the objects as
they are. -/
theorem C95_separate (first : Nat → Str) (H : List JsAct) (s : JsSystem) (h : JsSystem.run f64 H (.init first) = some s) (i : Nat) :
    ∃ s', JsSystem.run f64 (H.filter (concerns i)) (.init first) = some s' ∧ s'.tasks[i]? = s.tasks[i]? ∧ s'.heap = s.heap := by
  have key : ∀ (l : List JsAct) (s1 s2 s3 : JsSystem), JsSystem.run f64 l s1 = some s2 → s3.heap = s1.heap →
      s3.tasks.length = s1.tasks.length → s3.tasks[i]? = s1.tasks[i]? →
      ∃ s4, JsSystem.run f64 (l.filter (concerns i)) s3 = some s4 ∧ s4.tasks[i]? = s2.tasks[i]? ∧ s4.heap = s2.heap := by
    intro l
    induction l with
    | nil =>
      intro s1 s2 s3 hr h1 h2 h3
      cases hr
      exact ⟨s3, rfl, h3, h1⟩
    | cons a r ih =>
      intro s1 s2 s3 hr h1 h2 h3
      simp only [JsSystem.run, Option.bind_eq_some_iff] at hr
      obtain ⟨s1', hs, hr⟩ := hr
      cases a with
      | start objs body =>
        cases hs
        obtain ⟨s4, g1, g2⟩ := ih _ _ { s3 with tasks := s3.tasks ++ [⟨_, JsTask.new objs body⟩] } hr h1 (by simp [h2]) (by
          by_cases hi : i < s1.tasks.length
          · rw [List.getElem?_append_left hi, List.getElem?_append_left (by omega)]
            exact h3
          · rw [List.getElem?_append_right (by omega), List.getElem?_append_right (by omega), h2])
        exact ⟨s4, by rw [List.filter_cons_of_pos rfl]; simpa only [JsSystem.run, JsSystem.step, Option.bind_some] using g1, g2⟩
      | settle n x =>
        simp only [JsSystem.step] at hs
        split at hs
        · rename_i y hy
          cases hs
          obtain ⟨s4, g1, g2⟩ := ih _ _ s3 hr h1 h2 h3
          rw [← h1] at hy
          exact ⟨s4, by rw [List.filter_cons_of_pos rfl]; simpa only [JsSystem.run, JsSystem.step, hy, Option.bind_some] using g1, g2⟩
        · rename_i hy
          cases hs
          obtain ⟨s4, g1, g2⟩ := ih _ _ { s3 with heap := { s3.heap with promises := fun m => if m = n then some x else s3.heap.promises m } }
            hr (by simp [h1]) h2 h3
          rw [← h1] at hy
          exact ⟨s4, by rw [List.filter_cons_of_pos rfl]; simpa only [JsSystem.run, JsSystem.step, hy, Option.bind_some] using g1, g2⟩
      | assign o text =>
        cases hs
        obtain ⟨s4, g1, g2⟩ := ih _ _ { s3 with heap := { s3.heap with objects := fun m => if m = o then text else s3.heap.objects m } }
          hr (by simp [h1]) h2 h3
        exact ⟨s4, by rw [List.filter_cons_of_pos rfl]; simpa only [JsSystem.run, JsSystem.step, Option.bind_some] using g1, g2⟩
      | task j a =>
        simp only [JsSystem.step] at hs
        split at hs
        · rename_i t0 ht0
          rw [Option.map_eq_some_iff] at hs
          obtain ⟨t', ht', rfl⟩ := hs
          by_cases hj : j = i
          · subst hj
            obtain ⟨s4, g1, g2⟩ := ih _ _ { s3 with tasks := s3.tasks.set j ⟨t0.α, t'⟩ } hr h1 (by simp [h2]) (by
              have hlt := (List.getElem?_eq_some_iff.1 ht0).1
              simp [hlt, h2])
            refine ⟨s4, ?_, g2⟩
            rw [h3.symm] at ht0
            simp only [List.filter_cons, concerns, beq_self_eq_true, if_true, JsSystem.run, JsSystem.step, ht0, h1, ht', Option.map_some,
              Option.bind_some]
            rw [h1] at g1
            exact g1
          · obtain ⟨s4, g1, g2⟩ := ih _ _ s3 hr h1 (by simp [h2]) (by
              simp only [List.getElem?_set_ne hj]
              exact h3)
            exact ⟨s4, by simpa [concerns, hj] using g1, g2⟩
        · cases hs
  exact key H _ s _ h rfl rfl rfl

/-- C95: an operation that has not ended has not settled its promise; one that has ended has settled it once, with the result of the
core, or not at all if the core panicked; and nothing that happens later changes that. -/
theorem C95_once (first : Nat → Str) (H : List JsAct) (s : JsSystem) (h : JsSystem.run f64 H (.init first) = some s) (i : Nat)
    (c : JsCall) (hc : (jsStarted H)[i]? = some c) (t : JsTask c.α) (ht : s.tasks[i]? = some ⟨c.α, t⟩) :
    (t.settled = match t.phase with
      | .ended r => wasmReport r
      | _ => []) ∧
    ∀ r, t.phase = .ended r → ∀ more s', JsSystem.run f64 more s = some s' → s'.tasks[i]? = some ⟨c.α, t⟩ := by
  obtain ⟨t', h1, h2⟩ := (jsSysInv h).tasks i c hc
  rw [ht] at h1
  cases h1
  refine ⟨by have := h2.settled; cases hph : t.phase <;> simpa only [hph] using this, fun r hr more => ?_⟩
  clear h hc h2
  induction more generalizing s with
  | nil => intro s' h; cases h; exact ht
  | cons a l ih =>
    intro s' h
    simp only [JsSystem.run, Option.bind_eq_some_iff] at h
    obtain ⟨s1, h1, h2⟩ := h
    refine ih s1 ?_ s' h2
    cases a with
    | start objs body =>
      cases h1
      rw [List.getElem?_append_left (List.getElem?_eq_some_iff.1 ht).1]
      exact ht
    | settle n x =>
      simp only [JsSystem.step] at h1
      split at h1 <;> cases h1 <;> exact ht
    | assign o text => cases h1; exact ht
    | task j a =>
      simp only [JsSystem.step] at h1
      split at h1
      · rename_i t0 ht0
        rw [Option.map_eq_some_iff] at h1
        obtain ⟨t', ht', rfl⟩ := h1
        by_cases hj : j = i
        · subst hj
          rw [ht] at ht0
          cases ht0
          cases a <;> simp [JsTask.step, hr] at ht'
        · simp only [List.getElem?_set_ne hj]
          exact ht
      · cases h1

/-- C95: an operation that waits goes on exactly when the promise its resolver returned is settled, whatever else happens. -/
theorem C95_waits (first : Nat → Str) (H : List JsAct) (s : JsSystem) (h : JsSystem.run f64 H (.init first) = some s) (i : Nat)
    (c : JsCall) (hc : (jsStarted H)[i]? = some c) (t : JsTask c.α) (ht : s.tasks[i]? = some ⟨c.α, t⟩) (q : Query) (n : Nat)
    (k : q.Ans → Prog c.α) (hp : t.phase = .waiting q n k) :
    (promisesOf (jsOwn i H)).getLast? = some n ∧
    (settledWith n H = none → s.step f64 (.task i .poll) = some s) ∧
    ∀ x, settledWith n H = some x → ∃ a s', wasmAnswer f64 q x = some a ∧ s.step f64 (.task i .poll) = some s' ∧
      s'.tasks[i]? = some ⟨c.α, { t with phase := .running (k a) }⟩ := by
  have hi := jsSysInv h
  obtain ⟨t', h1, h2⟩ := hi.tasks i c hc
  rw [ht] at h1
  cases h1
  have hlt := (List.getElem?_eq_some_iff.1 ht).1
  obtain ⟨B, hB⟩ : ∃ B, beforeBegin i H = some B := by
    cases hB : beforeBegin i H with
    | some B => exact ⟨B, rfl⟩
    | none => have := (h2.called hB).1; rw [hp] at this; cases this
  obtain ⟨tr, -, -, g3, -⟩ := h2.began B hB
  rw [hp] at g3
  obtain ⟨hq, l, hl, -⟩ := g3
  refine ⟨by rw [hl]; simp, fun hn => ?_, fun x hx => ?_⟩
  · have e : t.step f64 s.heap .poll = some t := by
      simp only [JsTask.step, hp, hi.promises, hn]
    simp only [JsSystem.step, ht, e, Option.map_some]
    have : s.tasks.set i ⟨c.α, t⟩ = s.tasks := by
      have he := (List.getElem?_eq_some_iff.1 ht).2
      rw [← he]
      exact List.set_getElem_self hlt
    rw [this]
  · have ha : ∃ a, wasmAnswer f64 q x = some a := by
      cases q with
      | random => cases hq
      | resolve d => exact ⟨_, rfl⟩
      | getSecret d => exact ⟨_, rfl⟩
      | findSecrets d => exact ⟨_, rfl⟩
    obtain ⟨a, ha⟩ := ha
    have e : t.step f64 s.heap .poll = some { t with phase := .running (k a) } := by
      simp only [JsTask.step, hp, hi.promises, hx, ha, Option.map_some]
    refine ⟨a, { s with tasks := s.tasks.set i ⟨c.α, { t with phase := .running (k a) }⟩ }, ha, ?_, ?_⟩
    · simp only [JsSystem.step, ht, e, Option.map_some]
    · simp [hlt]

/-- C95: an operation that has run and does not wait can go on, whatever the others do: it takes any random value, asks with any promise
the resolver returns, or ends. -/
theorem C95_runs {α : Type} (heap : JsHeap) (t : JsTask α) (p : Prog α) (hp : t.phase = .running p) :
    match p with
    | .ret r => t.step f64 heap .finish = some ⟨.ended r, t.settled ++ wasmReport r⟩
    | .ask .random k => ∀ n, t.step f64 heap (.draw n) = some ⟨.running (k n), t.settled⟩
    | .ask q k => ∀ n, t.step f64 heap (.call n) = some ⟨.waiting q n k, t.settled⟩ := by
  cases p with
  | ret r => simp only [JsTask.step, hp]
  | ask q k =>
    cases q with
    | random => intro n; simp only [JsTask.step, hp]
    | resolve d => intro n; simp only [JsTask.step, hp]
    | getSecret d => intro n; simp only [JsTask.step, hp]
    | findSecrets d => intro n; simp only [JsTask.step, hp]

/-- C95: if the promise returned for each question of an operation is settled, the first time, with what `J` replies to that question,
the operation does what the core does with the resolvers that the core sees of `J` (C94), whatever happens at the same time. -/
theorem C95_answers (J : JsEnv) (first : Nat → Str) (H : List JsAct) (s : JsSystem) (h : JsSystem.run f64 H (.init first) = some s) (i : Nat)
    (c : JsCall) (hc : (jsStarted H)[i]? = some c) (B : List JsAct) (hB : beforeBegin i H = some B) :
    ∃ t tr, s.tasks[i]? = some ⟨c.α, t⟩ ∧ JsReached (c.body (c.objs.map fun o => objectAfter o (first o) B)) tr t.phase ∧
      ((∀ (j : Nat) (ev : Event) (n : Nat) (x : Except Thrown JsValue), (toResolvers tr)[j]? = some ev →
          (promisesOf (jsOwn i H))[j]? = some n → settledWith n H = some x → J.reply ev.query = some x) →
        Answers (J.env f64) tr) := by
  obtain ⟨t, h1, -, h2⟩ := C95_operation first H s h i c hc
  obtain ⟨tr, g1, g2, -⟩ := h2 B hB
  refine ⟨t, tr, h1, g1, fun hj ev hm => ?_⟩
  obtain ⟨q, a⟩ := ev
  by_cases hq : q.toResolver = true
  · obtain ⟨j, hj'⟩ := List.getElem?_of_mem (List.mem_filter.2 ⟨hm, hq⟩ : (⟨q, a⟩ : Event) ∈ toResolvers tr)
    obtain ⟨n, x, k1, k2, k3⟩ := g2 j _ hj'
    have k4 := hj j _ n x hj' k1 k2
    cases q with
    | random => trivial
    | resolve d => cases k4; cases k3; rfl
    | getSecret d => cases k4; cases k3; rfl
    | findSecrets d => cases k4; cases k3; rfl
  · cases q with
    | random => trivial
    | resolve d => exact absurd rfl hq
    | getSecret d => exact absurd rfl hq
    | findSecrets d => exact absurd rfl hq

/-- C95: an operation gets to its end when its resolvers' promises are settled: for all resolvers `J` and random values there is a history
in which it ends as the core ends with them. -/
theorem C95_realised {α : Type} (J : JsEnv) (first : Nat → Str) (rnd : Nat → Nat) (objs : List Nat) (body : List Str → Prog α) :
    ∃ H s t, JsSystem.run f64 H (.init first) = some s ∧ jsStarted H = [⟨α, objs, body⟩] ∧ s.tasks[0]? = some ⟨α, t⟩ ∧
      t.phase = .ended ((body (objs.map first)).run (J.env f64) rnd).2 := by
  have key : ∀ (p : Prog α) (rnd : Nat → Nat) (heap : JsHeap) (N : Nat) (st : List (Except Str α)), (∀ n, N ≤ n → heap.promises n = none) →
      ∃ l s t, JsSystem.run f64 l ⟨heap, [⟨α, ⟨.running p, st⟩⟩]⟩ = some s ∧ jsStarted l = [] ∧ s.tasks[0]? = some ⟨α, t⟩ ∧
        t.phase = .ended (p.run (J.env f64) rnd).2 := by
    intro p
    induction p with
    | ret r =>
      intro rnd heap N st hN
      exact ⟨[.task 0 .finish], _, _, rfl, rfl, rfl, rfl⟩
    | ask q k ih =>
      intro rnd heap N st hN
      have go : ∀ (x : Except Thrown JsValue) (a : q.Ans), q ≠ .random → wasmAnswer f64 q x = some a →
          (Prog.run (J.env f64) rnd (.ask q k)).2 = (Prog.run (J.env f64) rnd (k a)).2 →
          ∃ l s t, JsSystem.run f64 l ⟨heap, [⟨α, ⟨.running (.ask q k), st⟩⟩]⟩ = some s ∧ jsStarted l = [] ∧ s.tasks[0]? = some ⟨α, t⟩ ∧
            t.phase = .ended (Prog.run (J.env f64) rnd (.ask q k)).2 := by
        intro x a hq ha he
        obtain ⟨l, s, t, g1, g2, g3, g4⟩ := ih a rnd { heap with promises := fun m => if m = N then some x else heap.promises m } (N + 1) st
          (by intro n hn; simp only [if_neg (show n ≠ N by omega)]; exact hN n (by omega))
        refine ⟨.task 0 (.call N) :: .settle N x :: .task 0 .poll :: l, s, t, ?_, g2, g3, by rw [he]; exact g4⟩
        cases q with
        | random => exact absurd rfl hq
        | resolve d => simpa [JsSystem.run, JsSystem.step, JsTask.step, hN N (Nat.le_refl _), ha] using g1
        | getSecret d => simpa [JsSystem.run, JsSystem.step, JsTask.step, hN N (Nat.le_refl _), ha] using g1
        | findSecrets d => simpa [JsSystem.run, JsSystem.step, JsTask.step, hN N (Nat.le_refl _), ha] using g1
      cases q with
      | random =>
        obtain ⟨l, s, t, g1, g2, g3, g4⟩ := ih (rnd 0) (fun n => rnd (n + 1)) heap N st hN
        exact ⟨.task 0 (.draw (rnd 0)) :: l, s, t, by simpa [JsSystem.run, JsSystem.step, JsTask.step] using g1, g2, g3, g4⟩
      | resolve d => exact go (J.resolve d) _ (by simp) rfl rfl
      | getSecret d => exact go (J.getSecret d) _ (by simp) rfl rfl
      | findSecrets d => exact go (J.findSecrets d) _ (by simp) rfl rfl
  obtain ⟨l, s, t, g1, g2, g3, g4⟩ := key (body (objs.map first)) rnd ⟨fun _ => none, first⟩ 0 [] (fun _ _ => rfl)
  refine ⟨.start objs body :: .task 0 .begin :: l, s, t, ?_, by simp [jsStarted, g2], g3, g4⟩
  simpa [JsSystem.run, JsSystem.step, JsTask.step, JsSystem.init, JsTask.new] using g1

/-- C95: options are read late.  Whatever options the object holds when the operation is called, if the application changes it to something
that is not options before the operation first runs, the operation is rejected as `Malformed`.  A caller who takes the options to be those
of the moment of the call is wrong. -/
theorem C95_late (C : Crypto) (first : Nat → Str) (text : Str) :
    (∀ m to from_ signBy, intoSerde .malformed (dPackOptions C.f64) text = .error (.kind .malformed) →
      ∃ s t, JsSystem.run C.f64 [.packEncrypted C m to from_ signBy 0, .assign 0 text, .task 0 .begin, .assign 0 (first 0), .task 0 .finish]
          (.init first) = some s ∧ s.tasks = [⟨_, t⟩] ∧ t.settled = [(.error b!"DIDCommMalformed" : Except Str (Str × Value))]) ∧
    (∀ msg, intoSerde .malformed dUnpackOptions text = .error (.kind .malformed) →
      ∃ s t, JsSystem.run C.f64 [.unpack C msg 0, .assign 0 text, .task 0 .begin, .assign 0 (first 0), .task 0 .finish]
          (.init first) = some s ∧ s.tasks = [⟨_, t⟩] ∧ t.settled = [(.error b!"DIDCommMalformed" : Except Str (Message × Value))]) := by
  constructor
  · intro m to from_ signBy h
    have e : wasmPackEncrypted C m to from_ signBy text = .ret (.error (.kind .malformed)) := by
      simp only [wasmPackEncrypted, h]; rfl
    refine ⟨⟨⟨fun _ => none, fun m => if m = 0 then first 0 else if m = 0 then text else first m⟩,
      [⟨_, ⟨.ended (.error (.kind .malformed)), [.error b!"DIDCommMalformed"]⟩⟩]⟩, _, ?_, rfl, rfl⟩
    simp [JsAct.packEncrypted, JsSystem.run, JsSystem.step, JsTask.step, JsSystem.init, JsTask.new, e]
    rfl
  · intro msg h
    have e : wasmUnpack C msg text = .ret (.error (.kind .malformed)) := by
      simp only [wasmUnpack, h]; rfl
    refine ⟨⟨⟨fun _ => none, fun m => if m = 0 then first 0 else if m = 0 then text else first m⟩,
      [⟨_, ⟨.ended (.error (.kind .malformed)), [.error b!"DIDCommMalformed"]⟩⟩]⟩, _, ?_, rfl, rfl⟩
    simp [JsAct.unpack, JsSystem.run, JsSystem.step, JsTask.step, JsSystem.init, JsTask.new, e]
    rfl

/-- C95: the calls that take objects.  Called and begun in any state, each does what the operation of the library does with what its
objects say at that moment: the options of `unpack` and of `pack_encrypted`; the headers, the routing keys and the algorithm of
`wrap_in_forward`, each from its own object. -/
theorem C95_calls (C : Crypto) (s : JsSystem) :
    (∀ msg o opts, intoSerde .malformed dUnpackOptions (s.heap.objects o) = .ok opts →
      ∃ s' p, JsSystem.run C.f64 [.unpack C msg o, .task s.tasks.length .begin] s = some s' ∧
        s'.tasks[s.tasks.length]? = some ⟨Message × Value, ⟨.running p, []⟩⟩ ∧
        ∀ tr r, Runs p tr r ↔ ∃ r', Runs (unpack C msg opts) tr r' ∧ r = r'.map fun p => (p.1, p.2.toJson)) ∧
    (∀ m to from_ signBy o opts, intoSerde .malformed (dPackOptions C.f64) (s.heap.objects o) = .ok opts →
      ∃ s' p, JsSystem.run C.f64 [.packEncrypted C m to from_ signBy o, .task s.tasks.length .begin] s = some s' ∧
        s'.tasks[s.tasks.length]? = some ⟨Str × Value, ⟨.running p, []⟩⟩ ∧
        ∀ tr r, Runs p tr r ↔ ∃ r', Runs (packEncrypted C m to from_ signBy opts) tr r' ∧ r = r'.map fun p => (p.1, p.2.toJson)) ∧
    (∀ msg to h k a headers keys alg, HeadersWF C.f64 127 headers → AllUtf8 keys →
      s.heap.objects h = (Value.obj headers).print → s.heap.objects k = (Value.arr (keys.map .str)).print →
      s.heap.objects a = (Value.str alg.name).print →
      ∃ s', JsSystem.run C.f64 [.wrapInForward C msg to h k a, .task s.tasks.length .begin] s = some s' ∧
        s'.tasks[s.tasks.length]? = some ⟨Str, ⟨.running (wrapInForward C msg (some headers) to keys alg), []⟩⟩) := by
  refine ⟨fun msg o opts h => ?_, fun m to from_ signBy o opts h => ?_, fun msg to h k a headers keys alg hh hk e1 e2 e3 => ?_⟩
  · refine ⟨_, wasmUnpack C msg (s.heap.objects o), by simp [JsAct.unpack, JsSystem.run, JsSystem.step, JsTask.step, JsTask.new]; rfl, by simp,
      fun tr r => C69_unpack C msg _ opts h tr r⟩
  · refine ⟨_, wasmPackEncrypted C m to from_ signBy (s.heap.objects o),
      by simp [JsAct.packEncrypted, JsSystem.run, JsSystem.step, JsTask.step, JsTask.new]; rfl, by simp,
      fun tr r => C69_pack_encrypted C m to from_ signBy _ opts h tr r⟩
  · rw [← C69_wrap C msg to headers keys alg hh hk, ← e1, ← e2, ← e3]
    exact ⟨_, by simp [JsAct.wrapInForward, JsSystem.run, JsSystem.step, JsTask.step, JsTask.new]; rfl, by simp⟩

/-- C95_calls: a state in which objects 0, 1 and 2 are headers, routing keys and an algorithm, and object 3 options of both kinds. -/
example : ∃ (s : JsSystem) (headers : List (Str × Value)) (keys : List Str) (alg : AnonCryptAlg),
    HeadersWF Toy.crypto.f64 127 headers ∧ AllUtf8 keys ∧ headers ≠ [] ∧ keys ≠ [] ∧ s.heap.objects 0 = (Value.obj headers).print ∧
    s.heap.objects 1 = (Value.arr (keys.map .str)).print ∧ s.heap.objects 2 = (Value.str alg.name).print ∧
    (∃ o, intoSerde .malformed (dPackOptions Toy.crypto.f64) (s.heap.objects 3) = .ok o) ∧
    ∃ o, intoSerde .malformed dUnpackOptions (s.heap.objects 3) = .ok o :=
  ⟨.init fun n => match n with | 0 => b!"{\"expires_time\":9}" | 1 => b!"[\"did:x:m\"]" | 2 => b!"\"A256gcmEcdhEsA256kw\"" | _ => b!"{}",
    [(b!"expires_time", .num (.pos 9))], [b!"did:x:m"], .a256gcmEcdhEsA256kw,
    ⟨by simp [Value.WFM, Value.WF, Num.WF]; decide, by decide, by simp⟩, by intro s hs; simp at hs; subst hs; decide, by simp, by simp,
    by decide, by decide, by decide, ⟨_, rfl⟩, ⟨_, rfl⟩⟩

/-- C95_late: such a text, and objects that are options when the operations are called. -/
example : intoSerde .malformed (dPackOptions Toy.crypto.f64) b!"[]" = .error (.kind .malformed) ∧
    intoSerde .malformed dUnpackOptions b!"7" = .error (.kind .malformed) ∧
    (∃ o, intoSerde .malformed (dPackOptions Toy.crypto.f64) b!"{\"forward\":false}" = .ok o) ∧
    ∃ o, intoSerde .malformed dUnpackOptions b!"{}" = .ok o := ⟨rfl, rfl, ⟨_, rfl⟩, ⟨_, rfl⟩⟩

/-- Two operations ask for the same DID; the resolver returns the same promise to both; it is settled twice; another operation is called in
between. -/
def World.jsHistory : List JsAct :=
  [.start [0] fun _ => .ask (.resolve World.bob) fun _ => .ret (.ok 1),
   .start [] fun _ => .ask .random fun n => .ask (.resolve World.bob) fun a => .ret (match a with | .ok (some _) => .ok n | _ => .error (.kind .didNotResolved)),
   .task 1 .begin, .task 1 (.draw 5), .task 1 (.call 3), .assign 0 b!"{}", .task 0 .begin, .task 0 (.call 3), .task 1 .poll,
   .unpack Toy.crypto b!"x" 0, .settle 3 (.ok ⟨b!"null", none⟩), .task 1 .poll, .settle 3 (.error .str), .task 0 .poll, .task 1 .finish]

/-- C95_operation, C95_separate, C95_once and C95_answers: the history above is possible; the second operation has ended, the first runs,
the third has not run. -/
example : ∃ s, JsSystem.run Toy.crypto.f64 World.jsHistory (.init fun _ => b!"null") = some s ∧ (jsStarted World.jsHistory).length = 3 ∧
    (∃ t, s.tasks[1]? = some ⟨Nat, t⟩ ∧ t.phase = .ended (.error (.kind .didNotResolved)) ∧ t.settled = [.error b!"DIDCommDIDNotResolved"]) ∧
    (∃ t, s.tasks[0]? = some ⟨Nat, t⟩ ∧ t.phase = .running (.ret (.ok 1))) ∧
    (∃ B, beforeBegin 0 World.jsHistory = some B ∧ objectAfter 0 b!"null" B = b!"{}") ∧ beforeBegin 2 World.jsHistory = none ∧
    promisesOf (jsOwn 1 World.jsHistory) = [3] := by
  refine ⟨_, rfl, rfl, ⟨_, rfl, rfl, rfl⟩, ⟨_, rfl, rfl⟩, ⟨_, rfl, rfl⟩, rfl, rfl⟩

/-- C95_waits and C95_runs: after eight events both operations wait for promise 3, which is not settled; after eleven it is settled. -/
example : (∃ s t k, JsSystem.run Toy.crypto.f64 (World.jsHistory.take 8) (.init fun _ => b!"null") = some s ∧ s.tasks[0]? = some ⟨Nat, t⟩ ∧
      t.phase = .waiting (.resolve World.bob) 3 k ∧ settledWith 3 (World.jsHistory.take 8) = none) ∧
    (∃ s t k, JsSystem.run Toy.crypto.f64 (World.jsHistory.take 11) (.init fun _ => b!"null") = some s ∧ s.tasks[0]? = some ⟨Nat, t⟩ ∧
      t.phase = .waiting (.resolve World.bob) 3 k ∧ settledWith 3 (World.jsHistory.take 11) = some (.ok ⟨b!"null", none⟩)) ∧
    ∃ s t p, JsSystem.run Toy.crypto.f64 (World.jsHistory.take 3) (.init fun _ => b!"null") = some s ∧ s.tasks[1]? = some ⟨Nat, t⟩ ∧
      t.phase = .running p :=
  ⟨⟨_, _, _, rfl, rfl, rfl, rfl⟩, ⟨_, _, _, rfl, rfl, rfl, rfl⟩, ⟨_, _, _, rfl, rfl, rfl⟩⟩

/-- C95_answers: the promise is settled with what resolvers that know nobody reply. -/
example : (⟨fun _ => .ok ⟨b!"null", none⟩, fun _ => .error .str, fun _ => .error .str⟩ : JsEnv).reply (.resolve World.bob) =
    settledWith 3 World.jsHistory := rfl

/-- C95_realised: unpacking through JavaScript with the resolvers of the example world. -/
example (out : Str) : ∃ H s t, JsSystem.run Toy.crypto.f64 H (.init fun _ => b!"{}") = some s ∧ s.tasks[0]? = some ⟨Message × Value, t⟩ ∧
    t.phase = .ended ((wasmUnpack Toy.crypto out b!"{}").run
      ((World.jsEnv [World.aliceDoc, World.bobDoc, World.mediatorDoc] World.secrets).env Toy.crypto.f64) fun n => n).2 := by
  obtain ⟨H, s, t, h1, -, h3, h4⟩ := C95_realised (f64 := Toy.crypto.f64) (World.jsEnv [World.aliceDoc, World.bobDoc, World.mediatorDoc] World.secrets)
    (fun _ => b!"{}") (fun n => n) [0] (fun l => wasmUnpack Toy.crypto out (l.headD []))
  exact ⟨H, s, t, h1, h3, h4⟩

end DIDComm
