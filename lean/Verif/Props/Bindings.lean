import Verif.Proofs.Bindings
import Verif.Props.Errors
import Verif.Props.NoPanic
import Verif.Props.Termination
import Verif.Props.Validation

/-!
# The language bindings: C59, C60, C61
-/

set_option autoImplicit false

namespace DIDComm

variable {V : Type}

/-! ## C59: callbacks -/

/-- C59: whatever calls are made, in whatever order their steps interleave, and whatever is dropped when: the waiting side
gets nothing but the result of the first completion; only that completion can be told that it succeeded; every
other one is told `InvalidState`. -/
theorem C59_first (acts : List (CbAction V)) (s : CbState V) (h : CbState.run acts .new = some s) :
    (∀ v, s.waiter = .got v → ∃ i, firstTake acts = some (i, v) ∧ s.returned i = some (.ok ())) ∧
    (∀ i, s.returned i = some (.ok ()) → ∃ v, firstTake acts = some (i, v)) ∧
    (∀ j v, CbAction.take j v ∈ acts → (∀ w, firstTake acts ≠ some (j, w)) → s.returned j = some (.error .invalidState)) := by
  obtain ⟨h1, h2, h3, h4, h5⟩ := cbInv h
  refine ⟨fun v hv => ?_, fun i hi => ?_, fun j v hj hf => ?_⟩
  · rcases h5 with ⟨-, -, -, -, q | q, -⟩ | ⟨k, w, -, -, -, -, -, -, q | q, -⟩ | ⟨-, -, -, -, -, q | q | q⟩ | ⟨k, w, -, q1, -, -, -, ⟨q5, -, q | q | q⟩ | ⟨-, -, q⟩⟩ <;>
      rw [hv] at q <;> cases q
    exact ⟨k, q1, q5⟩
  · rcases h5 with ⟨-, -, -, q, -⟩ | ⟨k, w, -, q1, -, q, -, q2, -⟩ | ⟨-, -, -, q, -⟩ | ⟨k, w, -, q1, -, q2, -⟩
    · rw [q i] at hi; cases hi
    · by_cases hk : i = k
      · subst hk; exact ⟨w, q1⟩
      · rcases q2 i hk with ⟨-, q⟩ | ⟨-, q⟩ <;> rw [q] at hi <;> cases hi
    · rw [q i] at hi; cases hi
    · by_cases hk : i = k
      · subst hk; exact ⟨w, q1⟩
      · rcases q2 i hk with ⟨-, q⟩ | ⟨-, q⟩ <;> rw [q] at hi <;> cases hi
  · have hcalled := (h1 j).2 ⟨v, hj⟩
    have hnone : firstTake acts ≠ none := by
      have : ∀ l : List (CbAction V), firstTake l = none → CbAction.take j v ∉ l := by
        intro l
        induction l with
        | nil => simp
        | cons a r ih => cases a <;> simp_all [firstTake]
      exact fun hn => this _ hn hj
    have key : ∀ k w, firstTake acts = some (k, w) → Others s k → s.returned j = some (.error .invalidState) := by
      intro k w hk ho
      have hjk : j ≠ k := by rintro rfl; exact hf w hk
      rcases ho j hjk with ⟨q, -⟩ | ⟨-, q⟩
      · rw [hcalled] at q; cases q
      · exact q
    rcases h5 with ⟨-, q, -⟩ | ⟨k, w, -, q1, -, -, -, q2, -⟩ | ⟨-, q, -⟩ | ⟨k, w, -, q1, -, q2, -⟩
    · exact absurd q hnone
    · exact key k w q1 q2
    · exact absurd q hnone
    · exact key k w q1 q2

/-- C59: the first completion succeeds and its result is delivered, at the latest when the waiting side is polled next, unless
the waiting side was dropped. -/
theorem C59_delivered (acts : List (CbAction V)) (s : CbState V) (h : CbState.run acts .new = some s) (i : Nat) (v : V)
    (hf : firstTake acts = some (i, v)) (hs : CbAction.send i ∈ acts) (hd : CbAction.dropWaiter ∉ acts) :
    s.returned i = some (.ok ()) ∧
      (s.waiter = .got v ∨ s.waiter = .waiting ∧ ∃ s', s.step .poll = some s' ∧ s'.waiter = .got v) := by
  obtain ⟨h1, h2, h3, h4, h5⟩ := cbInv h
  have hnd : s.waiter ≠ .dropped := fun hw => hd (h2.1 hw)
  rcases h5 with ⟨-, q, -⟩ | ⟨k, w, -, -, -, -, -, -, -, q⟩ | ⟨-, q, -⟩ | ⟨k, w, -, q1, -, -, -, ⟨q5, q6, q | q | q⟩ | ⟨-, -, q⟩⟩
  · rw [hf] at q; cases q
  · exact absurd hs (q i)
  · rw [hf] at q; cases q
  · rw [hf] at q1
    cases q1
    refine ⟨q5, .inr ⟨q, { s with waiter := .got v }, ?_, rfl⟩⟩
    unfold CbState.step
    simp only [q, q6]
  · exact absurd q hnd
  · rw [hf] at q1
    cases q1
    exact ⟨q5, .inl q⟩
  · exact absurd q hnd

/-- C59: a completion after the first one changes nothing but that it is told `InvalidState`. -/
theorem C59_no_effect (acts : List (CbAction V)) (s s' : CbState V) (h : CbState.run acts .new = some s)
    (hf : firstTake acts ≠ none) (j : Nat) (v : V) (hs : s.step (.take j v) = some s') :
    s'.returned j = some (.error .invalidState) ∧ s'.sender = s.sender ∧ s'.content = s.content ∧ s'.waiter = s.waiter ∧
      s'.alive = s.alive ∧ ∀ k, k ≠ j → s'.returned k = s.returned k ∧ s'.called k = s.called k := by
  obtain ⟨h1, h2, h3, h4, h5⟩ := cbInv h
  have hc : s.sender ≠ .cell := by
    intro hc
    rcases h5 with ⟨-, q, -⟩ | ⟨k, w, q, -⟩ | ⟨q, -⟩ | ⟨k, w, q, -⟩
    · exact hf q
    · rw [hc] at q; cases q
    · rw [hc] at q; cases q
    · rw [hc] at q; cases q
  unfold CbState.step at hs
  dsimp only at hs
  split at hs
  rotate_left
  · cases hs
  split at hs
  · rename_i hx; exact absurd hx hc
  · cases hs
    exact ⟨by simp, rfl, rfl, rfl, rfl, fun k hk => by simp [hk]⟩

/-- C59: a callback that was dropped without being completed makes the waiting side fail; the resolver call then fails with
`InvalidState`. -/
theorem C59_dropped {α : Type} (acts : List (CbAction (Except ErrorKind α))) (s : CbState (Except ErrorKind α))
    (h : CbState.run acts .new = some s) (hf : firstTake acts = none) (hc : CbAction.dropCallback ∈ acts)
    (hd : CbAction.dropWaiter ∉ acts) :
    s.waiter.result = some (.error .invalidState) ∨
      s.waiter = .waiting ∧ ∃ s', s.step .poll = some s' ∧ s'.waiter.result = some (.error .invalidState) := by
  obtain ⟨h1, h2, h3, h4, h5⟩ := cbInv h
  have hnd : s.waiter ≠ .dropped := fun hw => hd (h2.1 hw)
  have ha := h3.2 hc
  rcases h5 with ⟨-, -, -, -, -, q⟩ | ⟨k, w, -, q, -⟩ | ⟨q0, -, q1, -, -, q | q | q⟩ | ⟨k, w, -, q, -⟩
  · rw [ha] at q; cases q
  · rw [hf] at q; cases q
  · refine .inr ⟨q, { s with waiter := .canceled }, ?_, rfl⟩
    unfold CbState.step
    simp only [q, q0, q1]
  · exact absurd q hnd
  · rw [q]; exact .inl rfl
  · rw [hf] at q; cases q

/-- C59: nothing is delivered before something is sent or the callback is dropped. -/
theorem C59_waits {α : Type} (acts : List (CbAction (Except ErrorKind α))) (s : CbState (Except ErrorKind α))
    (h : CbState.run acts .new = some s) (hs : NothingSent acts) (hc : CbAction.dropCallback ∉ acts) : s.waiter.result = none := by
  obtain ⟨h1, h2, h3, h4, h5⟩ := cbInv h
  rcases h5 with ⟨-, -, -, -, q | q, -⟩ | ⟨k, w, -, -, -, -, -, -, q | q, -⟩ | ⟨-, -, -, -, q, -⟩ | ⟨k, w, -, -, -, -, q, -⟩
  · rw [q]; rfl
  · rw [q]; rfl
  · rw [q]; rfl
  · rw [q]; rfl
  · exact absurd (h3.1 q) hc
  · exact absurd q (hs k)

/-- Two calls race: the second one takes the sender first, the first one is told `InvalidState`, the value of the second is
delivered. -/
example : ∃ s, CbState.run [.take 2 b!"b", .poll, .take 1 b!"a", .send 2, .take 3 b!"c", .poll, .dropCallback] .new = some s ∧
    firstTake [.take 2 b!"b", .poll, .take 1 b!"a", .send 2, .take 3 b!"c", .poll, .dropCallback] = some (2, b!"b") ∧
    s.waiter = .got b!"b" ∧ s.returned 1 = some (.error .invalidState) ∧ s.returned 2 = some (.ok ()) :=
  ⟨_, rfl, rfl, rfl, rfl, rfl⟩

/-- C59's other hypotheses are met. -/
example : (∃ s, CbState.run ([.take 1 b!"a", .send 1] : List (CbAction Str)) .new = some s ∧ s.waiter = .waiting) ∧
    (∃ s, CbState.run ([.poll, .dropCallback] : List (CbAction (Except ErrorKind Nat))) .new = some s ∧ s.waiter = .waiting) ∧
    (∃ s, CbState.run ([.poll, .dropCallback, .poll] : List (CbAction (Except ErrorKind Nat))) .new = some s ∧ s.waiter = .canceled) ∧
    (∃ s, CbState.run ([.take 1 (.ok 5), .poll] : List (CbAction (Except ErrorKind Nat))) .new = some s ∧ s.waiter = .waiting) :=
  ⟨⟨_, rfl, rfl⟩, ⟨_, rfl, rfl⟩, ⟨_, rfl, rfl⟩, ⟨_, rfl, rfl⟩⟩

/-! ## C60: adapters -/

/-- C60: of what a foreign resolver found, exactly the ids that were requested are passed on, in the order and number in which
they were requested. -/
theorem C60_filter (ids found : List Str) :
    (keepRequested ids found).Sublist ids ∧ (∀ i, i ∈ keepRequested ids found ↔ i ∈ ids ∧ i ∈ found) ∧
      ∀ i, i ∈ found → (keepRequested ids found).count i = ids.count i := by
  have hmem : ∀ i, (found.find? (fun f => f == i)).isSome = true ↔ i ∈ found := by
    intro i
    rw [List.find?_isSome]
    constructor
    · rintro ⟨x, hx, he⟩
      rw [beq_iff_eq] at he
      exact he ▸ hx
    · intro hi
      exact ⟨i, hi, by simp⟩
  refine ⟨List.filter_sublist, fun i => ?_, fun i hi => ?_⟩
  · unfold keepRequested
    rw [List.mem_filter, hmem]
  · unfold keepRequested
    rw [List.count_filter]
    exact (hmem i).2 hi

/-- C60: the answer of an adapter is that of the first completion, if it was a success; everything else is
`InvalidState`. -/
theorem C60_answer {α : Type} (acts : List (CbAction (Except ErrorKind α))) (s : CbState (Except ErrorKind α))
    (a : Except ErrorKind α) (h : CbState.run acts .new = some s) (hw : s.waiter.result = some a) :
    (∃ i x, firstTake acts = some (i, .ok x) ∧ a = .ok x) ∨
    ((∃ i k, firstTake acts = some (i, .error k)) ∨ firstTake acts = none) ∧ a = .error .invalidState := by
  obtain ⟨h1, -, -⟩ := C59_first acts s h
  unfold Waiter.result at hw
  split at hw <;> cases hw
  · rename_i x hx
    obtain ⟨i, hi, -⟩ := h1 _ hx
    exact .inl ⟨i, x, hi, rfl⟩
  · rename_i k hx
    obtain ⟨i, hi, -⟩ := h1 _ hx
    exact .inr ⟨.inl ⟨i, k, hi⟩, rfl⟩
  · rename_i hx
    refine .inr ⟨?_, rfl⟩
    obtain ⟨-, -, -, -, h5⟩ := cbInv h
    rcases h5 with ⟨-, -, -, -, q | q, -⟩ | ⟨k, w, -, -, -, -, -, -, q | q, -⟩ | ⟨-, q, -⟩ | ⟨k, w, -, q1, -, -, -, ⟨q5, -, q | q | q⟩ | ⟨-, -, q⟩⟩
    · rw [hx] at q; cases q
    · rw [hx] at q; cases q
    · rw [hx] at q; cases q
    · rw [hx] at q; cases q
    · exact .inr q
    · rw [hx] at q; cases q
    · rw [hx] at q; cases q
    · rw [hx] at q; cases q
    · rw [hx] at q; cases q

/-- C60: all the core ever gets from foreign resolvers through uniffi: found ids are among the requested ones, in order; errors
are `InvalidState`. -/
theorem C60_uniffi (ev : Event) (h : UniffiAnswers ev) :
    match ev with
    | ⟨.resolve _, a⟩ => ∀ k, a = .error k → k = .invalidState
    | ⟨.getSecret _, a⟩ => ∀ k, a = .error k → k = .invalidState
    | ⟨.findSecrets ks, a⟩ => (∀ k, a = .error k → k = .invalidState) ∧ ∀ found, a = .ok found → found.Sublist ks
    | ⟨.random, _⟩ => True := by
  have key : ∀ {α : Type} (w : Waiter (Except ErrorKind α)) k, w.result = some (.error k) → k = .invalidState := by
    intro α w k hw
    unfold Waiter.result at hw
    split at hw <;> cases hw <;> rfl
  cases h with
  | resolve d acts s a h hw => exact fun k hk => key _ k (hk ▸ hw)
  | getSecret d acts s a h hw => exact fun k hk => key _ k (hk ▸ hw)
  | findSecrets ks acts s a h hw =>
    refine ⟨fun k hk => ?_, fun found hk => ?_⟩
    · cases a with
      | ok l => cases hk
      | error e => cases hk; exact key _ k hw
    · cases a with
      | ok l => cases hk; exact (C60_filter ks l).1
      | error e => cases hk
  | random n => trivial

/-- C60: the same through wasm, where errors keep the kind they name. -/
theorem C60_wasm (ids : List Str) (x : Except Thrown JsFound) :
    (∀ found, wasmFindSecrets ids x = .ok found → found.Sublist ids) ∧
    (∀ l, x = .ok (.array l) → ∃ found, wasmFindSecrets ids x = .ok found ∧ ∀ i, i ∈ found ↔ i ∈ ids ∧ some i ∈ l) ∧
    (∀ t, x = .error t → wasmFindSecrets ids x = .error (fromJs t)) := by
  refine ⟨fun found h => ?_, ?_, ?_⟩
  · unfold wasmFindSecrets at h
    split at h <;> cases h
    exact (C60_filter ids _).1
  · rintro l rfl
    refine ⟨_, rfl, fun i => ?_⟩
    rw [(C60_filter ids _).2.1]
    simp
  · rintro t rfl
    rfl

/-- C60: an error kind survives the way out to JavaScript and back, exactly if it is not `SecretNotFound`, which comes
back as `InvalidState`. -/
theorem C60_error_names (k : ErrorKind) :
    (fromJs (.error (some (asJs k))) = k ↔ k ≠ .secretNotFound) ∧
      (k = .secretNotFound → fromJs (.error (some (asJs k))) = .invalidState) := by
  cases k <;> decide +kernel

/-- C60: different kinds have different names. -/
theorem C60_names_differ (k k' : ErrorKind) (h : asJs k = asJs k') : k = k' := by
  cases k <;> cases k' <;> first | rfl | (exact absurd h (by decide))

/-- The adapters do their work: a foreign resolver that answers with an id nobody asked for and out of order. -/
example : keepRequested [b!"a", b!"b", b!"c"] [b!"c", b!"x", b!"a"] = [b!"a", b!"c"] := by decide

/-- C60's events exist: an answer after a race, and an error. -/
example : UniffiAnswers (evFind [b!"a", b!"b"] [b!"b"]) ∧
    UniffiAnswers ⟨.getSecret b!"a", (.error .invalidState : Except ErrorKind (Option Secret))⟩ :=
  ⟨.findSecrets [b!"a", b!"b"] [.take 1 (.ok [b!"z", b!"b"]), .take 2 (.error .ioError), .send 1, .poll] _ _ rfl rfl,
   .getSecret b!"a" [.take 1 (.error .ioError), .send 1, .poll] _ _ rfl rfl⟩

/-! ## C61: operations through the bindings -/

theorem reportedOnce {α : Type} {r : Res α} (h1 : r ≠ .error .panic) (h2 : r ≠ .error .fuel) : ReportedOnce r := by
  rcases r with (k | _ | _) | a
  · exact .inr ⟨k, rfl, rfl, rfl⟩
  · exact absurd rfl h1
  · exact absurd rfl h2
  · exact .inl ⟨a, rfl, rfl, rfl⟩

theorem Ends.no_fuel {α : Type} {p : Prog α} {tr : List Event} {r : Res α} (h : Ends False (fun _ => False) p) (hr : Runs p tr r) :
    r ≠ .error .fuel := by
  rintro rfl
  rcases h tr _ hr with ⟨k, hk⟩ | ⟨hk, -⟩ | h
  · cases hk
  · cases hk
  · exact h

/-- C61, `pack_plaintext` always calls back. -/
theorem C61_plaintext (C : Crypto) (m : Message) (tr : List Event) (r : Res Str) (h : Runs (packPlaintext C m) tr r) : ReportedOnce r :=
  reportedOnce (C28_plaintext m tr r h) ((packPlaintext_ends m).no_fuel h)

/-- C61, `pack_signed` calls back, unless it was handed a short secret. -/
theorem C61_signed (C : Crypto) (m : Message) (signBy : Str) (tr : List Event) (r : Res (Str × Str))
    (h : Runs (packSigned C m signBy) tr r) (hs : NoShortSecret tr) : ReportedOnce r :=
  reportedOnce (C28_signed m signBy tr r h hs) ((packSigned_ends m signBy).no_fuel h)

/-- C61, `pack_encrypted`, the same. -/
theorem C61_encrypted (C : Crypto) (m : Message) (to : Str) (from_ signBy : Option Str) (opts : PackEncryptedOptions) (tr : List Event)
    (r : Res (Str × PackEncryptedMetadata)) (h : Runs (packEncrypted C m to from_ signBy opts) tr r) (hs : NoShortSecret tr) :
    ReportedOnce r :=
  reportedOnce (C28_encrypted m to from_ signBy opts tr r h hs) ((packEncrypted_ends m to from_ signBy opts).no_fuel h)

/-- C61, `FromPrior::pack`, the same. -/
theorem C61_from_prior_pack (C : Crypto) (f : FromPrior) (kid : Option Str) (tr : List Event) (r : Res (Str × Str))
    (h : Runs (f.pack C kid) tr r) (hs : NoShortSecret tr) : ReportedOnce r :=
  reportedOnce (C28_from_prior_pack f kid tr r h hs) ((FromPrior.pack_ends f kid).no_fuel h)

/-- C61, `FromPrior::unpack` always calls back. -/
theorem C61_from_prior_unpack (C : Crypto) (jwt : Str) (tr : List Event) (r : Res (FromPrior × Str))
    (h : Runs (FromPrior.unpack C jwt) tr r) : ReportedOnce r :=
  reportedOnce (C28_from_prior_unpack jwt tr r h) ((FromPrior.unpack_ends jwt).no_fuel h)

/-- C61, `unpack`, unless it was handed a short secret. -/
theorem C61_unpack (C : Crypto) (hd : NeverLonger C) (hf : PrintsFloats C) (msg : Str) (opts : UnpackOptions) (tr : List Event)
    (r : Res (Message × UnpackMetadata)) (h : Runs (unpack C msg opts) tr r) (hs : NoShortSecret tr) : ReportedOnce r :=
  reportedOnce (C26_unpack msg opts tr r h hs) (by rintro rfl; exact C25_ends hd hf msg opts tr h)

/-- C61, `wrap_in_forward` calls back exactly if there are routing keys. -/
theorem C61_wrap (C : Crypto) (msg : Str) (headers : Option (List (Str × Value))) (to : Str) (keys : List Str) (alg : AnonCryptAlg)
    (tr : List Event) (r : Res Str) (h : Runs (wrapInForward C msg headers to keys alg) tr r) :
    (keys ≠ [] → ReportedOnce r) ∧ (keys = [] → NeverReported r) := by
  refine ⟨fun hk => reportedOnce ?_ ((wrapInForward_ends hk).no_fuel h), ?_⟩
  · rintro rfl
    exact hk ((C28_wrap msg headers to keys alg).1 ⟨tr, h⟩)
  · rintro rfl
    rw [((C28_wrap_empty msg headers to alg tr r).1 h).2]
    exact ⟨rfl, rfl⟩

/-- C61: a short secret makes an operation fall silent: the caller waits for ever. -/
theorem C61_silent : ∃ (m : Message) (signBy : Str) (tr : List Event) (r : Res (Str × Str)),
    Runs (packSigned Toy.crypto m signBy) tr r ∧ NeverReported r := by
  obtain ⟨m, s, tr, h⟩ := C28_short
  exact ⟨m, s, tr, _, h, rfl, rfl⟩

/-- C61: with resolvers that are called through a binding, whatever they do, every key id that is found was searched for.  So C33
and C15 hold without assumptions on the foreign code. -/
theorem C61_honest (tr : List Event) (h : ∀ ev ∈ tr, UniffiAnswers ev ∨ WasmAnswers ev) : HonestFind tr := by
  intro ks found hm k hk
  rcases h _ hm with h | h
  · exact ((C60_uniffi _ h).2 found rfl).subset hk
  · generalize he : evFind ks found = ev at h
    cases h with
    | resolve => cases he
    | getSecret => cases he
    | random => cases he
    | findSecrets ks' x =>
      have h1 : ks = ks' := by
        have := congrArg Event.query he
        simpa using this
      subst h1
      have h2 : wasmFindSecrets ks x = .ok found := (eq_of_heq (Event.mk.inj he).2).symm
      exact ((C60_wasm ks x).1 found h2).subset hk

/-- Such histories exist. -/
example : ∃ tr r, Runs (packSigned Toy.crypto World.msg b!"did:example:dave") tr r ∧ ReportedOnce r ∧
    ∀ ev ∈ tr, UniffiAnswers ev ∨ WasmAnswers ev := by
  refine ⟨[⟨.resolve b!"did:example:dave", (.ok (some World.dave) : Except ErrorKind (Option DIDDoc))⟩,
      ⟨.findSecrets [b!"did:example:dave#ed"], (.error .invalidState : Except ErrorKind (List Str))⟩], .error (.kind .invalidState),
    .ask _ _ _ _ _ (.ask _ _ _ _ _ (.ret _)), .inr ⟨_, rfl, rfl, rfl⟩, ?_⟩
  intro ev hev
  simp only [List.mem_cons, List.not_mem_nil, or_false] at hev
  rcases hev with rfl | rfl
  · exact .inl (.resolve _ [.take 1 (.ok (some World.dave)), .send 1, .poll] _ _ rfl rfl)
  · exact .inr (.findSecrets _ (.ok .other))

/-- C61: through uniffi an operation ends with no other kinds than those it causes itself (C62), whatever the resolvers
fail with: so never with `IoError`. -/
theorem C61_kinds {α : Type} (kinds : List ErrorKind) (hi : .invalidState ∈ kinds) (tr : List Event) (r : Res α)
    (h : FailsOnlyWith kinds tr r) (hu : ∀ ev ∈ tr, UniffiAnswers ev) (k : ErrorKind) (hr : r = .error (.kind k)) : k ∈ kinds := by
  rcases h k hr with hk | ⟨ev, hev, hk⟩
  · exact hk
  · have := C60_uniffi ev (hu ev hev)
    obtain ⟨q, a⟩ := ev
    cases q with
    | resolve d => rw [this _ hk]; exact hi
    | getSecret d => rw [this _ hk]; exact hi
    | findSecrets d => rw [this.1 _ hk]; exact hi
    | random => exact hk.elim

/-- C61, for `unpack` and `pack_encrypted`. -/
theorem C61_no_io (C : Crypto) :
    (∀ msg opts tr r, Runs (unpack C msg opts) tr r → (∀ ev ∈ tr, UniffiAnswers ev) → r ≠ .error (.kind .ioError)) ∧
    (∀ m to from_ signBy opts tr r, Runs (packEncrypted C m to from_ signBy opts) tr r → (∀ ev ∈ tr, UniffiAnswers ev) →
      r ≠ .error (.kind .ioError)) := by
  constructor
  · intro msg opts tr r h hu hr
    exact absurd (C61_kinds secretKinds (by decide) tr r (C62_unpack msg opts tr r h) hu _ hr) (by decide)
  · intro m to from_ signBy opts tr r h hu hr
    exact absurd (C61_kinds encryptKinds (by decide) tr r (C62_encrypted m to from_ signBy opts tr r h) hu _ hr) (by decide)

/-- An operation through uniffi whose resolver failed. -/
example : ∃ tr, Runs (packEncrypted Toy.crypto World.msg World.bob none none {}) tr (.error (.kind .invalidState)) ∧
    (∀ ev ∈ tr, UniffiAnswers ev) ∧ tr ≠ [] := by
  refine ⟨[⟨.resolve World.bob, (.error .invalidState : Except ErrorKind (Option DIDDoc))⟩], .ask _ _ _ _ _ (.ret _), ?_, by simp⟩
  intro ev hev
  rw [List.mem_singleton] at hev
  subst hev
  exact .resolve _ [.take 1 (.error .ioError), .send 1, .poll] _ _ rfl rfl

end DIDComm
