import Verif.Proofs.Trace
import Verif.Proofs.WorldRuns

/-!
# What the library asks its resolvers: C29, C32, C58

A run is a list of questions with their answers, and nothing restricts the answers; see `Verif.Model.Prog`.
The vocabulary (`Failed`, `UnpackAsks`, `PackAsks`, ..) is defined in `Verif.Spec.Trace`.
-/

set_option autoImplicit false

namespace DIDComm

variable {C : Crypto}

/-! ## C29: failing resolvers -/

/-- What C29 says of a run: after a question that failed there is no other, and the operation fails with the
same kind of error. -/
def AbortsWith {α : Type} (tr : List Event) (r : Res α) : Prop :=
  ∀ pre ev post k, tr = pre ++ ev :: post → Failed ev k → post = [] ∧ r = .error (.kind k)

theorem Obeys.aborts {α : Type} {S : List Event → Query → Prop} {p : Prog α} {tr : List Event} {r : Res α}
    (h : Obeys S (fun _ _ => False) [] p) (hr : Runs p tr r) : AbortsWith tr r := by
  intro pre ev post k ht hk
  obtain ⟨h1, k', h2, h3⟩ := (h tr r hr pre ev post ht).2 k hk
  rcases h3 with rfl | h3
  · exact ⟨h1, h2⟩
  · exact h3.elim

/-- C29, `pack_plaintext`. -/
theorem C29_plaintext (m : Message) (tr : List Event) (r : Res Str) (h : Runs (packPlaintext C m) tr r) : AbortsWith tr r :=
  (packPlaintext_obeys' (a := none) (b := none)).aborts h

/-- C29, `pack_signed`. -/
theorem C29_signed (m : Message) (signBy : Str) (tr : List Event) (r : Res (Str × Str))
    (h : Runs (packSigned C m signBy) tr r) : AbortsWith tr r :=
  (packSigned_obeys (b := none)).aborts h

/-- C29, `pack_encrypted`, with forwarding. -/
theorem C29_encrypted (m : Message) (to : Str) (from_ signBy : Option Str) (opts : PackEncryptedOptions) (tr : List Event)
    (r : Res (Str × PackEncryptedMetadata)) (h : Runs (packEncrypted C m to from_ signBy opts) tr r) : AbortsWith tr r :=
  packEncrypted_obeys.aborts h

/-- C29, `wrap_in_forward`. -/
theorem C29_wrap (msg : Str) (headers : Option (List (Str × Value))) (to : Str) (keys : List Str) (alg : AnonCryptAlg)
    (tr : List Event) (r : Res Str) (h : Runs (wrapInForward C msg headers to keys alg) tr r) : AbortsWith tr r :=
  (wrapInForward_obeys (S := fun _ _ => True) (fun _ => trivial) (fun _ _ => trivial)).aborts h

/-- C29, `FromPrior::pack`. -/
theorem C29_from_prior_pack (f : FromPrior) (kid : Option Str) (tr : List Event) (r : Res (Str × Str))
    (h : Runs (f.pack C kid) tr r) : AbortsWith tr r :=
  (FromPrior.pack_obeys (from_ := none)).aborts h

/-- C29, `FromPrior::unpack`. -/
theorem C29_from_prior_unpack (jwt : Str) (tr : List Event) (r : Res (FromPrior × Str))
    (h : Runs (FromPrior.unpack C jwt) tr r) : AbortsWith tr r :=
  (FromPrior.unpack_obeys (S := fun _ _ => True) (fun _ _ => trivial)).aborts h

/-- C29, `unpack`: after a question that failed there is no other, and the operation fails.  It fails with the
same kind of error, except that it fails with `InvalidState` if the question was for the document of the sender
of an authenticated layer. -/
theorem C29_unpack (msg : Str) (opts : UnpackOptions) (tr : List Event) (r : Res (Message × UnpackMetadata))
    (h : Runs (unpack C msg opts) tr r) (pre : List Event) (ev : Event) (post : List Event) (k : ErrorKind)
    (ht : tr = pre ++ ev :: post) (hk : Failed ev k) :
    post = [] ∧ (r = .error (.kind k) ∨
      (r = .error (.kind .invalidState) ∧
        ∃ t kid, Within C msg t ∧ SenderKid C t kid ∧ ev.query = .resolve (didOf kid))) := by
  obtain ⟨h1, k', h2, h3⟩ := (unpack_obeys (h := []) tr r h pre ev post ht).2 k hk
  refine ⟨h1, ?_⟩
  rcases h3 with rfl | ⟨rfl, h3⟩
  · exact .inl h2
  · exact .inr ⟨h2, h3⟩

namespace World

/-- Bob's agent when the DID resolver is down. -/
def downBob : Env := { bobEnv with resolve := fun _ => .error .ioError }

/-- Alice's agent when the secrets resolver fails to deliver. -/
def lockedAlice : Env := { aliceEnv with getSecret := fun _ => .error .unsupported }

end World

set_option maxRecDepth 100000 in
/-- The exception is real: the resolver fails with `IoError` for the sender's document, unpacking reports
`InvalidState`. -/
theorem C29_masked : ∃ msg tr, Runs (unpack Toy.crypto msg {}) tr (.error (.kind .invalidState)) ∧ Answers World.downBob tr ∧
    ∃ ev ∈ tr, Failed ev .ioError := by
  have h : World.test World.aliceEnv (packEncrypted Toy.crypto { id := [], type_ := [], body := .null } World.bob
      (some World.alice) none { forward := false }) (fun p => World.testError World.downBob (unpack Toy.crypto p.1 {}) (.kind .invalidState) &&
        decide (((unpack Toy.crypto p.1 {}).run World.downBob id).1.map Event.query = [.resolve World.alice])) = true := by
    decide +kernel
  obtain ⟨_, x, -, -, h⟩ := World.of_test h
  rw [Bool.and_eq_true] at h
  have hs := Prog.run_spec World.downBob id (unpack Toy.crypto x.1 {})
  have h1 := h.1
  unfold World.testError at h1
  split at h1
  · cases h1
  · rename_i e he
    have := of_decide_eq_true h1
    subst this
    refine ⟨x.1, _, he ▸ hs.1, hs.2, ?_⟩
    have h2 : ((unpack Toy.crypto x.1 {}).run World.downBob id).1.map Event.query = [.resolve World.alice] := of_decide_eq_true h.2
    match htr : ((unpack Toy.crypto x.1 {}).run World.downBob id).1 with
    | [] => rw [htr] at h2; cases h2
    | ev :: l =>
      rw [htr] at h2
      simp only [List.map_cons, List.cons.injEq] at h2
      refine ⟨ev, by simp, ?_⟩
      have ha := hs.2 ev (by rw [htr]; simp)
      obtain ⟨q, a⟩ := ev
      obtain ⟨h2, -⟩ := h2
      simp only at h2
      subst h2
      exact ha

/-- A run of `pack_signed` in which a question fails. -/
example : ∃ tr, Runs (packSigned Toy.crypto World.msg World.alice) tr (.error (.kind .unsupported)) ∧
    Answers World.lockedAlice tr := by
  have h : World.testError World.lockedAlice (packSigned Toy.crypto World.msg World.alice) (.kind .unsupported) = true := by
    decide +kernel
  exact World.of_testError h

/-! ## C32: access to secrets -/

/-- C32: everything unpacking asks, in every run: the secrets resolver about recipient keys of an encrypted
layer or about key agreement keys of the target of a forward, for secrets only of keys it reported before, and
the DID resolver for the documents of senders, signers, issuers and targets.  There are no other questions, and no random draws. -/
theorem C32_unpack_asks (msg : Str) (opts : UnpackOptions) (tr : List Event) (r : Res (Message × UnpackMetadata))
    (h : Runs (unpack C msg opts) tr r) (pre : List Event) (ev : Event) (post : List Event) (ht : tr = pre ++ ev :: post) :
    UnpackAsks C msg pre ev.query :=
  (unpack_obeys (h := []) tr r h pre ev post ht).1

/-- C32: for a text that is not an encrypted message, unpacking never asks the secrets resolver. -/
theorem C32_unencrypted (msg : Str) (hn : ∀ j, fromJson dJwe msg ≠ .ok j) (opts : UnpackOptions) (tr : List Event)
    (r : Res (Message × UnpackMetadata)) (h : Runs (unpack C msg opts) tr r) : ∀ ev ∈ tr, ¬ AsksSecrets ev.query := by
  intro ev he
  obtain ⟨pre, post, ht⟩ := List.append_of_mem he
  obtain ⟨d, hd⟩ := ((unpack_obeys_clear (K := fun _ _ => False) (h := []) hn) tr r h pre ev post ht).1
  rw [hd]
  exact id

/-- C32: what `pack_encrypted` asks the secrets resolver: `find_secrets` only about authentication keys of the
signer and key agreement keys of the sender that the resolved documents list, `get_secret` only for keys reported before. -/
theorem C32_pack_asks (m : Message) (to : Str) (from_ signBy : Option Str) (opts : PackEncryptedOptions) (tr : List Event)
    (r : Res (Str × PackEncryptedMetadata)) (h : Runs (packEncrypted C m to from_ signBy opts) tr r)
    (pre : List Event) (ev : Event) (post : List Event) (ht : tr = pre ++ ev :: post) : PackAsks signBy from_ pre ev.query :=
  (packEncrypted_obeys (K := fun _ _ => False) (h := []) tr r h pre ev post ht).1

/-- C32, the same for `pack_signed`. -/
theorem C32_signed_asks (m : Message) (signBy : Str) (tr : List Event) (r : Res (Str × Str))
    (h : Runs (packSigned C m signBy) tr r) (pre : List Event) (ev : Event) (post : List Event) (ht : tr = pre ++ ev :: post) :
    PackAsks (some signBy) none pre ev.query :=
  (packSigned_obeys (K := fun _ _ => False) (h := []) tr r h pre ev post ht).1

/-- C32, the same for `FromPrior::pack`. -/
theorem C32_from_prior_asks (f : FromPrior) (kid : Option Str) (tr : List Event) (r : Res (Str × Str))
    (h : Runs (f.pack C kid) tr r) (pre : List Event) (ev : Event) (post : List Event) (ht : tr = pre ++ ev :: post) :
    PackAsks (some f.iss) none pre ev.query :=
  (FromPrior.pack_obeys (K := fun _ _ => False) (h := []) tr r h pre ev post ht).1

/-- Without signer and sender the secrets resolver is not asked. -/
theorem no_secrets {tr : List Event} (h : ∀ pre ev post, tr = pre ++ ev :: post → PackAsks none none pre ev.query) :
    ∀ ev ∈ tr, ¬ AsksSecrets ev.query := by
  have noFind : ∀ ev ∈ tr, ∀ ks, ev.query ≠ .findSecrets ks := by
    intro ev he ks hq
    obtain ⟨pre, post, ht⟩ := List.append_of_mem he
    have hp := h pre ev post ht
    rw [hq] at hp
    cases hp with
    | signer hs => cases hs
    | sender hs => cases hs
  intro ev he
  obtain ⟨pre, post, ht⟩ := List.append_of_mem he
  have hp := h pre ev post ht
  revert hp
  cases ev.query with
  | resolve _ => exact fun _ h => h
  | random => exact fun _ h => h
  | findSecrets ks => intro hp; cases hp <;> contradiction
  | getSecret kid =>
    intro hp
    cases hp with
    | secret hr =>
      obtain ⟨ks, found, hm, -⟩ := hr
      exact absurd rfl (noFind _ (by rw [ht]; exact List.mem_append_left _ hm) ks)

/-- C32: packing anonymously and without signature never asks the secrets resolver. -/
theorem C32_anonymous (m : Message) (to : Str) (opts : PackEncryptedOptions) (tr : List Event)
    (r : Res (Str × PackEncryptedMetadata)) (h : Runs (packEncrypted C m to none none opts) tr r) :
    ∀ ev ∈ tr, ¬ AsksSecrets ev.query :=
  no_secrets fun pre ev post ht => C32_pack_asks m to none none opts tr r h pre ev post ht

/-- C32: packing in plaintext neither. -/
theorem C32_plaintext (m : Message) (tr : List Event) (r : Res Str) (h : Runs (packPlaintext C m) tr r) :
    ∀ ev ∈ tr, ¬ AsksSecrets ev.query :=
  no_secrets fun pre ev post ht => (packPlaintext_obeys' (K := fun _ _ => False) (h := []) tr r h pre ev post ht).1

/-- C32: wrapping in forward messages neither. -/
theorem C32_wrap (msg : Str) (headers : Option (List (Str × Value))) (to : Str) (keys : List Str) (alg : AnonCryptAlg)
    (tr : List Event) (r : Res Str) (h : Runs (wrapInForward C msg headers to keys alg) tr r) : ∀ ev ∈ tr, ¬ AsksSecrets ev.query :=
  no_secrets fun pre ev post ht =>
    (wrapInForward_obeys (S := PackAsks none none) (K := fun _ _ => False) (h := []) (fun _ => .random) (fun _ _ => .resolve)
      tr r h pre ev post ht).1

/-- C32: unpacking a `from_prior` neither. -/
theorem C32_from_prior_unpack (jwt : Str) (tr : List Event) (r : Res (FromPrior × Str))
    (h : Runs (FromPrior.unpack C jwt) tr r) : ∀ ev ∈ tr, ¬ AsksSecrets ev.query :=
  no_secrets fun pre ev post ht =>
    (FromPrior.unpack_obeys (S := PackAsks none none) (K := fun _ _ => False) (h := [])
      (by rintro q ⟨_, _, _, _, -, -, -, -, rfl⟩; exact .resolve) tr r h pre ev post ht).1

/-- Secrets are asked for in the run of a multiply wrapped message. -/
example : ∃ msg tr m md, Runs (unpack Toy.crypto msg {}) tr (.ok (m, md)) ∧ ∃ ev ∈ tr, AsksSecrets ev.query := by
  obtain ⟨msg, tr, m, md, h, -, hk, -⟩ := World.fullRun
  refine ⟨msg, tr, m, md, h, ?_⟩
  obtain ⟨t1, t2, t3, t4, msg1, md1, msg2, md2, msg3, md3, rfl, h1, h2, h3, h4, h5, h6⟩ := unpack_parts h
  rcases h2 with ⟨-, rfl, -⟩ | ⟨kids, fromKid, doc, c, skey, kid, secret, rkey, a1, a2, a3, a4, a5, a6, a7, rfl⟩
  · have e6 : md.encryptedFromKid = md3.encryptedFromKid := by
      rcases h6 with ⟨-, -, rfl⟩ | ⟨_, _, _, _, _, _, -, -, -, -, -, rfl⟩ <;> rfl
    have e3 : md3.encryptedFromKid = md2.encryptedFromKid := by
      rcases h3 with ⟨-, rfl, -⟩ | ⟨_, _, _, _, _, -, -, -, -, rfl⟩ <;> rfl
    have e1 : md2.encryptedFromKid = none := by
      rcases h1.metadata with ⟨-, rfl, -⟩ | ⟨_, _, _, _, _, _, _, _, rfl, -⟩ <;> rfl
    rw [e6, e3, e1] at hk; cases hk
  · exact ⟨evGet kid (some secret), by simp [a6], trivial⟩

/-- A plaintext is not an encrypted message. -/
example : ∃ msg tr m md, (∀ j, fromJson dJwe msg ≠ .ok j) ∧ Runs (unpack Toy.crypto msg {}) tr (.ok (m, md)) := by
  have h : World.test World.aliceEnv (packPlaintext Toy.crypto World.msg) (fun t =>
      (match fromJson dJwe t with | .ok _ => false | .error _ => true) &&
        World.test World.bobEnv (unpack Toy.crypto t {}) (fun _ => true)) = true := by decide +kernel
  obtain ⟨_, t, -, -, h⟩ := World.of_test h
  rw [Bool.and_eq_true] at h
  obtain ⟨tr, ⟨m, md⟩, h2, -, -⟩ := World.of_test h.2
  refine ⟨t, tr, m, md, fun j hj => ?_, h2⟩
  rw [hj] at h
  cases h.1

/-! ## C58: unpacking is a function -/

/-- Two runs of the same program are equal or differ first in the answer to some question. -/
theorem runs_diverge {α : Type} {p : Prog α} {tr tr' : List Event} {r r' : Res α} (h : Runs p tr r) (h' : Runs p tr' r') :
    (tr = tr' ∧ r = r') ∨ ∃ pre q a a' post post', a ≠ a' ∧ tr = pre ++ ⟨q, a⟩ :: post ∧ tr' = pre ++ ⟨q, a'⟩ :: post' := by
  induction h generalizing tr' r' with
  | ret r => obtain ⟨rfl, rfl⟩ := runs_ret.1 h'; exact .inl ⟨rfl, rfl⟩
  | ask q k a tr r h ih =>
    obtain ⟨a', t', rfl, h2⟩ := runs_ask.1 h'
    rcases Classical.em (a = a') with rfl | ha
    · rcases ih h2 with ⟨rfl, rfl⟩ | ⟨pre, q', b, b', post, post', hb, rfl, rfl⟩
      · exact .inl ⟨rfl, rfl⟩
      · exact .inr ⟨⟨q, a⟩ :: pre, q', b, b', post, post', hb, rfl, rfl⟩
    · exact .inr ⟨[], q, a, a', tr, t', ha, rfl, rfl⟩

/-- C58: two runs of unpacking the same text with the same options ask the same questions and end with the same
result, unless a resolver answers the same question differently.  (Unpacking draws no randomness.) -/
theorem C58_function (msg : Str) (opts : UnpackOptions) (tr tr' : List Event) (r r' : Res (Message × UnpackMetadata))
    (h : Runs (unpack C msg opts) tr r) (h' : Runs (unpack C msg opts) tr' r') :
    (tr = tr' ∧ r = r') ∨ ∃ pre q a a' post post', AsksResolver q ∧ a ≠ a' ∧
      tr = pre ++ ⟨q, a⟩ :: post ∧ tr' = pre ++ ⟨q, a'⟩ :: post' := by
  rcases runs_diverge h h' with h1 | ⟨pre, q, a, a', post, post', h1, h2, h3⟩
  · exact .inl h1
  · refine .inr ⟨pre, q, a, a', post, post', ?_, h1, h2, h3⟩
    have := C32_unpack_asks msg opts tr r h pre _ post h2
    cases this <;> trivial

/-- C58, for resolvers that are functions: there is exactly one run. -/
theorem C58_env (msg : Str) (opts : UnpackOptions) (E : Env) :
    ∃ tr r, Runs (unpack C msg opts) tr r ∧ Answers E tr ∧
      ∀ tr' r', Runs (unpack C msg opts) tr' r' → Answers E tr' → tr' = tr ∧ r' = r := by
  have hs := Prog.run_spec E id (unpack C msg opts)
  refine ⟨_, _, hs.1, hs.2, fun tr' r' h' ha' => ?_⟩
  rcases C58_function msg opts _ _ _ _ h' hs.1 with h1 | ⟨pre, q, a, a', post, post', h1, h2, h3, h4⟩
  · exact h1
  · have e1 := ha' ⟨q, a⟩ (by rw [h3]; simp)
    have e2 := hs.2 ⟨q, a'⟩ (by rw [h4]; simp)
    refine absurd ?_ h2
    cases q with
    | random => exact h1.elim
    | resolve _ => exact Eq.trans e1 (Eq.symm e2)
    | findSecrets _ => exact Eq.trans e1 (Eq.symm e2)
    | getSecret _ => exact Eq.trans e1 (Eq.symm e2)

/-- Both cases of `C58_function` occur: unpacking an encrypted message again, and unpacking it with another answer to the first
question. -/
example : ∃ msg tr tr' m md r', Runs (unpack Toy.crypto msg {}) tr (.ok (m, md)) ∧ Runs (unpack Toy.crypto msg {}) tr' r' ∧
    r' = .error (.kind .secretNotFound) ∧ tr ≠ tr' := by
  have h : World.test World.aliceEnv (packEncrypted Toy.crypto World.msg World.bob none none { forward := false }) (fun x =>
      World.test World.bobEnv (unpack Toy.crypto x.1 {}) (fun _ => true) &&
        World.testError World.aliceEnv (unpack Toy.crypto x.1 {}) (.kind .secretNotFound)) = true := by decide +kernel
  obtain ⟨_, x, -, -, h⟩ := World.of_test h
  rw [Bool.and_eq_true] at h
  obtain ⟨tr, ⟨m, md⟩, h1, -, -⟩ := World.of_test h.1
  obtain ⟨tr', h2, -⟩ := World.of_testError h.2
  refine ⟨x.1, tr, tr', m, md, _, h1, h2, rfl, ?_⟩
  rintro rfl
  rcases runs_diverge h1 h2 with ⟨-, h⟩ | ⟨pre, q, a, a', post, post', hne, e1, e2⟩
  · cases h
  · have := List.append_cancel_left (e1.symm.trans e2)
    cases this
    exact hne rfl

end DIDComm
