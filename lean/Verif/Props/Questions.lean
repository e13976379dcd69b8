import Verif.Proofs.Questions
import Verif.Props.OutcomeUnpack
import Verif.Props.Forward
import Verif.Props.RoundTrip

/-!
# C88: the questions of unpacking

Which questions unpacking puts to the resolvers, in which order: `UnpackQuestions` of `Verif.Spec.Questions`.
-/

set_option autoImplicit false

namespace DIDComm

variable {C : Crypto} {E : Env} {pairs : Curve → C.Key → C.Key → Prop}

/-- C88: every run of `unpack` asks the questions of the specification, in that order, and no others. -/
theorem C88_questions (hd : NeverLonger C) (hf : PrintsFloats C) (t : Str) (opts : UnpackOptions) (tr : List Event)
    (r : Res (Message × UnpackMetadata)) (h : Runs (unpack C t opts) tr r) (ha : Answers E tr) :
    UnpackQuestions C E opts t (tr.map Event.query) := by
  rcases unpackQuestions t opts tr r h ha with rfl | h'
  · exact absurd h (C25_ends hd hf t opts tr)
  · exact h'

/-- C88: the questions of the specification are those of every run: there is one list of questions for a text and the answers. -/
theorem C88_exact (hd : NeverLonger C) (hf : PrintsFloats C) (t : Str) (opts : UnpackOptions) (qs : List Query) :
    UnpackQuestions C E opts t qs ↔ ∀ tr r, Runs (unpack C t opts) tr r → Answers E tr → tr.map Event.query = qs := by
  constructor
  · intro hq tr r h ha
    exact (C88_questions hd hf t opts tr r h ha).unique hq
  · intro h
    obtain ⟨h1, h2⟩ := Prog.run_spec E id (unpack C t opts)
    have := C88_questions hd hf t opts _ _ h1 h2
    rwa [h _ _ h1 h2] at this

/-- A question for a DID document. -/
def Query.forDocument : Query → Bool
  | .resolve _ => true
  | _ => false

/-- A search for secrets. -/
def Query.search : Query → Bool
  | .findSecrets _ => true
  | _ => false

theorem KeyQuestions.count {α : Type} {all : Bool} {tried : Str → KeyPair C → Res α → Prop} {l : List Str} {qs : List Query}
    (h : KeyQuestions C E all tried l qs) : qs.countP Query.forDocument = 0 ∧ qs.countP Query.search = 0 := by
  induction h with
  | none => exact ⟨rfl, rfl⟩
  | stop => exact ⟨rfl, rfl⟩
  | next _ _ _ _ ih => simpa [Query.forDocument, Query.search] using ih

theorem OpenQuestions.count {α : Type} {all : Bool} {tried : Str → KeyPair C → Res α → Prop} {kids : List Str} {qs : List Query}
    (h : OpenQuestions C E all tried kids qs) : qs.countP Query.forDocument = 0 ∧ qs.countP Query.search ≤ 1 := by
  cases h with
  | manyDids => exact ⟨rfl, by decide⟩
  | failed => exact ⟨rfl, by simp [Query.search]⟩
  | found _ _ hq =>
    have := hq.count
    rw [List.countP_cons, List.countP_cons, this.1, this.2]
    exact ⟨rfl, by simp [Query.search]⟩

theorem AnonQuestions.count {all : Bool} {t : Str} {qs : List Query} (h : AnonQuestions C E all t qs) :
    qs.countP Query.forDocument = 0 ∧ qs.countP Query.search ≤ 1 := by
  cases h with
  | none => exact ⟨rfl, by decide⟩
  | envelope _ hq => exact hq.count

theorem AuthQuestions.count {all : Bool} {t : Str} {qs : List Query} (h : AuthQuestions C E all t qs) :
    qs.countP Query.forDocument ≤ 1 ∧ qs.countP Query.search ≤ 1 := by
  cases h with
  | none => exact ⟨by decide, by decide⟩
  | noKey => exact ⟨by simp [Query.forDocument], by simp [Query.search]⟩
  | envelope _ _ hq =>
    have := hq.count
    rw [List.countP_cons, List.countP_cons, this.1]
    refine ⟨by simp [Query.forDocument], ?_⟩
    simpa [Query.search] using this.2

theorem SignQuestions.count {t : Str} {qs : List Query} (h : SignQuestions t qs) :
    qs.countP Query.forDocument ≤ 1 ∧ qs.countP Query.search = 0 := by
  cases h with
  | none => exact ⟨by decide, by decide⟩
  | signer => exact ⟨by simp [Query.forDocument], by simp [Query.search]⟩

theorem PlainQuestions.count {t : Str} {qs : List Query} (h : PlainQuestions C t qs) :
    qs.countP Query.forDocument ≤ 1 ∧ qs.countP Query.search = 0 := by
  cases h with
  | none => exact ⟨by decide, by decide⟩
  | prior => exact ⟨by simp [Query.forDocument], by simp [Query.search]⟩

theorem UnwrapQuestions.count {opts : UnpackOptions} {t : Str} {qs : List Query} (h : UnwrapQuestions C E opts t qs)
    (ho : opts.unwrapReWrappingForward = false) : qs.countP Query.forDocument = 0 ∧ qs.countP Query.search ≤ 1 := by
  cases h with
  | closed _ hq => exact hq.count
  | opened _ _ hq => exact hq.count
  | last _ ho' => rw [ho] at ho'; cases ho'
  | again _ ho' => rw [ho] at ho'; cases ho'

/-- C88: unless forwards are to be unwrapped, unpacking a text asks for at most three documents — of the sender, the signer and the
issuer of the `from_prior` — and searches for secrets at most twice. -/
theorem C88_few (hd : NeverLonger C) (hf : PrintsFloats C) (t : Str) (opts : UnpackOptions) (ho : opts.unwrapReWrappingForward = false)
    (tr : List Event) (r : Res (Message × UnpackMetadata)) (h : Runs (unpack C t opts) tr r) (ha : Answers E tr) :
    resolutions tr ≤ 3 ∧ searches tr ≤ 2 := by
  have e1 : resolutions tr = (tr.map Event.query).countP Query.forDocument := by
    rw [List.countP_map]; unfold resolutions; rfl
  have e2 : searches tr = (tr.map Event.query).countP Query.search := by
    rw [List.countP_map]; unfold searches; rfl
  rw [e1, e2]
  have hq := C88_questions hd hf t opts tr r h ha
  generalize tr.map Event.query = qs at hq
  cases hq with
  | unwrapping _ hq => have := hq.count ho; omega
  | auth _ _ hq hqa =>
    have h1 := hq.count ho
    have h2 := hqa.count
    simp only [List.countP_append]
    omega
  | sign _ _ _ hq hqa hqg =>
    have h1 := hq.count ho
    have h2 := hqa.count
    have h3 := hqg.count
    simp only [List.countP_append]
    omega
  | message _ _ _ hq hqa hqg hqp =>
    have h1 := hq.count ho
    have h2 := hqa.count
    have h3 := hqg.count
    have h4 := hqp.count
    simp only [List.countP_append]
    omega

/-! ## Envelopes for others -/

theorem AnonEnvelope.layer {all : Bool} {t : Str} {j : JWE} {hdr : JweHeader} {apu : Option Bytes} {apv : Bytes} {r : Res (AnonCryptAlg × Str)}
    (h : AnonEnvelope C t j hdr apu apv) (ho : OpenedFor C E all (TriedAnon C j hdr apu apv) (kidsOf j) r) :
    AnonLayer C E all t (r.map fun x => some (kidsOf j, x.1, x.2)) := by
  cases r with
  | error e => exact .failed (.one h.1) h.2.1 h.2.2.1 h.2.2.2 ho
  | ok x => exact .opened (.one h.1) h.2.1 h.2.2.1 h.2.2.2 ho

/-- C88: of an anonymous envelope for others nothing is asked but whether it is for us. -/
theorem C88_for_others (hd : NeverLonger C) (hf : PrintsFloats C) (t : Str) (opts : UnpackOptions) (j : JWE) (hdr : JweHeader)
    (apu : Option Bytes) (apv : Bytes) (he : AnonEnvelope C t j hdr apu apv) (h1 : OneDid (kidsOf j))
    (h2 : E.findSecrets (kidsOf j) = .ok []) (tr : List Event) (r : Res (Message × UnpackMetadata)) (h : Runs (unpack C t opts) tr r)
    (ha : Answers E tr) : tr.map Event.query = [.findSecrets (kidsOf j)] ∧ r = .error (.kind .secretNotFound) := by
  have hl : AnonLayer C E opts.expectDecryptByAllKeys t (.error (.kind .secretNotFound)) := he.layer (r := .error _) (.notOurs h1 h2)
  have hu : Unwraps C E opts t {} (.error (.kind .secretNotFound)) := .failed hl
  refine ⟨(C88_exact hd hf t opts _).1 (.unwrapping (fun x hx => by cases hu.unique hx) (.closed (fun x hx => by cases hl.unique hx)
    (.envelope he (.found h1 h2 .none)))) tr r h ha, (C81_exact hd hf t opts _).1 (.unwrapFailed hu) tr r h ha⟩

theorem AuthEnvelope.noAnon {all : Bool} {t : Str} {j : JWE} {hdr : JweHeader} {kid : Str} {apv : Bytes} (h : AuthEnvelope C t j hdr kid apv) :
    AnonLayer C E all t (.ok none) ∧ AnonQuestions C E all t [] := by
  refine ⟨.otherAlg (.one h.1) h.2.1 (by rw [h.2.2.1]; simp), .none ?_⟩
  rintro j' hdr' apu' apv' h'
  have e := h.1
  rw [h'.1] at e; cases e
  cases h.2.1.unique h'.2.1
  have e := h.2.2.1
  rw [h'.2.2.1] at e; cases e

/-- C88: the first question about an envelope that names its sender is for the document of that sender, whether or not the envelope
is for us. -/
theorem C88_sender_first (hd : NeverLonger C) (hf : PrintsFloats C) (t : Str) (opts : UnpackOptions) (j : JWE) (hdr : JweHeader)
    (kid : Str) (apv : Bytes) (he : AuthEnvelope C t j hdr kid apv) (tr : List Event) (r : Res (Message × UnpackMetadata))
    (h : Runs (unpack C t opts) tr r) (ha : Answers E tr) : ∃ rest, tr.map Event.query = .resolve (didOf kid) :: rest := by
  have hl := (he.noAnon (E := E) (all := opts.expectDecryptByAllKeys))
  have hu : Unwraps C E opts t {} (.ok (t, {})) := .none hl.1
  have hw : UnwrapQuestions C E opts t [] := .closed (fun x hx => by cases hl.1.unique hx) hl.2
  have first : ∀ {qa : List Query}, AuthQuestions C E opts.expectDecryptByAllKeys t qa → ∃ rest, qa = .resolve (didOf kid) :: rest := by
    intro qa hq
    cases hq with
    | none h' => exact absurd he (h' _ _ _ _)
    | noKey h' => obtain ⟨rfl, rfl, rfl, rfl⟩ := he.unique h'; exact ⟨_, rfl⟩
    | envelope h' => obtain ⟨rfl, rfl, rfl, rfl⟩ := he.unique h'; exact ⟨_, rfl⟩
  have hq := C88_questions hd hf t opts tr r h ha
  generalize tr.map Event.query = qs at hq
  cases hq with
  | unwrapping h' => exact absurd hu (h' _)
  | auth h' _ hq hqa =>
    cases hu.unique h'; cases hq.unique hw
    obtain ⟨rest, rfl⟩ := first hqa
    exact ⟨_, rfl⟩
  | sign h' _ _ hq hqa hqg =>
    cases hu.unique h'; cases hq.unique hw
    obtain ⟨rest, rfl⟩ := first hqa
    exact ⟨_, rfl⟩
  | message h' _ _ hq hqa hqg hqp =>
    cases hu.unique h'; cases hq.unique hw
    obtain ⟨rest, rfl⟩ := first hqa
    exact ⟨_, rfl⟩

/-! ## Forwards -/

theorem ForwardQuestions.target {t next : Str} {qs : List Query} (h : ForwardQuestions C E t qs) (hf : ForwardTo C t next) :
    (if HasFragment next then .findSecrets [next] else .resolve next) ∈ qs := by
  cases h with
  | none h => exact absurd hf (h _)
  | key h hn => cases hf.unique h; rw [if_pos hn]; simp
  | unresolved h hn => cases hf.unique h; rw [if_neg hn]; simp
  | did h hn => cases hf.unique h; rw [if_neg hn]; simp

/-- C88: if an anonymous envelope for us contains a forward message and forwards are to be unwrapped, then unpacking asks about
whatever target the message names: for the document of a DID, for the secret of a key. -/
theorem C88_target (hd : NeverLonger C) (hf : PrintsFloats C) (t : Str) (opts : UnpackOptions) (ho : opts.unwrapReWrappingForward = true)
    (kids : List Str) (alg : AnonCryptAlg) (u next : Str) (hl : AnonLayer C E opts.expectDecryptByAllKeys t (.ok (some (kids, alg, u))))
    (hn : ForwardTo C u next) (tr : List Event) (r : Res (Message × UnpackMetadata)) (h : Runs (unpack C t opts) tr r)
    (ha : Answers E tr) : (if HasFragment next then .findSecrets [next] else .resolve next) ∈ tr.map Event.query := by
  have target : ∀ {qs}, UnwrapQuestions C E opts t qs → (if HasFragment next then .findSecrets [next] else .resolve next) ∈ qs := by
    intro qs hq
    cases hq with
    | closed h' => exact absurd hl (h' _)
    | opened _ ho' => rw [ho] at ho'; cases ho'
    | last h' _ _ _ hqf => cases hl.unique h'; exact List.mem_append_right _ (hqf.target hn)
    | again h' _ _ _ hqf =>
      cases hl.unique h'; exact List.mem_append_left _ (List.mem_append_right _ (hqf.target hn))
  have hq := C88_questions hd hf t opts tr r h ha
  generalize tr.map Event.query = qs at hq
  cases hq with
  | unwrapping _ hq => exact target hq
  | auth _ _ hq => exact List.mem_append_left _ (target hq)
  | sign _ _ _ hq => exact List.mem_append_left _ (List.mem_append_left _ (target hq))
  | message _ _ _ hq => exact List.mem_append_left _ (List.mem_append_left _ (List.mem_append_left _ (target hq)))

/-- What is left of an anonymously encrypted message after its only layer is removed. -/
theorem Unpacked.onlyAnon {opts : UnpackOptions} {t : Str} {m : Message} {md : UnpackMetadata} (h : Unpacked C E opts t (.ok (m, md)))
    (ho : opts.unwrapReWrappingForward = false) (h1 : md.anonymousSender = true) (h2 : md.authenticated = false) :
    ∃ kids alg u, AnonLayer C E opts.expectDecryptByAllKeys t (.ok (some (kids, alg, u))) ∧ fromJson (dMessage C.f64) u = .ok m := by
  cases h with
  | unpacked hu ha hs hp =>
    rename_i u md a s p
    cases a with
    | some a =>
      refine absurd h2 ?_
      cases s <;> cases p <;> simp [pastAuth, pastSign, UnpackMetadata.seePrior, UnpackMetadata.seeAuth, UnpackMetadata.seeSign]
    | none =>
      cases s with
      | some s =>
        refine absurd h2 ?_
        cases p <;> simp [pastAuth, pastSign, UnpackMetadata.seePrior, UnpackMetadata.seeSign]
      | none =>
        have hm : fromJson (dMessage C.f64) u = .ok m := by
          cases hp with
          | plain h => cases h with | one h => exact h
          | prior h => cases h with | one h => exact h
        cases hu with
        | none =>
          refine absurd h1 ?_
          cases p <;> simp [pastAuth, pastSign, UnpackMetadata.seePrior]
        | notAsked h => exact ⟨_, _, _, h, hm⟩
        | last _ ho' => rw [ho] at ho'; cases ho'
        | again _ ho' => rw [ho] at ho'; cases ho'

/-- C88: so anybody who can encrypt a message for a recipient makes a recipient who unwraps forwards ask for the document of any
DID, or search for the secret of any key, by naming it as the target of a forward message: no sender has to be named for that. -/
theorem C88_anybody_chooses (E E' : Env) (m : Message) (next : Str) (v : Value) (to : Str) (opts : PackEncryptedOptions)
    (uopts : UnpackOptions) (tr : List Event) (out : Str) (md : PackEncryptedMetadata) (hd : NeverLonger C) (hpf : PrintsFloats C)
    (law : C.Lawful pairs) (hs : SeesDocsOf E' E)
    (hwire : WireParty E (didOf to)) (hopen : Opens C pairs E' E (didOf to) md.toKids)
    (hw : m.WF C.f64) (ht : m.typ = b!"application/didcomm-plain+json") (hn : NotEnvelope m) (hm : IsForward m next v)
    (ho : uopts.unwrapReWrappingForward = true) (ha : Answers E tr)
    (h : Runs (packEncrypted C m to none none opts) tr (.ok (out, md))) (hf : md.messagingService = none)
    (tr' : List Event) (r : Res (Message × UnpackMetadata)) (h' : Runs (unpack C out uopts) tr' r) (ha' : Answers E' tr') :
    (if HasFragment next then .findSecrets [next] else .resolve next) ∈ tr'.map Event.query := by
  obtain ⟨fp, k, -, ⟨t2, a2, r2⟩, -⟩ := C03_anoncrypt_roundtrip E E' m to opts { uopts with unwrapReWrappingForward := false } tr out md law
    hs hwire hopen hw ht hn (fun h => by cases h) ha h hf
  obtain ⟨kids, alg, u, hl, hu⟩ := (C81_unpack hd hpf out _ t2 _ r2 a2).onlyAnon rfl rfl rfl
  exact C88_target hd hpf out uopts ho kids alg u next hl ⟨m, v, hu, hm⟩ tr' r h' ha'

/-! ## Examples -/

namespace World

/-- A forward message to somebody who has nothing to do with the recipient. -/
def lure : Message := forwardMessage b!"1" note b!"did:web:tracker.example" none

set_option maxRecDepth 100000 in
/-- The questions about the envelope from Alice that Bob, or somebody else, unpacks. -/
theorem auth_questions : ∃ t tr tr' r r', Runs (unpack Toy.crypto t {}) tr r ∧ Answers bobEnv tr ∧
    tr.map Event.query = [.resolve alice, .findSecrets [b!"did:example:bob#p1"], .getSecret b!"did:example:bob#p1"] ∧
    Runs (unpack Toy.crypto t {}) tr' r' ∧ Answers mediatorEnv tr' ∧
    tr'.map Event.query = [.resolve alice, .findSecrets [b!"did:example:bob#p1"]] ∧
    ∃ a, AuthLayer Toy.crypto bobEnv false t (.ok (some a)) := by
  let t := ((packEncrypted Toy.crypto msg bob (some alice) none { forward := false }).run aliceEnv id).2.toOption.elim [] Prod.fst
  obtain ⟨h1, h2⟩ := Prog.run_spec bobEnv id (unpack Toy.crypto t {})
  obtain ⟨h3, h4⟩ := Prog.run_spec mediatorEnv id (unpack Toy.crypto t {})
  obtain ⟨tr, x, h, ha, hx⟩ := of_test (E := bobEnv) (p := tryUnpackAuthcrypt Toy.crypto t {} {}) (P := fun x => x.1.isSome) (by decide +kernel)
  refine ⟨t, _, _, _, _, h1, h2, by decide +kernel, h3, h4, by decide +kernel, ?_⟩
  obtain ⟨r', hr, he⟩ := authLayer t {} {} tr _ h ha
  cases r' with
  | error e => cases he
  | ok o =>
    cases o with
    | none => cases he; cases hx
    | some a => exact ⟨a, hr⟩

end World

theorem AuthLayer.envelope {all : Bool} {t : Str} {kids : List Str} {kid : Str} {alg : AuthCryptAlg} {u : Str}
    (h : AuthLayer C E all t (.ok (some (kids, kid, alg, u)))) : ∃ j hdr apv, AuthEnvelope C t j hdr kid apv := by
  cases h with
  | opened h hh ha hb ho =>
    cases h with | one h =>
    cases ho with
    | opened hf => exact ⟨_, _, _, h, hh, ha, hb, hf⟩

/-- The questions of a run of Bob's, by the specification. -/
example : ∃ t, UnpackQuestions Toy.crypto World.bobEnv {} t
      [.resolve World.alice, .findSecrets [b!"did:example:bob#p1"], .getSecret b!"did:example:bob#p1"] ∧
    UnpackQuestions Toy.crypto World.mediatorEnv {} t [.resolve World.alice, .findSecrets [b!"did:example:bob#p1"]] ∧
    (∃ j hdr kid apv, AuthEnvelope Toy.crypto t j hdr kid apv) ∧
    ∃ tr r, Runs (unpack Toy.crypto t { unwrapReWrappingForward := false }) tr r ∧ Answers World.bobEnv tr := by
  obtain ⟨t, tr, tr', r, r', h1, h2, h3, h4, h5, h6, ⟨kids, kid, alg, u⟩, h7⟩ := World.auth_questions
  refine ⟨t, h3 ▸ C88_questions World.neverLonger World.printsFloats t {} tr r h1 h2,
    h6 ▸ C88_questions World.neverLonger World.printsFloats t {} tr' r' h4 h5, ?_, ?_⟩
  · obtain ⟨j, hdr, apv, h⟩ := h7.envelope
    exact ⟨j, hdr, kid, apv, h⟩
  · obtain ⟨h1, h2⟩ := Prog.run_spec World.bobEnv id (unpack Toy.crypto t { unwrapReWrappingForward := false })
    exact ⟨_, _, h1, h2⟩

/-- The mediator gets an envelope for Bob, and asks whether it is for the mediator, no more. -/
example : ∃ t tr r, Runs (unpack Toy.crypto t {}) tr r ∧ Answers World.mediatorEnv tr ∧
    tr.map Event.query = [.findSecrets [b!"did:example:bob#x1", b!"did:example:bob#x2"]] := by
  obtain ⟨t, kid, p, ⟨j, hdr, apv, ce, epk, kw, tag, hr, ha, hs, he, hk, hv, -⟩, h2, -⟩ := World.envelopes
  obtain ⟨h3, h4⟩ := Prog.run_spec World.mediatorEnv id (unpack Toy.crypto t {})
  refine ⟨t, _, _, h3, h4, ?_⟩
  have hk : kidsOf j = [b!"did:example:bob#x1", b!"did:example:bob#x2"] := hk
  rw [← hk]
  refine (C88_for_others World.neverLonger World.printsFloats t {} j hdr none apv
    ⟨hr.text, hr.recognised.2, ha, by rw [hk]; exact hv, .inl ⟨rfl, hs⟩⟩ (by rw [hk]; exact h2.1) ?_ _ _ h3 h4).1
  rw [hk]
  rfl

set_option maxRecDepth 100000 in
/-- Anybody makes Bob ask for the document of a DID of somebody's choice. -/
example : ∃ t, ∀ tr r, Runs (unpack Toy.crypto t {}) tr r → Answers World.bobEnv tr →
    .resolve b!"did:web:tracker.example" ∈ tr.map Event.query := by
  obtain ⟨tr, ⟨out, md⟩, h, ha, hk⟩ := World.of_test (E := World.aliceEnv)
    (p := packEncrypted Toy.crypto World.lure World.bob none none { forward := false })
    (P := fun x => decide (x.2.messagingService = none ∧ x.2.toKids = [b!"did:example:bob#x1", b!"did:example:bob#x2"])) (by decide +kernel)
  obtain ⟨hk1, hk2⟩ := of_decide_eq_true hk
  simp only at hk1 hk2
  refine ⟨out, fun tr' r h' ha' => ?_⟩
  have := C88_anybody_chooses World.aliceEnv World.bobEnv World.lure b!"did:web:tracker.example" World.note World.bob { forward := false } {} tr out md
    World.neverLonger World.printsFloats Toy.lawful World.bob_sees World.wire_bob
    (World.bob_opens (by rw [hk2]; decide) (by rw [hk2]; decide))
    (forwardMessage_wf World.headersOk_none (by decide) (by decide) World.note_wf (by decide)) rfl
    ⟨by decide, by decide⟩ ((C41_only _ _ _).1 rfl) rfl ha h hk1 tr' r h' ha'
  rwa [if_neg (by decide)] at this

end DIDComm
