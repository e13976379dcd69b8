import Verif.Proofs.PackQuestions
import Verif.Props.Outcome
import Verif.Props.Questions

/-!
# C89: the questions of packing

Which questions packing puts to the resolvers, in which order: `Verif.Spec.PackQuestions`.
-/

set_option autoImplicit false

namespace DIDComm

variable {C : Crypto} {E : Env} {α : Type}

theorem exact_of {p : Prog α} {P : List Query → Prop} (h : Consults E p (fun qs _ => P qs)) (hu : ∀ qs qs', P qs → P qs' → qs = qs')
    (qs : List Query) : P qs ↔ ∀ tr r, Runs p tr r → Answers E tr → questionsOf tr = qs := by
  constructor
  · intro hq tr r hr ha
    exact hu _ _ (h tr r hr ha) hq
  · intro hq
    obtain ⟨h1, h2⟩ := Prog.run_spec E id p
    have := h _ _ h1 h2
    rwa [hq _ _ h1 h2] at this

/-- C89: the questions of reading a `from_prior`. -/
theorem C89_prior_read (jwt : Str) (qs : List Query) :
    PriorReadQuestions jwt qs ↔ ∀ tr r, Runs (FromPrior.unpack C jwt) tr r → Answers E tr → questionsOf tr = qs :=
  exact_of (priorReadQuestions jwt) (fun _ _ h h' => h.unique h') qs

/-- C89: the questions of issuing a `from_prior`. -/
theorem C89_prior_issued (f : FromPrior) (issuerKid : Option Str) (qs : List Query) :
    PriorIssueQuestions E f issuerKid qs ↔ ∀ tr r, Runs (f.pack C issuerKid) tr r → Answers E tr → questionsOf tr = qs :=
  exact_of (priorIssueQuestions f issuerKid) (fun _ _ h h' => h.unique h') qs

/-- C89: the questions of packing a plaintext message. -/
theorem C89_plaintext (m : Message) (qs : List Query) :
    PlaintextQuestions m qs ↔ ∀ tr r, Runs (packPlaintext C m) tr r → Answers E tr → questionsOf tr = qs :=
  exact_of (plaintextQuestions m) (fun _ _ h h' => h.unique h') qs

/-- C89: the questions of signing a message. -/
theorem C89_signed (m : Message) (signBy : Str) (qs : List Query) :
    SignerQuestions C E m signBy qs ↔ ∀ tr r, Runs (packSigned C m signBy) tr r → Answers E tr → questionsOf tr = qs :=
  exact_of (signerQuestions m signBy) (fun _ _ h h' => h.unique h') qs

/-- C89: every run of `wrap_in_forward` asks the questions of the specification, in that order, and no others. -/
theorem C89_wrapped (ht : TextEnv E) (msg : Str) (headers : Option (List (Str × Value))) (to : Str) (keys : List Str)
    (alg : AnonCryptAlg) (tr : List Event) (r : Res Str) (h : Runs (wrapInForward C msg headers to keys alg) tr r) (ha : Answers E tr) :
    ForwardWrapQuestions C E msg keys alg (r.map fun _ => ()) (questionsOf tr) :=
  forwardWrapQuestions ht msg headers to keys alg tr r h ha

/-- C89: every run of `pack_encrypted` asks the questions of the specification, in that order, and no others. -/
theorem C89_encrypted (ht : TextEnv E) (m : Message) (to : Str) (from_ signBy : Option Str) (opts : PackEncryptedOptions)
    (tr : List Event) (r : Res (Str × PackEncryptedMetadata)) (h : Runs (packEncrypted C m to from_ signBy opts) tr r) (ha : Answers E tr) :
    PackQuestions C E m to from_ signBy opts (r.map Prod.snd) (questionsOf tr) :=
  packQuestions ht m to from_ signBy opts tr r h ha

/-- C89: if the library refuses nothing, the questions are the same in all runs: those of the specification. -/
theorem C89_encrypted_exact (ht : TextEnv E) (hw : Willing C E) (m : Message) (to : Str) (from_ signBy : Option Str)
    (opts : PackEncryptedOptions) (qs : List Query) :
    (∃ r, PackQuestions C E m to from_ signBy opts r qs) ↔
      ∀ tr r, Runs (packEncrypted C m to from_ signBy opts) tr r → Answers E tr → questionsOf tr = qs :=
  exact_of (P := fun qs => ∃ r, PackQuestions C E m to from_ signBy opts r qs)
    ((packQuestions ht m to from_ signBy opts).mono fun _ _ h => ⟨_, h⟩) (fun _ _ ⟨_, h⟩ ⟨_, h'⟩ => h.unique hw h') qs

/-- C89: likewise for `wrap_in_forward`. -/
theorem C89_wrapped_exact (ht : TextEnv E) (hw : Willing C E) (msg : Str) (headers : Option (List (Str × Value))) (to : Str)
    (keys : List Str) (alg : AnonCryptAlg) (qs : List Query) :
    (∃ r, ForwardWrapQuestions C E msg keys alg r qs) ↔
      ∀ tr r, Runs (wrapInForward C msg headers to keys alg) tr r → Answers E tr → questionsOf tr = qs :=
  exact_of (P := fun qs => ∃ r, ForwardWrapQuestions C E msg keys alg r qs)
    ((forwardWrapQuestions ht msg headers to keys alg).mono fun _ _ h => ⟨_, h⟩) (fun _ _ ⟨_, h⟩ ⟨_, h'⟩ => h.unique hw h') qs

/-! ## Consequences -/

/-- C89: nobody is asked anything if the arguments are illegal. -/
theorem C89_illegal (ht : TextEnv E) (m : Message) (to : Str) (from_ signBy : Option Str) (opts : PackEncryptedOptions)
    (hi : IllegalArguments m to from_ signBy) (tr : List Event) (r : Res (Str × PackEncryptedMetadata))
    (h : Runs (packEncrypted C m to from_ signBy opts) tr r) (ha : Answers E tr) : questionsOf tr = [] := by
  have hq := C89_encrypted ht m to from_ signBy opts tr r h ha
  generalize Except.map Prod.snd r = x at hq
  generalize questionsOf tr = qs at hq ⊢
  cases hq with
  | illegal => rfl
  | inner h => exact absurd hi h
  | crypt h => exact absurd hi h
  | forward h => exact absurd hi h

/-- C89: to encrypt a message anonymously for one recipient, without forwarding, only the document of the recipient is asked for,
once, however it ends. -/
theorem C89_anonymous (ht : TextEnv E) (m : Message) (to : Str) (opts : PackEncryptedOptions) (hp : m.fromPrior = none)
    (hl : ¬ IllegalArguments m to none none) (hf : opts.forward = false) (tr : List Event) (r : Res (Str × PackEncryptedMetadata))
    (h : Runs (packEncrypted C m to none none opts) tr r) (ha : Answers E tr) : questionsOf tr = [.resolve (didOf to)] := by
  have hq := C89_encrypted ht m to none none opts tr r h ha
  generalize Except.map Prod.snd r = x at hq
  generalize questionsOf tr = qs at hq ⊢
  have inner : ∀ {qs}, InnerQuestions C E m none qs → qs = [] := by
    rintro _ (h | h)
    cases h with
    | none => rfl
    | prior h => rw [hp] at h; cases h
  cases hq with
  | illegal h => exact absurd h hl
  | inner _ hi =>
    generalize hx : (Except.error _ : Res (Option Str)) = x at hi
    cases hi with
    | plain h =>
      cases h with
      | without => cases hx
      | unreadable h | badClaims h | otherIssuer h | otherSender h | good h => rw [hp] at h; cases h
  | crypt _ _ _ hi hc => rw [inner hi]; cases hc; rfl
  | forward _ _ _ hi hc hw =>
    rw [inner hi]; cases hc
    cases hw with
    | off => rfl
    | noRoute h | notNeeded h | wrapped h => rw [hf] at h; cases h

theorem WrapQuestions.all {alg : AnonCryptAlg} {keys : List Str} {qs : List Query} (h : WrapQuestions C E alg keys (.ok ()) qs) :
    qs = keys.map fun k => .resolve (didOf k) := by
  generalize hr : (Except.ok () : Res Unit) = r at h
  induction h with
  | done => rfl
  | failed => cases hr
  | step _ _ ih => rw [ih hr]; rfl

/-- C89: a packing that succeeds asked everything: about the message inside, for the encryption, and, if forwarding is on, about the
route and then for the document of every key on it, that of the last stop first. -/
theorem C89_success (ht : TextEnv E) (m : Message) (to : Str) (from_ signBy : Option Str) (opts : PackEncryptedOptions)
    (tr : List Event) (out : Str) (md : PackEncryptedMetadata) (h : Runs (packEncrypted C m to from_ signBy opts) tr (.ok (out, md)))
    (ha : Answers E tr) :
    ∃ qi qc, InnerQuestions C E m signBy qi ∧ CryptQuestions E to from_ qc ∧
      (opts.forward = false → questionsOf tr = qi ++ qc) ∧
      (opts.forward = true → ∃ chain qr, Routed E to opts.messagingService (.ok chain) ∧ RouteQuestions E to opts.messagingService qr ∧
        questionsOf tr = qi ++ qc ++ qr ++ (routeOf chain).reverse.map fun k => .resolve (didOf k)) := by
  have hq := C89_encrypted ht m to from_ signBy opts tr _ h ha
  change PackQuestions C E m to from_ signBy opts (.ok md) _ at hq
  generalize questionsOf tr = qs at hq ⊢
  generalize hx : (Except.ok md : Res PackEncryptedMetadata) = x at hq
  cases hq with
  | illegal | inner | crypt => cases hx
  | forward _ _ _ hi hc hw =>
    refine ⟨_, _, hi, hc, ?_⟩
    cases hw with
    | off h => exact ⟨fun _ => by rw [List.append_nil], fun h' => by rw [h] at h'; cases h'⟩
    | noRoute => cases hx
    | notNeeded h hr hk hq =>
      refine ⟨fun h' => (by rw [h] at h'; cases h'), fun _ => ⟨_, _, hr, hq, ?_⟩⟩
      rw [hk]; simp
    | @wrapped _ _ _ r _ _ h hr _ _ _ hq hw =>
      refine ⟨fun h' => (by rw [h] at h'; cases h'), fun _ => ⟨_, _, hr, hq, ?_⟩⟩
      cases r with
      | error => cases hx
      | ok u => rw [hw.all]; simp

/-- The DIDs about which packing may ask: of the recipient, the sender, the signer, the issuer of the `from_prior`; and with forwarding
the mediator that is the endpoint of the recipient's service, and those of the keys on the route. -/
inductive PackDocument (E : Env) (m : Message) (to : Str) (from_ signBy : Option Str) (opts : PackEncryptedOptions) : Str → Prop
  | recipient : PackDocument E m to from_ signBy opts (didOf to)
  | sender {f : Str} (h : from_ = some f) : PackDocument E m to from_ signBy opts (didOf f)
  | signer {s : Str} (h : signBy = some s) : PackDocument E m to from_ signBy opts (didOf s)
  | issuer {jwt h pl sig : Str} {hdr : CompactHeader} (hm : m.fromPrior = some jwt) (hf : JwtForm jwt h pl sig hdr) :
      PackDocument E m to from_ signBy opts (didOf hdr.kid)
  | mediator {doc : DIDDoc} {s : Str × DIDCommMessagingService} (ho : opts.forward = true) (h : Document E (didOf to) (.ok doc))
      (hs : Selects doc.service opts.messagingService (.ok (some s))) (hd : LooksLikeDid s.2.uri) :
      PackDocument E m to from_ signBy opts s.2.uri
  | key {chain : List (Str × DIDCommMessagingService)} {k : Str} (ho : opts.forward = true)
      (h : Routed E to opts.messagingService (.ok chain)) (hk : k ∈ routeOf chain) : PackDocument E m to from_ signBy opts (didOf k)

theorem OwnKeyQuestions.noDocument {kids : List Str} {qs : List Query} (h : OwnKeyQuestions E kids qs) {d : Str} : .resolve d ∉ qs := by
  cases h <;> simp

theorem WrapQuestions.documents {alg : AnonCryptAlg} {keys : List Str} {r : Res Unit} {qs : List Query} (h : WrapQuestions C E alg keys r qs)
    {d : Str} (hd : .resolve d ∈ qs) : ∃ k ∈ keys, d = didOf k := by
  induction h with
  | done => cases hd
  | failed => simp at hd; exact ⟨_, by simp, hd⟩
  | step _ _ ih =>
    rcases List.mem_cons.1 hd with h | h
    · cases h; exact ⟨_, by simp, rfl⟩
    · obtain ⟨k, hk, e⟩ := ih h; exact ⟨k, by simp [hk], e⟩

theorem PlaintextQuestions.documents {m : Message} {qs : List Query} (h : PlaintextQuestions m qs) {d : Str} (hd : .resolve d ∈ qs)
    (to : Str) (from_ signBy : Option Str) (opts : PackEncryptedOptions) : PackDocument E m to from_ signBy opts d := by
  cases h with
  | none => cases hd
  | prior h hq =>
    cases hq with
    | none => cases hd
    | issuer hf => simp at hd; subst hd; exact .issuer h hf

/-- C89: packing asks for no other documents. -/
theorem C89_documents (ht : TextEnv E) (m : Message) (to : Str) (from_ signBy : Option Str) (opts : PackEncryptedOptions)
    (tr : List Event) (r : Res (Str × PackEncryptedMetadata)) (h : Runs (packEncrypted C m to from_ signBy opts) tr r) (ha : Answers E tr)
    (d : Str) (hd : .resolve d ∈ questionsOf tr) : PackDocument E m to from_ signBy opts d := by
  have hq := C89_encrypted ht m to from_ signBy opts tr r h ha
  generalize Except.map Prod.snd r = x at hq
  generalize questionsOf tr = qs at hq hd
  have inner : ∀ {qs}, InnerQuestions C E m signBy qs → .resolve d ∈ qs → PackDocument E m to from_ signBy opts d := by
    rintro qs (h | h) hd
    · exact h.documents hd _ _ _ _
    · cases h with
      | notDid => cases hd
      | notListed => simp at hd; subst hd; exact .signer rfl
      | noKey _ _ _ _ hq =>
        rcases List.mem_cons.1 hd with h | h
        · cases h; exact .signer rfl
        · exact absurd h hq.noDocument
      | key _ _ _ _ hq hm =>
        rcases List.mem_cons.1 hd with h | h
        · cases h; exact .signer rfl
        · rcases List.mem_append.1 h with h | h
          · exact absurd h hq.noDocument
          · exact hm.documents h _ _ _ _
  have crypt : ∀ {qs}, CryptQuestions E to from_ qs → .resolve d ∈ qs → PackDocument E m to from_ signBy opts d := by
    rintro qs (_ | h) hd
    · simp at hd; subst hd; exact .recipient
    · cases h with
      | noRecipient => simp at hd; subst hd; exact .recipient
      | noSender | noKey | key =>
        simp at hd
        rcases hd with rfl | rfl
        · exact .recipient
        · exact .sender rfl
  have route : opts.forward = true → ∀ {qs}, RouteQuestions E to opts.messagingService qs → .resolve d ∈ qs →
      PackDocument E m to from_ signBy opts d := by
    rintro ho qs (h | ⟨h, hs, hl⟩) hd
    · simp at hd; subst hd; exact .recipient
    · simp at hd
      rcases hd with rfl | rfl
      · exact .recipient
      · exact .mediator ho h hs hl
  cases hq with
  | illegal => cases hd
  | inner _ _ hi => exact inner hi hd
  | crypt _ _ _ hi hc =>
    rcases List.mem_append.1 hd with hd | hd
    · exact inner hi hd
    · exact crypt hc hd
  | forward _ _ _ hi hc hw =>
    rcases List.mem_append.1 hd with hd | hd
    · rcases List.mem_append.1 hd with hd | hd
      · exact inner hi hd
      · exact crypt hc hd
    · cases hw with
      | off => cases hd
      | noRoute ho _ hq => exact route ho hq hd
      | notNeeded ho _ _ hq => exact route ho hq hd
      | wrapped ho hr _ _ _ hq hw =>
        rcases List.mem_append.1 hd with hd | hd
        · exact route ho hq hd
        · obtain ⟨k, hk, rfl⟩ := hw.documents hd
          exact .key ho hr (by simpa using hk)

/-- C89: what the resolvers are asked does not depend on the message, apart from its `to`, `from` and `from_prior`. -/
theorem C89_content (ht : TextEnv E) (hw : Willing C E) (m m' : Message) (to : Str) (from_ signBy : Option Str)
    (opts : PackEncryptedOptions) (h1 : m'.to = m.to) (h2 : m'.from_ = m.from_) (h3 : m'.fromPrior = m.fromPrior)
    (tr tr' : List Event) (r r' : Res (Str × PackEncryptedMetadata)) (h : Runs (packEncrypted C m to from_ signBy opts) tr r)
    (h' : Runs (packEncrypted C m' to from_ signBy opts) tr' r') (hE : Answers E tr) (hE' : Answers E tr') :
    questionsOf tr' = questionsOf tr := by
  have hpl : ∀ x, PlaintextPacked C E m x → PlaintextPacked C E m' x := by
    intro x hx
    cases hx with
    | without a => exact .without (h3.trans a)
    | unreadable a b => exact .unreadable (h3.trans a) b
    | badClaims a b c => exact .badClaims (h3.trans a) b c
    | otherIssuer a b c d => exact .otherIssuer (h3.trans a) b c d
    | otherSender a b c d e f => exact .otherSender (h3.trans a) b c d (h2.trans e) f
    | good a b c d e => exact .good (h3.trans a) b c d (by rw [h2]; exact e)
  have hin : ∀ x, InnerPacked C E m signBy x → InnerPacked C E m' signBy x := by
    intro x hx
    cases hx with
    | plain a => exact .plain (hpl _ a)
    | signed a =>
      refine .signed ?_
      cases a with
      | notDid a => exact .notDid a
      | noDocument a b => exact .noDocument a b
      | notListed a b c d => exact .notListed a b c d
      | noKey a b c d => exact .noKey a b c d
      | badMessage a b c d e => exact .badMessage a b c d (hpl _ e)
      | signed a b c d e f => exact .signed a b c d (hpl _ e) f
  have hil : IllegalArguments m' to from_ signBy ↔ IllegalArguments m to from_ signBy := by
    unfold IllegalArguments
    rw [h1, h2]
  have hpq : ∀ qs, PlaintextQuestions m qs → PlaintextQuestions m' qs := by
    intro qs hq
    cases hq with
    | none a => exact .none (h3.trans a)
    | prior a b => exact .prior (h3.trans a) b
  have hiq : ∀ qs, InnerQuestions C E m signBy qs → InnerQuestions C E m' signBy qs := by
    intro qs hq
    cases hq with
    | plain a => exact .plain (hpq _ a)
    | signed a =>
      refine .signed ?_
      cases a with
      | notDid a => exact .notDid a
      | notListed a b => exact .notListed a b
      | noKey a b c d e => exact .noKey a b c d e
      | key a b c d e f => exact .key a b c d e (hpq _ f)
  refine (C89_encrypted_exact ht hw m' to from_ signBy opts _).1 ?_ tr' r' h' hE'
  have hx := C89_encrypted ht m to from_ signBy opts tr r h hE
  generalize Except.map Prod.snd r = x at hx
  generalize questionsOf tr = qs at hx ⊢
  cases hx with
  | illegal a => exact ⟨_, .illegal (hil.2 a)⟩
  | inner a b c => exact ⟨_, .inner (fun h => a (hil.1 h)) (hin _ b) (hiq _ c)⟩
  | crypt a b c d e => exact ⟨_, .crypt (fun h => a (hil.1 h)) (hin _ b) c (hiq _ d) e⟩
  | forward a b c d e f => exact ⟨_, .forward (fun h => a (hil.1 h)) (hin _ b) c (hiq _ d) e f⟩

theorem PriorReadQuestions.count {jwt : Str} {qs : List Query} (h : PriorReadQuestions jwt qs) :
    qs.countP Query.forDocument ≤ 1 ∧ qs.countP Query.search = 0 := by
  cases h with
  | none => exact ⟨by decide, rfl⟩
  | issuer => exact ⟨by simp [Query.forDocument], by simp [Query.search]⟩

theorem OwnKeyQuestions.count {kids : List Str} {qs : List Query} (h : OwnKeyQuestions E kids qs) :
    qs.countP Query.forDocument = 0 ∧ qs.countP Query.search = 1 := by
  cases h <;> exact ⟨rfl, rfl⟩

theorem InnerQuestions.count {m : Message} {signBy : Option Str} {qs : List Query} (h : InnerQuestions C E m signBy qs) :
    qs.countP Query.forDocument ≤ 2 ∧ qs.countP Query.search ≤ 1 := by
  have plain : ∀ {qs}, PlaintextQuestions m qs → qs.countP Query.forDocument ≤ 1 ∧ qs.countP Query.search = 0 := by
    rintro qs (_ | ⟨_, h⟩)
    · exact ⟨by decide, rfl⟩
    · exact h.count
  cases h with
  | plain h => have := plain h; omega
  | signed h =>
    cases h with
    | notDid => exact ⟨by decide, by decide⟩
    | notListed => exact ⟨by simp [Query.forDocument], by simp [Query.search]⟩
    | noKey _ _ _ _ hq => have := hq.count; simp [Query.forDocument, Query.search, List.countP_cons]; simp [this]
    | key _ _ _ _ hq hm =>
      have h1 := hq.count
      have h2 := plain hm
      simp only [List.countP_cons, List.countP_append, Query.forDocument, Query.search]
      simp only [if_true, Bool.false_eq_true, if_false]
      omega

/-- C89: packing without forwarding asks for at most four documents, and packing at all searches for secrets at most twice. -/
theorem C89_few (ht : TextEnv E) (m : Message) (to : Str) (from_ signBy : Option Str) (opts : PackEncryptedOptions)
    (tr : List Event) (r : Res (Str × PackEncryptedMetadata)) (h : Runs (packEncrypted C m to from_ signBy opts) tr r) (ha : Answers E tr) :
    (opts.forward = false → (questionsOf tr).countP Query.forDocument ≤ 4) ∧ (questionsOf tr).countP Query.search ≤ 2 := by
  have hq := C89_encrypted ht m to from_ signBy opts tr r h ha
  generalize Except.map Prod.snd r = x at hq
  generalize questionsOf tr = qs at hq ⊢
  have crypt : ∀ {qs}, CryptQuestions E to from_ qs → qs.countP Query.forDocument ≤ 2 ∧ qs.countP Query.search ≤ 1 := by
    rintro qs (_ | h)
    · exact ⟨by simp [Query.forDocument], by simp [Query.search]⟩
    · cases h <;> exact ⟨by simp [List.countP_cons, Query.forDocument], by simp [List.countP_cons, Query.search]⟩
  have route : ∀ {qs}, RouteQuestions E to opts.messagingService qs → qs.countP Query.search = 0 := by
    rintro qs (_ | _) <;> simp [Query.search]
  have wrap : ∀ {alg ks r qs}, WrapQuestions C E alg ks r qs → qs.countP Query.search = 0 := by
    intro alg ks r qs h
    induction h with
    | done => rfl
    | failed => simp [Query.search]
    | step _ _ ih => rw [List.countP_cons, ih]; simp [Query.search]
  cases hq with
  | illegal => exact ⟨fun _ => by decide, by decide⟩
  | inner _ _ hi => have := hi.count; omega
  | crypt _ _ _ hi hc =>
    have h1 := hi.count
    have h2 := crypt hc
    simp only [List.countP_append]
    omega
  | forward _ _ _ hi hc hw =>
    have h1 := hi.count
    have h2 := crypt hc
    simp only [List.countP_append]
    cases hw with
    | off => simp only [List.countP_nil]; omega
    | noRoute ho _ hq => rw [route hq]; exact ⟨fun h => (by rw [ho] at h; cases h), by omega⟩
    | notNeeded ho _ _ hq => rw [route hq]; exact ⟨fun h => (by rw [ho] at h; cases h), by omega⟩
    | wrapped ho _ _ _ _ hq hw =>
      rw [List.countP_append, List.countP_append, route hq, wrap hw]; exact ⟨fun h => (by rw [ho] at h; cases h), by omega⟩

/-! ## Examples -/

set_option maxRecDepth 100000 in
/-- Every run of packing a message from Alice to Bob, signed by Alice and forwarded, asks these questions in this order. -/
example (tr : List Event) (r : Res (Str × PackEncryptedMetadata))
    (h : Runs (packEncrypted Toy.crypto World.msg World.bob (some World.alice) (some World.alice) {}) tr r) (ha : Answers World.env tr) :
    questionsOf tr = [.resolve World.alice, .findSecrets [b!"did:example:alice#ed", b!"did:example:alice#es", b!"did:example:alice#ek"],
      .getSecret b!"did:example:alice#ed", .resolve World.bob, .resolve World.alice,
      .findSecrets [b!"did:example:alice#p1", b!"did:example:alice#x1"], .getSecret b!"did:example:alice#p1",
      .resolve World.bob, .resolve World.mediator, .resolve World.mediator, .resolve World.mediator] := by
  obtain ⟨h1, h2⟩ := Prog.run_spec World.env id (packEncrypted Toy.crypto World.msg World.bob (some World.alice) (some World.alice) {})
  have h3 := C89_encrypted textEnv_world World.msg World.bob (some World.alice) (some World.alice) {} _ _ h1 h2
  rw [(C89_encrypted_exact textEnv_world (willing_toy _) _ _ _ _ _ _).1 ⟨_, h3⟩ tr r h ha]
  decide +kernel

/-- Nobody is asked when the recipient is not a DID, and only for Bob's document to pack for Bob anonymously. -/
example (tr : List Event) (r : Res (Str × PackEncryptedMetadata)) (ha : Answers World.env tr) :
    (Runs (packEncrypted Toy.crypto World.msg b!"bob" none none {}) tr r → questionsOf tr = []) ∧
    (Runs (packEncrypted Toy.crypto World.msg World.bob none none { forward := false }) tr r → questionsOf tr = [.resolve World.bob]) := by
  refine ⟨fun h => C89_illegal textEnv_world _ _ _ _ _ ?_ tr r h ha, fun h =>
    C89_anonymous textEnv_world World.msg World.bob _ rfl (msg_legal _ (.inl rfl)) rfl tr r h ha⟩
  rw [← illegalArguments_iff]
  intro h
  have e : World.msg.validatePackEncrypted b!"bob" none none = .error (.kind .illegalArgument) := by rfl
  rw [e] at h
  cases h

/-- For somebody unknown authenticated packing asks only for that document. -/
example : AuthEncryptQuestions World.env b!"did:example:nobody" World.alice [.resolve b!"did:example:nobody"] := by
  refine .noRecipient fun doc h => ?_
  cases h with | found h => cases h

/-- Alice signs, and issues a `from_prior`. -/
example : SignerQuestions Toy.crypto World.env World.msg World.alice
      [.resolve World.alice, .findSecrets [b!"did:example:alice#ed", b!"did:example:alice#es", b!"did:example:alice#ek"],
        .getSecret b!"did:example:alice#ed"] ∧
    PriorIssueQuestions World.env { iss := World.alice, sub := World.bob } none
      [.resolve World.alice, .findSecrets [b!"did:example:alice#ed", b!"did:example:alice#es", b!"did:example:alice#ek"],
        .getSecret b!"did:example:alice#ed"] ∧
    PriorIssueQuestions World.env { iss := World.alice, sub := World.alice } none [] := by
  refine ⟨.key (doc := World.aliceDoc) (x := (b!"did:example:alice#ed", ⟨.ed25519, [1]⟩)) ((C46_is_did _).1 (by decide)) (.found rfl)
      (by intro h; revert h; decide) (.key (rest := [b!"did:example:alice#es", b!"did:example:alice#ek"])
        (s := World.secret b!"did:example:alice#ed" b!"OKP" b!"Ed25519" [1]) (by rfl) (by rfl) (by rfl))
      (.first (kid := b!"did:example:alice#ed") (rest := [b!"did:example:alice#es", b!"did:example:alice#ek"]) (by rfl)) (.none rfl),
    .keys (doc := World.aliceDoc)
      ⟨⟨(C46_is_did _).1 (by decide), by decide⟩, ⟨(C46_is_did _).1 (by decide), by decide⟩, by decide⟩ (fun _ h => by cases h)
      (.found rfl) (fun _ h => by cases h)
      (.first (kid := b!"did:example:alice#ed") (rest := [b!"did:example:alice#es", b!"did:example:alice#ek"]) (by rfl)),
    .bad fun h => h.1.2.2 rfl⟩

/-- Wrapping text that is not JSON asks nothing; without keys it asks nothing either. -/
example : ForwardWrapQuestions Toy.crypto World.env b!"{" [World.mediator] .xc20pEcdhEsA256kw (.error (.kind .malformed)) [] ∧
    ForwardWrapQuestions Toy.crypto World.env b!"{}" [] .xc20pEcdhEsA256kw (.error .panic) [] :=
  ⟨.notJson (by simp) (fun v h => by cases h), .noKeys rfl⟩

end DIDComm
