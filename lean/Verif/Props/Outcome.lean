import Verif.Proofs.OutcomeUnique
import Verif.Spec.World

/-!
# C79: how packing ends

`Spec/Outcome` lists, for each operation, the reasons for which it can end and the result that goes with each.  Here: no
operation ends otherwise, and unless the cryptographic library refuses something, the result is determined by the arguments
and what the resolvers answer, so the lists are exact.
-/

set_option autoImplicit false

namespace DIDComm

variable {C : Crypto} {E : Env}

/-- C79: reading a `from_prior`. -/
theorem C79_prior_read (jwt : Str) (tr : List Event) (r : Res (FromPrior × Str)) (h : Runs (FromPrior.unpack C jwt) tr r)
    (ha : Answers E tr) : PriorRead C E jwt r := priorRead jwt tr r h ha

/-- C79: issuing a `from_prior`. -/
theorem C79_prior_issued (f : FromPrior) (issuerKid : Option Str) (tr : List Event) (r : Res (Str × Str))
    (h : Runs (f.pack C issuerKid) tr r) (ha : Answers E tr) : PriorIssued C E f issuerKid (r.map Prod.snd) :=
  priorIssued f issuerKid tr r h ha

/-- C79: packing a plaintext message. -/
theorem C79_plaintext (m : Message) (tr : List Event) (r : Res Str) (h : Runs (packPlaintext C m) tr r) (ha : Answers E tr) :
    PlaintextPacked C E m (r.map fun _ => ()) := plaintextPacked m tr r h ha

/-- C79: packing a signed message. -/
theorem C79_signed (m : Message) (signBy : Str) (tr : List Event) (r : Res (Str × Str)) (h : Runs (packSigned C m signBy) tr r)
    (ha : Answers E tr) : SignedPacked C E m signBy (r.map Prod.snd) := signedPacked m signBy tr r h ha

/-- C79: packing an encrypted message. -/
theorem C79_encrypted (ht : TextEnv E) (m : Message) (to : Str) (from_ signBy : Option Str) (opts : PackEncryptedOptions)
    (tr : List Event) (r : Res (Str × PackEncryptedMetadata)) (h : Runs (packEncrypted C m to from_ signBy opts) tr r)
    (ha : Answers E tr) : EncryptedPacked C E m to from_ signBy opts (r.map Prod.snd) :=
  encryptedPacked ht m to from_ signBy opts tr r h ha

/-- C79: wrapping a message in forwards. -/
theorem C79_wrapped (ht : TextEnv E) (msg : Str) (headers : Option (List (Str × Value))) (to : Str) (keys : List Str)
    (alg : AnonCryptAlg) (tr : List Event) (r : Res Str) (h : Runs (wrapInForward C msg headers to keys alg) tr r)
    (ha : Answers E tr) : ForwardWrapped C E msg keys alg (r.map fun _ => ()) := forwardWrapped ht msg headers to keys alg tr r h ha

/-- C79: the listed reasons exclude each other, so the lists tell exactly how an operation ends, if the library refuses nothing. -/
theorem C79_determined (hw : Willing C E) :
    (∀ jwt r r', PriorRead C E jwt r → PriorRead C E jwt r' → r = r') ∧
    (∀ f k r r', PriorIssued C E f k r → PriorIssued C E f k r' → r = r') ∧
    (∀ m r r', PlaintextPacked C E m r → PlaintextPacked C E m r' → r = r') ∧
    (∀ m s r r', SignedPacked C E m s r → SignedPacked C E m s r' → r = r') ∧
    (∀ m to f s o r r', EncryptedPacked C E m to f s o r → EncryptedPacked C E m to f s o r' → r = r') ∧
    (∀ msg ks a r r', ForwardWrapped C E msg ks a r → ForwardWrapped C E msg ks a r' → r = r') :=
  ⟨fun _ _ _ h h' => h.unique h', fun _ _ _ _ h h' => h.unique hw h', fun _ _ _ h h' => h.unique h',
   fun _ _ _ _ h h' => h.unique hw h', fun _ _ _ _ _ _ _ h h' => h.unique hw h', fun _ _ _ _ _ h h' => h.unique hw h'⟩

/-- C79: so whenever a reason from the list for `pack_encrypted` applies, every run ends accordingly. -/
theorem C79_encrypted_exact (ht : TextEnv E) (hw : Willing C E) (m : Message) (to : Str) (from_ signBy : Option Str)
    (opts : PackEncryptedOptions) (x : Res PackEncryptedMetadata) :
    EncryptedPacked C E m to from_ signBy opts x ↔
      ∀ tr r, Runs (packEncrypted C m to from_ signBy opts) tr r → Answers E tr → r.map Prod.snd = x := by
  constructor
  · intro hx tr r h ha
    exact (C79_encrypted ht m to from_ signBy opts tr r h ha).unique hw hx
  · intro h
    obtain ⟨h1, h2⟩ := Prog.run_spec E id (packEncrypted C m to from_ signBy opts)
    rw [← h _ _ h1 h2]
    exact C79_encrypted ht m to from_ signBy opts _ _ h1 h2

/-- C79: the same for signing. -/
theorem C79_signed_exact (hw : Willing C E) (m : Message) (signBy : Str) (x : Res Str) :
    SignedPacked C E m signBy x ↔ ∀ tr r, Runs (packSigned C m signBy) tr r → Answers E tr → r.map Prod.snd = x := by
  constructor
  · intro hx tr r h ha
    exact (C79_signed m signBy tr r h ha).unique hw hx
  · intro h
    obtain ⟨h1, h2⟩ := Prog.run_spec E id (packSigned C m signBy)
    rw [← h _ _ h1 h2]
    exact C79_signed m signBy _ _ h1 h2

/-! ## C80: packing succeeds when all is in order -/

theorem CanReceive.anon {to : Str} {kids : List Str} (h : CanReceive C E to kids) (alg : AnonCryptAlg) : Anoncrypted C E to alg (.ok kids) := by
  obtain ⟨doc, c, hd, hm, hc, ha, rfl, hr⟩ := h
  exact .document (.found hd) (.sealed hm hc ha hr)

/-- C80: anonymous encryption without forwarding succeeds if the arguments are legal and the recipient can be encrypted for;
its keys are the recipients. -/
theorem C80_anonymous (ht : TextEnv E) (hw : Willing C E) (m : Message) (to : Str) (opts : PackEncryptedOptions)
    (hl : ¬ IllegalArguments m to none none) (hp : m.fromPrior = none) (hf : opts.forward = false)
    (kids : List Str) (hk : CanReceive C E to kids)
    (tr : List Event) (r : Res (Str × PackEncryptedMetadata)) (h : Runs (packEncrypted C m to none none opts) tr r) (hE : Answers E tr) :
    ∃ out, r = .ok (out, ⟨none, none, none, kids⟩) := by
  have key : EncryptedPacked C E m to none none opts (.ok ⟨none, none, none, kids⟩) :=
    .packed hl (.plain (.without hp)) (.anon (hk.anon _)) (.off hf)
  have := (C79_encrypted_exact ht hw _ _ _ _ _ _).1 key tr r h hE
  rcases r with _ | ⟨out, md⟩
  · cases this
  · cases this; exact ⟨out, rfl⟩

theorem wrapped_of {alg : AnonCryptAlg} {keys : List Str} (h : ∀ k ∈ keys, ∃ kids, CanReceive C E k kids) : Wrapped C E alg keys (.ok ()) := by
  induction keys with
  | nil => exact .done
  | cons k ks ih =>
    obtain ⟨kids, hk⟩ := h k (by simp)
    exact .step (hk.anon alg) (ih fun k hk => h k (by simp [hk]))

/-- C80: wrapping in forwards succeeds if the message is JSON, there is at least one routing key, and each can be encrypted for. -/
theorem C80_wrapped (ht : TextEnv E) (hw : Willing C E) (msg : Str) (headers : Option (List (Str × Value))) (to : Str) (keys : List Str)
    (alg : AnonCryptAlg) (v : Value) (hj : fromJson (toValue C.f64) msg = .ok v) (hn : keys ≠ [])
    (hk : ∀ k ∈ keys, ∃ kids, CanReceive C E k kids)
    (tr : List Event) (r : Res Str) (h : Runs (wrapInForward C msg headers to keys alg) tr r) (ha : Answers E tr) : ∃ out, r = .ok out := by
  have := (C79_wrapped ht msg headers to keys alg tr r h ha).unique hw
    (.json hn hj (wrapped_of fun k hk' => hk k (by simpa using hk')))
  rcases r with _ | out
  · cases this
  · exact ⟨out, rfl⟩

/-- C80: anonymous encryption with forwarding succeeds if also a route is found and each key on it can be encrypted for.  The
metadata names the recipient's service and the endpoint to which to send. -/
theorem C80_forwarded (ht : TextEnv E) (hw : Willing C E) (m : Message) (to : Str) (opts : PackEncryptedOptions)
    (hl : ¬ IllegalArguments m to none none) (hp : m.fromPrior = none) (hf : opts.forward = true)
    (kids : List Str) (hk : CanReceive C E to kids) (chain : List (Str × DIDCommMessagingService))
    (first last : Str × DIDCommMessagingService) (hr : Routed E to opts.messagingService (.ok chain))
    (h1 : chain.head? = some first) (h2 : chain.getLast? = some last) (hn : routeOf chain ≠ [])
    (hks : ∀ k ∈ routeOf chain, ∃ kids, CanReceive C E k kids)
    (tr : List Event) (r : Res (Str × PackEncryptedMetadata)) (h : Runs (packEncrypted C m to none none opts) tr r) (hE : Answers E tr) :
    ∃ out, r = .ok (out, ⟨some ⟨last.1, first.2.uri⟩, none, none, kids⟩) := by
  have key : EncryptedPacked C E m to none none opts (.ok ⟨some ⟨last.1, first.2.uri⟩, none, none, kids⟩) :=
    .packed hl (.plain (.without hp)) (.anon (hk.anon _))
      (.wrapped (r := .ok ()) hf hr hn h1 h2 (wrapped_of fun k hk' => hks k (by simpa using hk')))
  have := (C79_encrypted_exact ht hw _ _ _ _ _ _).1 key tr r h hE
  rcases r with _ | ⟨out, md⟩
  · cases this
  · cases this; exact ⟨out, rfl⟩

/-- C80: authenticated encryption without forwarding succeeds if both documents are found, the sender's secrets are reported,
all keys in question have methods, one of the sender's keys shares its type with one of the recipient's keys, the first such
key's type is one for key agreement, its secret is there, of that type and readable, and the recipient's keys of that type are
readable. -/
theorem C80_authenticated (ht : TextEnv E) (hw : Willing C E) (m : Message) (to from_ : Str) (opts : PackEncryptedOptions)
    (hl : ¬ IllegalArguments m to (some from_) none) (hp : m.fromPrior = none) (hf : opts.forward = false)
    (toDoc fromDoc : DIDDoc) (found : List Str) (kid : Str) (c : Curve) (s : Secret) (sk : C.Key)
    (hd : E.resolve (didOf to) = .ok (some toDoc)) (hd' : E.resolve (didOf from_) = .ok (some fromDoc))
    (hn : meantBy from_ fromDoc.keyAgreement ≠ []) (hs : E.findSecrets (meantBy from_ fromDoc.keyAgreement) = .ok found)
    (hm' : ∀ k ∈ found, methodOf fromDoc k ≠ none) (hm : ∀ k ∈ meantBy to toDoc.keyAgreement, methodOf toDoc k ≠ none)
    (hk : found.find? (fun k => Compatible fromDoc toDoc to k) = some kid) (hc : keyTypeOf fromDoc kid = some c) (ha : ForAgreement c)
    (hg : E.getSecret kid = .ok (some s)) (hsk : s.asKeyPair C = .ok ⟨c, sk⟩)
    (hr : Readable C toDoc (ofType toDoc c (meantBy to toDoc.keyAgreement)))
    (tr : List Event) (r : Res (Str × PackEncryptedMetadata)) (h : Runs (packEncrypted C m to (some from_) none opts) tr r)
    (hE : Answers E tr) :
    ∃ out, r = .ok (out, ⟨none, some kid, none, ofType toDoc c (meantBy to toDoc.keyAgreement)⟩) := by
  have hne : found ≠ [] := by rintro rfl; cases hk
  have key : EncryptedPacked C E m to (some from_) none opts (.ok ⟨none, some kid, none, ofType toDoc c (meantBy to toDoc.keyAgreement)⟩) :=
    .packed hl (.plain (.without hp)) (.auth (.found (.found hd) (.found hd') hn hs hne (.chosen hm' hm hk hc (.sealed hg ha hr hsk)))) (.off hf)
  have := (C79_encrypted_exact ht hw _ _ _ _ _ _).1 key tr r h hE
  rcases r with _ | ⟨out, md⟩
  · cases this
  · cases this; exact ⟨out, rfl⟩

/-- C80: signing succeeds if the signer's document is found, the key named is listed, a secret among the meant keys is reported,
there and readable, its type can sign, and there is no `from_prior`. -/
theorem C80_signed (hw : Willing C E) (m : Message) (signBy : Str) (hl : LooksLikeDid signBy) (hp : m.fromPrior = none)
    (doc : DIDDoc) (kid : Str) (rest : List Str) (s : Secret) (p : KeyPair C) (hd : E.resolve (didOf signBy) = .ok (some doc))
    (hk : HasFragment signBy → signBy ∈ doc.authentication) (hf : E.findSecrets (signersMeant signBy doc) = .ok (kid :: rest))
    (hg : E.getSecret kid = .ok (some s)) (hs : s.asKeyPair C = .ok p) (hc : CanSign p.curve)
    (tr : List Event) (r : Res (Str × Str)) (h : Runs (packSigned C m signBy) tr r) (hE : Answers E tr) :
    ∃ out, r = .ok (out, kid) := by
  have key : SignedPacked C E m signBy (.ok kid) := .signed hl (.found hd) hk (.key hf hg hs) (.without hp) (.signed hc)
  have := (C79_signed_exact hw _ _ _).1 key tr r h hE
  rcases r with _ | ⟨out, md⟩
  · cases this
  · cases this; exact ⟨out, rfl⟩

/-- C80: whether a `pack_encrypted` succeeds does not depend on the message, apart from its `to`, `from` and `from_prior`. -/
theorem C80_message_irrelevant (ht : TextEnv E) (hw : Willing C E) (m m' : Message) (to : Str) (from_ signBy : Option Str)
    (opts : PackEncryptedOptions) (h1 : m'.to = m.to) (h2 : m'.from_ = m.from_) (h3 : m'.fromPrior = m.fromPrior)
    (tr tr' : List Event) (r r' : Res (Str × PackEncryptedMetadata)) (h : Runs (packEncrypted C m to from_ signBy opts) tr r)
    (h' : Runs (packEncrypted C m' to from_ signBy opts) tr' r') (hE : Answers E tr) (hE' : Answers E tr') :
    r'.map Prod.snd = r.map Prod.snd := by
  have hpl : ∀ x, PlaintextPacked C E m x → PlaintextPacked C E m' x := by
    intro x hx
    cases hx with
    | without a => exact .without (h3.trans a)
    | unreadable a b => exact .unreadable (h3.trans a) b
    | badClaims a b c => exact .badClaims (h3.trans a) b c
    | otherIssuer a b c d => exact .otherIssuer (h3.trans a) b c d
    | otherSender a b c d e f => exact .otherSender (h3.trans a) b c d (h2.trans e) f
    | good a b c d e => exact .good (h3.trans a) b c d (by rw [h2]; exact e)
  have hin : ∀ x, InnerPacked C E m signBy x → InnerPacked C E m' signBy x := by
    intro x hx
    cases hx with
    | plain a => exact .plain (hpl _ a)
    | signed a =>
      refine .signed ?_
      cases a with
      | notDid a => exact .notDid a
      | noDocument a b => exact .noDocument a b
      | notListed a b c d => exact .notListed a b c d
      | noKey a b c d => exact .noKey a b c d
      | badMessage a b c d e => exact .badMessage a b c d (hpl _ e)
      | signed a b c d e f => exact .signed a b c d (hpl _ e) f
  have hil : IllegalArguments m' to from_ signBy ↔ IllegalArguments m to from_ signBy := by
    unfold IllegalArguments
    rw [h1, h2]
  refine (C79_encrypted_exact ht hw m' to from_ signBy opts _).1 ?_ tr' r' h' hE'
  have hx := C79_encrypted ht m to from_ signBy opts tr r h hE
  generalize Except.map Prod.snd r = x at hx
  cases hx with
  | illegal a => exact .illegal (hil.2 a)
  | inner a b => exact .inner (fun h => a (hil.1 h)) (hin _ b)
  | crypt a b c => exact .crypt (fun h => a (hil.1 h)) (hin _ b) c
  | forward a b c d => exact .forward (fun h => a (hil.1 h)) (hin _ b) c d
  | packed a b c d => exact .packed (fun h => a (hil.1 h)) (hin _ b) c d

/-! ## The hypotheses are met -/

/-- The toy library refuses nothing. -/
theorem willing_toy (E : Env) : Willing Toy.crypto E where
  sign := fun _ _ _ _ _ _ h => by obtain ⟨_, _, h⟩ := h; cases h
  anon := fun _ _ _ _ _ _ _ h => by
    cases h with
    | content h | ephemeral h | «export» _ h | encrypt _ h => cases h
    | agree _ _ h => obtain ⟨_, _, _, h⟩ := h; cases h
    | wrap _ _ _ _ h => cases h
  auth := fun _ _ _ _ _ _ _ _ _ _ _ h => by
    cases h with
    | content h | ephemeral h | «export» _ h | encrypt _ h => cases h
    | agree _ _ h => obtain ⟨_, _, _, _, h⟩ := h; cases h
    | wrap _ _ _ _ h => cases h

theorem textEnv_of {docs : List DIDDoc} {secrets : List Secret} (h : (docs.all fun d => d.keyAgreement.all validUtf8) = true) :
    TextEnv (World.envOf docs secrets) := by
  intro did doc hd k hk
  simp only [World.envOf, exampleResolve, Except.ok.injEq] at hd
  have := List.mem_of_find?_eq_some hd
  exact (validUtf8_iff _).1 (List.all_eq_true.1 (List.all_eq_true.1 h doc this) k hk)

theorem textEnv_world : TextEnv World.env := textEnv_of (by decide +kernel)

/-- Packing for somebody unknown ends with `DIDNotResolved`, in every run. -/
example (m : Message) (hm : m.to = none) (hp : m.fromPrior = none) (tr : List Event) (r : Res (Str × PackEncryptedMetadata))
    (h : Runs (packEncrypted Toy.crypto m b!"did:example:nobody" none none {}) tr r) (ha : Answers World.env tr) :
    r.map Prod.snd = .error (.kind .didNotResolved) := by
  refine (C79_encrypted_exact textEnv_world (willing_toy _) _ _ _ _ _ _).1 (.crypt ?_ (.plain (.without hp)) ?_) tr r h ha
  · rw [← illegalArguments_iff]
    simp [Message.validatePackEncrypted, hm]
    decide +kernel
  · exact .anon (r := .error _) (.noDocument (.unknown (by rfl)))

theorem bob_receives : CanReceive Toy.crypto World.env World.bob [b!"did:example:bob#x1", b!"did:example:bob#x2"] := by
  refine ⟨World.bobDoc, .x25519, rfl, by decide, by decide, .inl rfl, by decide, ?_⟩
  intro kid hk
  simp only [List.mem_cons, List.not_mem_nil, or_false] at hk
  rcases hk with rfl | rfl
  · exact ⟨_, _, rfl, rfl⟩
  · exact ⟨_, _, rfl, rfl⟩

theorem mediator_receives : CanReceive Toy.crypto World.env b!"did:example:mediator#x1" [b!"did:example:mediator#x1"] ∧
    CanReceive Toy.crypto World.env World.mediator [b!"did:example:mediator#x1"] := by
  have hr : Readable Toy.crypto World.mediatorDoc [b!"did:example:mediator#x1"] := by
    intro kid hk
    simp only [List.mem_cons, List.not_mem_nil, or_false] at hk
    subst hk
    exact ⟨_, _, rfl, rfl⟩
  exact ⟨⟨World.mediatorDoc, .x25519, rfl, by decide, by decide, .inl rfl, by decide, hr⟩,
    ⟨World.mediatorDoc, .x25519, rfl, by decide, by decide, .inl rfl, by decide, hr⟩⟩

theorem msg_legal (from_ : Option Str) (h : from_ = none ∨ from_ = some World.alice) : ¬ IllegalArguments World.msg World.bob from_ none := by
  rw [← illegalArguments_iff]
  rcases h with rfl | rfl <;> intro h <;> exact h (by rfl)

/-- Every run of packing the message for Bob anonymously succeeds, with both his X25519 keys as recipients. -/
example (tr : List Event) (r : Res (Str × PackEncryptedMetadata))
    (h : Runs (packEncrypted Toy.crypto World.msg World.bob none none { forward := false }) tr r) (ha : Answers World.env tr) :
    ∃ out, r = .ok (out, ⟨none, none, none, [b!"did:example:bob#x1", b!"did:example:bob#x2"]⟩) :=
  C80_anonymous textEnv_world (willing_toy _) _ _ _ (msg_legal _ (.inl rfl)) rfl rfl _ bob_receives tr r h ha

/-- Bob's route: through the mediator, whose DID is his endpoint, and by one of its keys. -/
theorem bob_routed : Routed World.env World.bob none (.ok [
    (b!"did:example:mediator#svc", ⟨b!"https://example.com", none, []⟩),
    (b!"did:example:bob#svc", ⟨World.mediator, some [b!"didcomm/v2"], [b!"did:example:mediator#x1"]⟩)]) :=
  .mediated (doc := World.bobDoc) (doc' := World.mediatorDoc) (.found rfl) (selectService_spec _ _)
    ((C46_is_did _).1 (by decide)) (.found rfl) (selectService_spec _ _) (by rw [← C46_is_did]; decide)

/-- Every run of packing the message for Bob anonymously with forwarding succeeds. -/
example (tr : List Event) (r : Res (Str × PackEncryptedMetadata))
    (h : Runs (packEncrypted Toy.crypto World.msg World.bob none none {}) tr r) (ha : Answers World.env tr) :
    ∃ out, r = .ok (out, ⟨some ⟨b!"did:example:bob#svc", b!"https://example.com"⟩, none, none,
      [b!"did:example:bob#x1", b!"did:example:bob#x2"]⟩) := by
  refine C80_forwarded textEnv_world (willing_toy _) _ _ _ (msg_legal _ (.inl rfl)) rfl rfl _ bob_receives _ _ _ bob_routed rfl rfl
    (by simp [routeOf]) ?_ tr r h ha
  intro k hk
  simp only [routeOf, List.mem_cons, List.not_mem_nil, or_false] at hk
  rcases hk with rfl | rfl
  · exact ⟨_, mediator_receives.2⟩
  · exact ⟨_, mediator_receives.1⟩

/-- Every run of wrapping JSON for the mediator succeeds; with text that is not JSON none does, and without keys it panics. -/
example (headers : Option (List (Str × Value))) (tr : List Event) (r : Res Str) (ha : Answers World.env tr) :
    (Runs (wrapInForward Toy.crypto b!"{\"a\":[]}" headers World.bob [World.mediator] .xc20pEcdhEsA256kw) tr r → ∃ out, r = .ok out) ∧
    (Runs (wrapInForward Toy.crypto b!"{" headers World.bob [World.mediator] .xc20pEcdhEsA256kw) tr r → r = .error (.kind .malformed)) ∧
    (Runs (wrapInForward Toy.crypto b!"{}" headers World.bob [] .xc20pEcdhEsA256kw) tr r → r = .error .panic) := by
  refine ⟨fun h => ?_, fun h => ?_, fun h => ?_⟩
  · refine C80_wrapped textEnv_world (willing_toy _) _ headers _ _ _ (.obj [(b!"a", .arr [])]) (by rfl) (by simp) ?_ tr r h ha
    intro k hk
    simp only [List.mem_cons, List.not_mem_nil, or_false] at hk
    subst hk
    exact ⟨_, mediator_receives.2⟩
  · have := (C79_wrapped textEnv_world _ headers _ _ _ tr r h ha).unique (willing_toy _) (.notJson (by simp) (fun v h => by cases h))
    rcases r with _ | _
    · simpa [Except.map] using this
    · cases this
  · have := (C79_wrapped textEnv_world _ headers _ _ _ tr r h ha).unique (willing_toy _) (.noKeys rfl)
    rcases r with _ | _
    · simpa [Except.map] using this
    · cases this

/-- Every run of packing the message from Alice to Bob succeeds, with her first key that has the type of one of his. -/
example (tr : List Event) (r : Res (Str × PackEncryptedMetadata))
    (h : Runs (packEncrypted Toy.crypto World.msg World.bob (some World.alice) none { forward := false }) tr r) (ha : Answers World.env tr) :
    ∃ out, r = .ok (out, ⟨none, some b!"did:example:alice#p1", none, [b!"did:example:bob#p1"]⟩) := by
  have := C80_authenticated (E := World.env) textEnv_world (willing_toy _) _ World.bob World.alice _ (msg_legal _ (.inr rfl)) rfl rfl
    World.bobDoc World.aliceDoc [b!"did:example:alice#p1", b!"did:example:alice#x1"] b!"did:example:alice#p1" .p256
    (World.secret b!"did:example:alice#p1" b!"EC" b!"P-256" [5]) [5] rfl rfl (by decide) (by rfl) (by decide) (by decide) (by decide) (by decide)
    (.inr rfl) (by rfl) (by rfl) ?_ tr r h ha
  · exact this
  · intro kid hk
    have hk : kid = b!"did:example:bob#p1" := by
      have : ofType World.bobDoc .p256 (meantBy World.bob World.bobDoc.keyAgreement) = [b!"did:example:bob#p1"] := by decide
      rw [this] at hk
      simpa using hk
    subst hk
    exact ⟨_, _, rfl, rfl⟩

/-- Every run of signing the message as Alice succeeds, with her first key. -/
example (tr : List Event) (r : Res (Str × Str)) (h : Runs (packSigned Toy.crypto World.msg World.alice) tr r) (ha : Answers World.env tr) :
    ∃ out, r = .ok (out, b!"did:example:alice#ed") :=
  C80_signed (E := World.env) (willing_toy _) _ _ ((C46_is_did _).1 (by decide)) rfl World.aliceDoc b!"did:example:alice#ed"
    [b!"did:example:alice#es", b!"did:example:alice#ek"] (World.secret b!"did:example:alice#ed" b!"OKP" b!"Ed25519" [1]) ⟨.ed25519, [1]⟩
    rfl (by intro h; revert h; decide) (by rfl) (by rfl) (by rfl) (by intro h; cases h) tr r h ha

/-- An agreement key of a type that cannot agree on keys, with its secret, on both sides. -/
def World.signers (did : Str) : DIDDoc :=
  { id := did, keyAgreement := [did ++ b!"#k"], authentication := [], service := []
    verificationMethod := [World.method (did ++ b!"#k") b!"EC" b!"secp256k1" [1]] }

/-- Then authenticated packing ends with `Unsupported`, anonymous packing with `InvalidState`. -/
example (tr : List Event) (r : Res (Str × PackEncryptedMetadata))
    (ha : Answers (World.envOf [World.signers World.alice, World.signers World.bob]
      [World.secret b!"did:example:alice#k" b!"EC" b!"secp256k1" [1]]) tr) :
    (Runs (packEncrypted Toy.crypto World.msg World.bob (some World.alice) none {}) tr r → r.map Prod.snd = .error (.kind .unsupported)) ∧
    (Runs (packEncrypted Toy.crypto World.msg World.bob none none {}) tr r → r.map Prod.snd = .error (.kind .invalidState)) := by
  have ht := textEnv_of (docs := [World.signers World.alice, World.signers World.bob])
    (secrets := [World.secret b!"did:example:alice#k" b!"EC" b!"secp256k1" [1]]) (by decide +kernel)
  refine ⟨fun h => ?_, fun h => ?_⟩
  · exact (C79_encrypted_exact ht (willing_toy _) _ _ _ _ _ _).1 (.crypt (msg_legal _ (.inr rfl)) (.plain (.without rfl))
      (.auth (r := .error _) (.found (toDoc := World.signers World.bob) (fromDoc := World.signers World.alice)
        (found := [b!"did:example:alice#k"]) (.found rfl) (.found rfl) (by decide) (by rfl) (by simp)
        (.chosen (kid := b!"did:example:alice#k") (c := .k256) (by decide) (by decide) (by decide) (by decide)
          (.otherType (s := World.secret b!"did:example:alice#k" b!"EC" b!"secp256k1" [1]) (by rfl) (by decide)))))) tr r h ha
  · exact (C79_encrypted_exact ht (willing_toy _) _ _ _ _ _ _).1 (.crypt (msg_legal _ (.inl rfl)) (.plain (.without rfl))
      (.anon (r := .error _) (.document (doc := World.signers World.bob) (.found rfl)
        (.otherType (c := .k256) (by decide) (by decide) (by decide))))) tr r h ha

/-- Every run of issuing a `from_prior` as Alice ends with her first key, unless the claims are about one DID only or a key that
is not listed is prescribed. -/
example (tr : List Event) (r : Res (Str × Str)) (ha : Answers World.env tr) :
    (Runs (FromPrior.pack Toy.crypto { iss := World.alice, sub := World.bob } none) tr r → r.map Prod.snd = .ok b!"did:example:alice#ed") ∧
    (Runs (FromPrior.pack Toy.crypto { iss := World.alice, sub := World.alice } none) tr r → r.map Prod.snd = .error (.kind .malformed)) ∧
    (Runs (FromPrior.pack Toy.crypto { iss := World.alice, sub := World.bob } (some b!"did:example:alice#x1")) tr r →
      r.map Prod.snd = .error (.kind .didUrlNotFound)) := by
  have h1 : TwoDids { iss := World.alice, sub := World.bob } :=
    ⟨⟨(C46_is_did _).1 (by decide), by decide⟩, ⟨(C46_is_did _).1 (by decide), by decide⟩, by decide⟩
  refine ⟨fun h => ?_, fun h => ?_, fun h => ?_⟩
  · exact (C79_prior_issued _ _ tr r h ha).unique (willing_toy _) (.issued (doc := World.aliceDoc) (r := .ok ()) h1 (.found rfl)
      (fun _ h => by cases h) (.key (rest := [b!"did:example:alice#es", b!"did:example:alice#ek"])
        (s := World.secret b!"did:example:alice#ed" b!"OKP" b!"Ed25519" [1]) (p := ⟨.ed25519, [1]⟩) (by rfl) (by rfl) (by rfl))
      (.signed (by intro h; cases h)))
  · exact (C79_prior_issued _ _ tr r h ha).unique (willing_toy _) (.badClaims (fun h => h.2.2 rfl))
  · exact (C79_prior_issued _ _ tr r h ha).unique (willing_toy _) (.notListed (doc := World.aliceDoc) h1 rfl (by decide) (.found rfl) (by decide))

/-- Every run of packing a message with something else than a JWT as `from_prior` ends with `Malformed`. -/
example (tr : List Event) (r : Res Str) (h : Runs (packPlaintext Toy.crypto { World.msg with fromPrior := some b!"x" }) tr r)
    (ha : Answers World.env tr) : r.map (fun _ => ()) = .error (.kind .malformed) := by
  refine (C79_plaintext _ tr r h ha).unique (.unreadable rfl (.notJwt fun h pl sig hdr hf => ?_))
  have := congrArg List.length hf.parts
  simp at this
  omega

end DIDComm
