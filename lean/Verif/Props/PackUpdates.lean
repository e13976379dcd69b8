import Verif.Proofs.PackUpdates
import Verif.Props.DocUpdates

/-!
# C110: what difference changes of DID documents make to packing
-/

set_option autoImplicit false

namespace DIDComm

variable {C : Crypto} {E E' : Env}

/-- C110: changes of documents that do not concern what a sender looks at make no difference.  With the same random draws the same texts
and metadata are returned, or the same errors, if in all documents the keys and their order are the same, with the same verification
methods, and the services of each id and the first usable service.  The order of verification methods, additional ones, and further
services do not matter. -/
theorem C110_same (h : SamePackDocs E E') :
    (∀ m, SameResult E E' (packPlaintext C m)) ∧ (∀ m signBy, SameResult E E' (packSigned C m signBy)) ∧
    (∀ m to from_ signBy opts, SameResult E E' (packEncrypted C m to from_ signBy opts)) ∧
    (∀ f kid, SameResult E E' (FromPrior.pack C f kid)) ∧
    ∀ msg headers to keys alg, SameResult E E' (wrapInForward C msg headers to keys alg) := by
  have ha : ∀ d, AnswersBy SameAgreement (E.resolve d) (E'.resolve d) ∧
      AnswersBy (fun doc doc' => doc.authentication = doc'.authentication) (E.resolve d) (E'.resolve d) := by
    intro d
    have := h.docs d
    generalize E.resolve d = x at this
    generalize E'.resolve d = y at this
    cases this with
    | failed k => exact ⟨.failed k, .failed k⟩
    | unknown => exact ⟨.unknown, .unknown⟩
    | found h => exact ⟨.found h.agreement, .found h.authentication⟩
  have hs : ∀ kids, SameStart (E.findSecrets kids) (E'.findSecrets kids) := by
    intro kids
    rw [h.find]
    cases E'.findSecrets kids with
    | error e => exact .failed e
    | ok l =>
      cases l with
      | nil => exact .nothing
      | cons k r => exact .first k r r
  refine ⟨fun m => ?_, fun m signBy => ?_, fun m to from_ signBy opts => ?_, fun f kid => ?_, fun msg headers to keys alg => ?_⟩
  · exact (packPlaintext_abreast fun _ => h.docs).run
  · exact (packSigned_abreast (ha _).2 hs (fun _ _ _ _ => h.get _) fun _ => h.docs).run
  · exact (packEncrypted_abreast (fun _ => h.toSameSecrets) (ha _).1 (fun _ _ => (ha _).1) (fun _ _ => (ha _).2) fun _ => h.docs).run
  · exact (fromPriorPack_abreast (ha _).2 hs fun _ _ _ _ => h.get _).run
  · exact (wrapInForward_abreast h.docs).run

/-- C110: `pack_signed` looks at nothing but the list of authentication keys in the document of the signer's DID, and at the first key
its resolver reports of those.  Neither the verification methods of the signer, nor what else is in that or in other documents, nor
other secrets make a difference. -/
theorem C110_signed (m : Message) (signBy : Str) (hp : m.fromPrior = none)
    (hd : AnswersBy (fun doc doc' => doc.authentication = doc'.authentication) (E.resolve (didOf signBy)) (E'.resolve (didOf signBy)))
    (hf : ∀ kids, SameStart (E.findSecrets kids) (E'.findSecrets kids))
    (hg : ∀ kids kid rest, E.findSecrets kids = .ok (kid :: rest) → E.getSecret kid = E'.getSecret kid) :
    SameResult E E' (packSigned C m signBy) :=
  (packSigned_abreast (by rw [didOrUrl_fst]; exact hd) hf hg fun hx => absurd hp hx).run

/-- C110: the same for prior-DID claims and the document of their issuer. -/
theorem C110_issued (f : FromPrior) (kid : Option Str)
    (hd : AnswersBy (fun doc doc' => doc.authentication = doc'.authentication) (E.resolve f.iss) (E'.resolve f.iss))
    (hf : ∀ kids, SameStart (E.findSecrets kids) (E'.findSecrets kids))
    (hg : ∀ kids kid rest, E.findSecrets kids = .ok (kid :: rest) → E.getSecret kid = E'.getSecret kid) :
    SameResult E E' (FromPrior.pack C f kid) := (fromPriorPack_abreast hd hf hg).run

/-- C110: anonymous encryption that is neither signed nor forwarded looks at nothing but the keys for key agreement in the document of the
recipient's DID, in their order, and their verification methods.  No secrets and no other documents make a difference. -/
theorem C110_anonymous (m : Message) (to : Str) (opts : PackEncryptedOptions) (hp : m.fromPrior = none) (hfw : opts.forward = false)
    (ht : AnswersBy SameAgreement (E.resolve (didOf to)) (E'.resolve (didOf to))) : SameResult E E' (packEncrypted C m to none none opts) :=
  (packEncrypted_abreast (fun h => by rcases h with h | h <;> exact absurd rfl h) (by rw [didOrUrl_fst]; exact ht) (fun _ h => by cases h)
    (fun _ h => by cases h) fun h => by rcases h with h | h <;> simp_all).run

/-- C110: encryption by a sender, signed or not, that is not forwarded looks at nothing but the keys for key agreement of the recipient and
of the sender, with their verification methods, the list of authentication keys of the signer, and the secrets. -/
theorem C110_authenticated (m : Message) (to : Str) (from_ signBy : Option Str) (opts : PackEncryptedOptions) (hp : m.fromPrior = none)
    (hfw : opts.forward = false) (hs : SameSecrets E E') (ht : AnswersBy SameAgreement (E.resolve (didOf to)) (E'.resolve (didOf to)))
    (hf : ∀ f, from_ = some f → AnswersBy SameAgreement (E.resolve (didOf f)) (E'.resolve (didOf f)))
    (hb : ∀ s, signBy = some s →
      AnswersBy (fun doc doc' => doc.authentication = doc'.authentication) (E.resolve (didOf s)) (E'.resolve (didOf s))) :
    SameResult E E' (packEncrypted C m to from_ signBy opts) :=
  (packEncrypted_abreast (fun _ => hs) (by rw [didOrUrl_fst]; exact ht) (fun f h => by rw [didOrUrl_fst]; exact hf f h)
    (fun s h => by rw [didOrUrl_fst]; exact hb s h) fun h => by rcases h with h | h <;> simp_all).run

/-- What was signed is refused by everybody for whom the document of the signer does not give a key for it. -/
theorem signed_refused (hd : NeverLonger C) (hf : PrintsFloats C) {m : Message} {signBy : Str} {tr : List Event} {out kid : Str}
    (ha : Answers E tr) (h : Runs (packSigned C m signBy) tr (.ok (out, kid))) (hk : HasFragment kid) (hp : Plain kid) {doc' : DIDDoc}
    (hdoc : E'.resolve (didOf kid) = .ok (some doc')) {e : Err}
    (he : ∀ s c key sa st alg, E.getSecret kid = .ok (some s) → s.asKeyPair C = .ok ⟨c, key⟩ → Scheme alg c st sa →
      SignersKey C doc' kid alg (.error e)) (opts : UnpackOptions) (tr' : List Event)
    (r : Res (Message × UnpackMetadata)) (ha' : Answers E' tr') (hr : Runs (unpack C out opts) tr' r) : r = .error e := by
  obtain ⟨doc, kids, found, secret, ⟨c, key⟩, tr1, payload, alg, h1, rfl, h2, h3, h4, h5, h6, h7⟩ := packSigned_ok.1 h
  simp only [answers_cons] at ha
  obtain ⟨-, -, ha3, -⟩ := ha
  have ha3 : E.getSecret kid = .ok (some secret) := ha3.symm
  obtain ⟨st, sig, -, -, rfl⟩ := jwsSign_ok.1 h7
  obtain ⟨g1, g2, -, sa, -, st', g5⟩ := signAlgFor_ok h6
  have hprint := jws_print ⟨[⟨kid, jwsProtected alg, B64.encode sig⟩], B64.encode payload⟩ (B64.plain_encode _)
    (by
      intro x hx
      simp only [List.mem_singleton] at hx
      subst hx
      exact ⟨hp, B64.plain_encode _, B64.plain_encode _⟩)
  have hj : Recognised dJwe (JWS.toJson ⟨[⟨kid, jwsProtected alg, B64.encode sig⟩], B64.encode payload⟩).print (.ok none) :=
    .other (jws_not_jwe _)
  have hu : Unpacked C E' opts (JWS.toJson ⟨[⟨kid, jwsProtected alg, B64.encode sig⟩], B64.encode payload⟩).print (.error e) :=
    .signFailed (a := none) (.none (.notJwe hj)) (.notJwe hj) (.failed (hdr := ⟨signedTyp, alg⟩) (.one hprint)
      (.cons (.json (by exact B64.decode_encode _) (jwsHeader_print signedTyp alg (by decide) g1 g2)) .nil)
      (.noKey hk (.found hdoc) (he secret c key sa st' alg ha3 h4 g5)))
  exact (C81_exact hd hf _ opts _).1 hu tr' r hr ha'

/-- C110: so a message can be signed with a key that is not published, or not any more, and the sender does not notice: `pack_signed`
returns, and everybody who looks up the signer in a document in which the key is not listed for authentication, or has no verification
method, refuses what it returned with `DIDUrlNotFound`. -/
theorem C110_unpublished (hd : NeverLonger C) (hf : PrintsFloats C) (m : Message) (signBy : Str) (tr : List Event) (out kid : Str)
    (ha : Answers E tr) (h : Runs (packSigned C m signBy) tr (.ok (out, kid))) (hk : HasFragment kid) (hp : Plain kid) (doc' : DIDDoc)
    (hdoc : E'.resolve (didOf kid) = .ok (some doc')) (hm : kid ∉ doc'.authentication ∨ methodOf doc' kid = none) (opts : UnpackOptions)
    (tr' : List Event) (r : Res (Message × UnpackMetadata)) (ha' : Answers E' tr') (hr : Runs (unpack C out opts) tr' r) :
    r = .error (.kind .didUrlNotFound) := by
  refine signed_refused hd hf ha h hk hp hdoc (fun _ _ _ _ _ alg _ _ _ => ?_) opts tr' r ha' hr
  by_cases hl : kid ∈ doc'.authentication
  · rcases hm with hm | hm
    · exact absurd hl hm
    · exact .noMethod hl hm
  · exact .notListed hl

/-- C110: nor does the sender notice when the published key is of another type than the secret: what `pack_signed` returned is refused
with `InvalidState`. -/
theorem C110_other_type (hd : NeverLonger C) (hf : PrintsFloats C) (m : Message) (signBy : Str) (tr : List Event) (out kid : Str)
    (ha : Answers E tr) (h : Runs (packSigned C m signBy) tr (.ok (out, kid))) (hk : HasFragment kid) (hp : Plain kid) (doc' : DIDDoc)
    (hdoc : E'.resolve (didOf kid) = .ok (some doc')) (hl : kid ∈ doc'.authentication) (vm : VerificationMethod)
    (hm : methodOf doc' kid = some vm) (s : Secret) (c : Curve) (key : C.Key) (hs : E.getSecret kid = .ok (some s))
    (hkp : s.asKeyPair C = .ok ⟨c, key⟩) (hvm : vm.keyAlg ≠ some c) (opts : UnpackOptions)
    (tr' : List Event) (r : Res (Message × UnpackMetadata)) (ha' : Answers E' tr') (hr : Runs (unpack C out opts) tr' r) :
    r = .error (.kind .invalidState) := by
  refine signed_refused hd hf ha h hk hp hdoc (fun s' c' key' _ _ alg h1 h2 h3 => ?_) opts tr' r ha' hr
  rw [hs] at h1
  cases h1
  rw [hkp] at h2
  cases h2
  exact .otherType hl hm h3 hvm

/-! ## Examples -/

/-- Verification methods once more in another order, after the others, and a service of another kind. -/
def World.rearrange (d : DIDDoc) : DIDDoc :=
  { d with
    verificationMethod := d.verificationMethod ++ d.verificationMethod.reverse
    service := ⟨[], .other .null⟩ :: d.service }

theorem selects_cons_other {x : Value} {l : List Service} (hl : ∀ s ∈ l, s.id ≠ []) (sid : Option Str)
    (r : Res (Option (Str × DIDCommMessagingService))) (h : Selects l sid r) : Selects (⟨[], .other x⟩ :: l) sid r := by
  have hx : ∀ v, ¬ Usable ⟨[], .other x⟩ v := fun v hv => nomatch hv.1
  cases h with
  | first pre post s v he hu hp =>
    exact .first (⟨[], .other x⟩ :: pre) post s v (by rw [he]; rfl) hu fun s' hs' => by
      rcases List.mem_cons.1 hs' with rfl | hs'
      · exact hx
      · exact hp s' hs'
  | nothing hn =>
    refine .nothing fun s hs => ?_
    rcases List.mem_cons.1 hs with rfl | hs
    · exact hx
    · exact hn s hs
  | named sid pre post s v he hi hp hu =>
    exact .named sid (⟨[], .other x⟩ :: pre) post s v (by rw [he]; rfl) hi (fun s' hs' => by
      rcases List.mem_cons.1 hs' with rfl | hs'
      · rw [← hi]; exact (hl s (by rw [he]; simp)).symm
      · exact hp s' hs') hu
  | unusable sid pre post s he hi hp hu =>
    exact .unusable sid (⟨[], .other x⟩ :: pre) post s (by rw [he]; rfl) hi (fun s' hs' => by
      rcases List.mem_cons.1 hs' with rfl | hs'
      · rw [← hi]; exact (hl s (by rw [he]; simp)).symm
      · exact hp s' hs') hu
  | missing sid hp =>
    by_cases h : sid = []
    · subst h
      exact .unusable [] [] l ⟨[], .other x⟩ rfl rfl (fun _ h => nomatch h) hx
    · exact .missing sid fun s hs => by
        rcases List.mem_cons.1 hs with rfl | hs
        · exact fun he => h he.symm
        · exact hp s hs

theorem World.rearranged : SamePackDocs World.env (World.changed World.rearrange) := by
  refine ⟨⟨fun _ => rfl, fun _ => rfl⟩, fun d => ?_⟩
  rw [World.changed_resolve World.rearrange (fun _ => rfl)]
  show AnswersBy SamePackDoc (.ok (exampleResolve _ d)) _
  cases hd : exampleResolve [World.aliceDoc, World.bobDoc, World.mediatorDoc] d with
  | none => exact .unknown
  | some doc =>
    refine .found ⟨rfl, ⟨rfl, fun kid => ?_⟩, fun sid r => ?_⟩
    · simp only [methodOf, World.rearrange, List.find?_append]
      cases hx : doc.verificationMethod.find? (fun vm => decide (vm.id = kid)) with
      | some vm => rfl
      | none =>
        have : doc.verificationMethod.reverse.find? (fun vm => decide (vm.id = kid)) = none := by
          rw [List.find?_eq_none] at hx ⊢
          intro x h
          exact hx x (List.mem_reverse.1 h)
        rw [this]; rfl
    · have hl : ∀ s ∈ doc.service, s.id ≠ [] := by
        rcases World.known (d := d) (doc := doc) (by simp only [World.env, World.envOf, hd]) with ⟨rfl, -⟩ | ⟨rfl, -⟩ | ⟨rfl, -⟩ <;> decide
      have key : ∀ r, Selects doc.service sid r → Selects (World.rearrange doc).service sid r := fun r h => selects_cons_other hl sid r h
      refine ⟨key r, fun h => ?_⟩
      have h0 := selectService_spec doc.service sid
      rw [h.unique (key _ h0)]
      exact h0

set_option maxRecDepth 1000000 in
/-- Alice's message to Bob, signed and encrypted by Alice, goes through Bob's mediator as before. -/
example : (∃ x, ((packEncrypted Toy.crypto World.msg World.bob (some World.alice) (some World.alice) {}).run World.env id).2 = .ok x) ∧
    SameResult World.env (World.changed World.rearrange)
      (packEncrypted Toy.crypto World.msg World.bob (some World.alice) (some World.alice) {}) := by
  refine ⟨?_, (C110_same World.rearranged).2.2.1 _ _ _ _ _⟩
  have : World.test World.env (packEncrypted Toy.crypto World.msg World.bob (some World.alice) (some World.alice) {}) (fun _ => true) = true := by
    decide +kernel
  unfold World.test at this
  split at this
  · rename_i x hx; exact ⟨x, hx⟩
  · cases this

/-- No verification methods. -/
def World.bare (d : DIDDoc) : DIDDoc := { d with verificationMethod := [] }

theorem World.bare_by {R : DIDDoc → DIDDoc → Prop} (h : ∀ d, R d (World.bare d)) (d : Str) :
    AnswersBy R (World.env.resolve d) ((World.changed World.bare).resolve d) := by
  rw [World.changed_resolve World.bare (fun _ => rfl)]
  show AnswersBy R (.ok (exampleResolve _ d)) _
  cases exampleResolve [World.aliceDoc, World.bobDoc, World.mediatorDoc] d with
  | none => exact .unknown
  | some doc => exact .found (h doc)

theorem World.bare_start (kids : List Str) : SameStart (World.env.findSecrets kids) ((World.changed World.bare).findSecrets kids) := by
  show SameStart (.ok (exampleFindSecrets World.secrets kids)) (.ok (exampleFindSecrets World.secrets kids))
  cases exampleFindSecrets World.secrets kids with
  | nil => exact .nothing
  | cons k r => exact .first k r r

set_option maxRecDepth 1000000 in
/-- After Alice's keys have lost their verification methods Alice signs as before, and the result is refused. -/
example : SameResult World.env (World.changed World.bare) (packSigned Toy.crypto World.msg World.alice) ∧
    ∃ tr out kid, Answers (World.changed World.bare) tr ∧ Runs (packSigned Toy.crypto World.msg World.alice) tr (.ok (out, kid)) ∧
      ∀ tr' r, Answers (World.changed World.bare) tr' → Runs (unpack Toy.crypto out {}) tr' r → r = .error (.kind .didUrlNotFound) := by
  have ht : World.test (World.changed World.bare) (packSigned Toy.crypto World.msg World.alice)
      (fun x => decide (x.2 = b!"did:example:alice#ed")) = true := by decide +kernel
  obtain ⟨tr, ⟨out, kid⟩, h, ha, hk⟩ := World.of_test ht
  have hk : kid = b!"did:example:alice#ed" := by simpa using hk
  refine ⟨C110_signed _ _ rfl (World.bare_by (R := fun doc doc' => doc.authentication = doc'.authentication) (fun _ => rfl) _) World.bare_start (fun _ _ _ _ => rfl), tr, out, kid, ha, h, fun tr' r ha' hr => ?_⟩
  subst hk
  exact C110_unpublished World.neverLonger World.printsFloats _ _ tr out _ ha h (by decide) (plain_of_ascii (by decide)) (World.bare World.aliceDoc)
    (by rfl) (.inr rfl) {} tr' r ha' hr

/-- A document for Alice that gives the key for Ed25519 as one for secp256k1. -/
def World.retyped (d : DIDDoc) : DIDDoc :=
  { d with verificationMethod := World.method b!"did:example:alice#ed" b!"EC" b!"secp256k1" [3] :: d.verificationMethod }

set_option maxRecDepth 1000000 in
/-- What Alice signs with that key is refused by those who see that document. -/
example : ∃ tr out kid, Answers World.env tr ∧ Runs (packSigned Toy.crypto World.msg World.alice) tr (.ok (out, kid)) ∧
      ∀ tr' r, Answers (World.changed World.retyped) tr' → Runs (unpack Toy.crypto out {}) tr' r → r = .error (.kind .invalidState) := by
  have ht : World.test World.env (packSigned Toy.crypto World.msg World.alice)
      (fun x => decide (x.2 = b!"did:example:alice#ed")) = true := by decide +kernel
  obtain ⟨tr, ⟨out, kid⟩, h, ha, hk⟩ := World.of_test ht
  have hk : kid = b!"did:example:alice#ed" := by simpa using hk
  refine ⟨tr, out, kid, ha, h, fun tr' r ha' hr => ?_⟩
  subst hk
  obtain ⟨key, hkey⟩ : ∃ key, (World.secret b!"did:example:alice#ed" b!"OKP" b!"Ed25519" [1]).asKeyPair Toy.crypto = .ok ⟨.ed25519, key⟩ := ⟨_, rfl⟩
  exact C110_other_type World.neverLonger World.printsFloats _ _ tr out _ ha h (by decide) (plain_of_ascii (by decide)) (World.retyped World.aliceDoc)
    (by rfl) (by decide) _ rfl _ _ key rfl hkey (by decide) {} tr' r ha' hr

/-- Alice's secrets make no difference to an anonymous message to Bob, nor does Alice's document. -/
example : SameResult World.env (World.envOf [World.bobDoc] []) (packEncrypted Toy.crypto World.msg World.bob none none { forward := false }) :=
  C110_anonymous _ _ _ rfl rfl (by
    show AnswersBy SameAgreement (.ok (exampleResolve _ _)) (.ok (exampleResolve _ _))
    exact .found (doc := World.bobDoc) (doc' := World.bobDoc) ⟨rfl, fun _ => rfl⟩)

/-- Nor do Bob's authentication keys and services to one that Alice encrypts. -/
example : SameResult World.env (World.envOf [World.aliceDoc, { World.bobDoc with authentication := [b!"did:example:bob#new"], service := [] }] World.secrets)
    (packEncrypted Toy.crypto World.msg World.bob (some World.alice) none { forward := false }) :=
  C110_authenticated _ _ _ _ _ rfl rfl ⟨fun _ => rfl, fun _ => rfl⟩
    (AnswersBy.found (doc := World.bobDoc) ⟨rfl, fun _ => rfl⟩)
    (fun f hf => by cases hf; exact AnswersBy.found (doc := World.aliceDoc) ⟨rfl, fun _ => rfl⟩) fun _ h => nomatch h

/-- Nor do the verification methods of the issuer to claims about a change of DID. -/
example : SameResult World.env (World.changed World.bare) (FromPrior.pack Toy.crypto { iss := World.alice, sub := World.bob } none) :=
  C110_issued _ _ (World.bare_by (R := fun doc doc' => doc.authentication = doc'.authentication) (fun _ => rfl) _) World.bare_start fun _ _ _ _ => rfl

end DIDComm
