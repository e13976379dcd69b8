import Verif.Spec.Journey
import Verif.Props.Api
import Verif.Props.Forward
import Verif.Props.Routing
import Verif.Props.SendOn

/-!
# C106: from application through mediators to application

Whatever bindings the sender, the mediators and the recipient use, and whatever else is going on in each of them.
-/

set_option autoImplicit false

namespace DIDComm

variable {C : Crypto} {pairs : Curve → C.Key → C.Key → Prop}

theorem Hop.app {headers : Option (List (Str × Value))} {alg : AnonCryptAlg} {M : App} {opts : UnpackOptions} {text next : Str} {v : Value}
    (h : Hop C headers alg (M.env C.f64) opts text next v) : AppHop C headers alg M opts text next v := by
  obtain ⟨fwd, kids, h1, h2, h3, h4, h5⟩ := h
  exact ⟨fwd, kids, App.unpacksAs h1, (C41_only fwd next v).2 ⟨h2, ⟨_, h3, rfl⟩, _, _, _, h4, rfl⟩, h5⟩

theorem Travels.apps {headers : Option (List (Str × Value))} {alg : AnonCryptAlg} {Ms : Str → App} {opts : Str → UnpackOptions} {to : Str}
    {payload : Value} : ∀ {keys : List Str} {text : Str},
    Travels C headers alg (fun k => (Ms k).env C.f64) opts to payload keys text → AppTravels C headers alg Ms opts to payload keys text
  | [], _, h => h
  | [_], _, h => Hop.app h
  | _ :: _ :: _, _, ⟨v, h1, h2⟩ => ⟨v, Hop.app h1, Travels.apps h2⟩

/-- C106: an application packs a message for a recipient behind mediators.  The text then travels along the routing keys of the
services, each mediator's application finding in it a forward for the next key; and what the last of them is to pass on, the
recipient's application unpacks to the message packed, with metadata that tell how it was packed, and to nothing else.  All this
whatever bindings they use and whatever else is going on. -/
theorem C106_journey (A B : App) (Ms : Str → App) (mopts : Str → UnpackOptions) (law : C.Lawful pairs)
    (hid : ∀ r, validUtf8 (C.uuid r) = true) (hnl : NeverLonger C) (hpf : PrintsFloats C)
    (hs : SeesDocsOf (B.env C.f64) (A.env C.f64)) (m : Message) (hwf : m.WF C.f64)
    (ht : m.typ = b!"application/didcomm-plain+json") (to : Str) (from_ signBy : Option Str) (opts : PackEncryptedOptions)
    (uopts : UnpackOptions) (hn : signBy = none → NotEnvelope m)
    (hu : from_ = none → signBy = none → NotUnwrapped uopts.unwrapReWrappingForward m)
    (hh : HeadersOk C.f64 opts.forwardHeaders) (hto : validUtf8 to = true) (hwire : WireParty (A.env C.f64) (didOf to))
    (hw : ∀ d, from_ = some d ∨ signBy = some d → WireParty (A.env C.f64) (didOf d) ∧ KeysFit C pairs (A.env C.f64) (didOf d))
    (hk : ∀ t chain, Answers (A.env C.f64) t → Runs (servicesChain to opts.messagingService) t (.ok chain) →
      (∀ k ∈ routeOf chain, WireParty (A.env C.f64) (didOf k) ∧ validUtf8 k = true ∧ OpensAny C pairs ((Ms k).env C.f64) (A.env C.f64) k) ∧
      (∀ pre k post, routeOf chain = pre ++ k :: post → (mopts k).unwrapReWrappingForward = true →
        NotMine ((Ms k).env C.f64) (post.head?.getD to)))
    (out : Str) (md : PackEncryptedMetadata) (h : A.Packs C m to from_ signBy opts out md) (hsvc : md.messagingService ≠ none)
    (hopen : Opens C pairs (B.env C.f64) (A.env C.f64) (didOf to) md.toKids) :
    ∃ (t : List Event) (chain : List (Str × DIDCommMessagingService)) (v : Value) (md' : UnpackMetadata),
      Answers (A.env C.f64) t ∧ Runs (servicesChain to opts.messagingService) t (.ok chain) ∧
      AppTravels C opts.forwardHeaders opts.encAlgAnon Ms mopts to v (routeOf chain) out ∧
      B.UnpacksAs C v.print uopts m md' ∧
      md'.encrypted = true ∧ md'.authenticated = (from_.isSome || signBy.isSome) ∧ md'.nonRepudiation = signBy.isSome ∧
      md'.encryptedFromKid = md.fromKid ∧ md'.encryptedToKids = some md.toKids ∧ md'.signFrom = md.signByKid ∧
      md'.reWrappedInForward = false := by
  obtain ⟨tr, ha, hr⟩ := App.packs_ends h
  obtain ⟨env, v, t0, t, chain, a0, r0, a1, r1, htr, hret⟩ := C08_end_to_end (A.env C.f64) (fun k => (Ms k).env C.f64) mopts m to from_ signBy
    opts tr out md law hid hnl hpf hh hto hwire hk ha hr hsvc
  obtain ⟨fp, k, alg, jws, md', -, -, hun, hmd'⟩ := encrypted_roundTrip m hwf ht (A.env C.f64) (B.env C.f64) law hs
    (App.env_honest C.f64 A) to from_ signBy { opts with forward := false } uopts t0 env { md with messagingService := none } hn hu hwire
    hopen hw a0 r0 rfl
  exact ⟨t, chain, v, md', a1, r1, htr.apps, App.unpacksAs (hret _ uopts _ hun), by rw [hmd'], by rw [hmd'], by rw [hmd'], by rw [hmd'],
    by rw [hmd'], by rw [hmd'], by rw [hmd']⟩

/-- C106: from application to application, without encryption.  What the metadata say is what `m` itself says about a prior DID. -/
theorem C106_plaintext (A B : App) (hs : SeesDocsOf (B.env C.f64) (A.env C.f64)) (m : Message) (hwf : m.WF C.f64)
    (ht : m.typ = b!"application/didcomm-plain+json") (hn : NotEnvelope m) (uopts : UnpackOptions) (out : Str) (h : A.PacksPlain C m out) :
    ∃ fp k, PriorOf C m fp k ∧ B.UnpacksAs C out uopts m { fromPrior := fp, fromPriorIssuerKid := k } := by
  have hp : MayEnd (A.env C.f64) (packPlaintext C m) (.ok out) := by
    cases A with
    | uniffi E => exact ((C100_uniffi E).1 m _).1 h
    | js J =>
      obtain ⟨objects, h⟩ := h
      obtain ⟨a, e, h'⟩ := ((C100_js J objects).1 m _).1 h
      cases e
      exact h'
  obtain ⟨tr, ha, hr⟩ := hp
  obtain ⟨fp, k, h1, h2⟩ := C01_plaintext_roundtrip (A.env C.f64) (B.env C.f64) m uopts tr out hs hwf ht hn ha hr
  exact ⟨fp, k, h1, App.unpacksAs h2⟩

/-- C106: from application to application, signed. -/
theorem C106_signed (A B : App) (law : C.Lawful pairs) (hs : SeesDocsOf (B.env C.f64) (A.env C.f64)) (m : Message) (hwf : m.WF C.f64)
    (ht : m.typ = b!"application/didcomm-plain+json") (signBy : Str) (hwire : WireParty (A.env C.f64) (didOf signBy))
    (hfit : KeysFit C pairs (A.env C.f64) (didOf signBy)) (uopts : UnpackOptions) (out kid : Str) (h : A.PacksSigned C m signBy out kid) :
    ∃ fp k alg, PriorOf C m fp k ∧ SignatureOf C m (some kid) (some alg) (some out) ∧ B.UnpacksAs C out uopts m {
      authenticated := true, nonRepudiation := true, signFrom := some kid, signAlg := some alg, signedMessage := some out,
      fromPrior := fp, fromPriorIssuerKid := k } := by
  have hp : MayEnd (A.env C.f64) (packSigned C m signBy) (.ok (out, kid)) := by
    cases A with
    | uniffi E => exact ((C100_uniffi E).2.1 m signBy _).1 h
    | js J =>
      obtain ⟨objects, h⟩ := h
      obtain ⟨⟨out', kid'⟩, e, h'⟩ := ((C100_js J objects).2.1 m signBy _).1 h
      cases e
      exact h'
  obtain ⟨tr, ha, hr⟩ := hp
  obtain ⟨fp, k, alg, h1, h2, h3⟩ := C02_signed_roundtrip (A.env C.f64) (B.env C.f64) m signBy uopts tr out kid law hs (App.env_honest C.f64 A)
    hwire hfit hwf ht ha hr
  exact ⟨fp, k, alg, h1, h2, App.unpacksAs h3⟩

/-- C106: claims of a prior DID, from application to application. -/
theorem C106_prior (A B : App) (law : C.Lawful pairs) (hs : SeesDocsOf (B.env C.f64) (A.env C.f64)) (f : FromPrior) (hwf : f.WF)
    (hwire : WireParty (A.env C.f64) f.iss) (hfit : KeysFit C pairs (A.env C.f64) f.iss) (issuerKid : Option Str) (jwt kid : Str)
    (h : A.PacksPrior C f issuerKid jwt kid) : B.UnpacksPriorAs C jwt f kid := by
  have hp : MayEnd (A.env C.f64) (f.pack C issuerKid) (.ok (jwt, kid)) := by
    cases A with
    | uniffi E => exact ((C100_uniffi E).2.2.2.2.1 f issuerKid _).1 h
    | js J =>
      obtain ⟨objects, h⟩ := h
      obtain ⟨a, e, h'⟩ := ((C100_js J objects).2.2.2.2.1 f issuerKid _).1 h
      cases e
      exact h'
  obtain ⟨tr, ha, hr⟩ := hp
  obtain ⟨⟨t1, a1, r1⟩, hall⟩ := C07_from_prior_roundtrip (A.env C.f64) (B.env C.f64) f issuerKid tr jwt kid law hs (App.env_honest C.f64 A)
    hwire hfit hwf ha hr
  cases B with
  | uniffi E =>
    intro x
    rw [(C100_uniffi E).2.2.2.2.2.1 jwt x]
    constructor
    · intro hx
      cases x <;> (obtain ⟨t2, a2, r2⟩ := hx; cases hall t2 _ a2 r2; try rfl)
    · rintro rfl
      exact ⟨t1, a1, r1⟩
  | js J =>
    intro objects x
    rw [(C100_js J objects).2.2.2.2.2.1 jwt x]
    constructor
    · intro hx
      cases x with
      | ok b => obtain ⟨a, rfl, t2, a2, r2⟩ := hx; cases hall t2 _ a2 r2; rfl
      | error n => obtain ⟨k, rfl, t2, a2, r2⟩ := hx; cases hall t2 _ a2 r2
    · rintro rfl
      exact ⟨_, rfl, t1, a1, r1⟩

/-! ## Examples -/

/-- The mediator's application, through either binding. -/
def World.mediatorApps : List App :=
  [.uniffi World.mediatorEnv, .js (World.jsEnv [World.aliceDoc, World.bobDoc, World.mediatorDoc] (World.secrets.drop 8))]

theorem World.mediatorApps_env : ∀ M ∈ World.mediatorApps, M.env Toy.crypto.f64 = World.mediatorEnv := by
  intro A h
  simp only [World.mediatorApps, List.mem_cons, List.not_mem_nil, or_false] at h
  rcases h with rfl | rfl
  · exact throughUniffi_envOf _ _
  · exact C94_same _ _ (World.jsSays_all (World.secrets.drop 8) fun _ h => List.mem_of_mem_drop h) (World.jsProof _ _)

set_option maxRecDepth 100000 in
/-- C106_journey: Alice packs for Bob through either binding, the mediator unpacks each of the two layers through either binding, and Bob
unpacks through either binding. -/
example : ∀ A ∈ World.aliceApps, ∀ B ∈ World.bobApps, ∀ M ∈ World.mediatorApps, ∀ M' ∈ World.mediatorApps, ∃ out md md' v,
    A.Packs Toy.crypto World.msg World.bob (some World.alice) none {} out md ∧
    AppTravels Toy.crypto none .xc20pEcdhEsA256kw (fun k => if k = World.mediator then M else M')
      (fun _ => { unwrapReWrappingForward := false }) World.bob v [World.mediator, b!"did:example:mediator#x1"] out ∧
    B.UnpacksAs Toy.crypto v.print {} World.msg md' ∧
    md'.encryptedFromKid = some b!"did:example:alice#p1" ∧ md'.authenticated = true := by
  intro A hA B hB M hM M' hM'
  have h : World.test World.aliceEnv (packEncrypted Toy.crypto World.msg World.bob (some World.alice) none {})
      (fun x => decide (x.2.messagingService ≠ none) && decide (x.2.toKids = [b!"did:example:bob#p1"]) &&
        decide (x.2.fromKid = some b!"did:example:alice#p1")) = true := by decide +kernel
  obtain ⟨tr, ⟨out, md⟩, hr, ha, hc⟩ := World.of_test h
  simp only [Bool.and_eq_true, decide_eq_true_eq] at hc
  obtain ⟨⟨h1, h2⟩, h3⟩ := hc
  have eA := World.aliceApps_env A hA
  have eB := World.bobApps_env B hB
  have eM : ∀ k, (if k = World.mediator then M else M').env Toy.crypto.f64 = World.mediatorEnv := by
    intro k
    split
    · exact World.mediatorApps_env M hM
    · exact World.mediatorApps_env M' hM'
  have hp : A.Packs Toy.crypto World.msg World.bob (some World.alice) none {} out md := by
    have hm : MayEnd (A.env Toy.crypto.f64) (packEncrypted Toy.crypto World.msg World.bob (some World.alice) none {}) (.ok (out, md)) := by
      rw [eA]
      exact ⟨tr, ha, hr⟩
    cases A with
    | uniffi E => exact ((C100_uniffi E).2.2.1 _ _ _ _ _ _).2 hm
    | js J => exact ⟨0, fun _ => b!"{}", rfl, ((C100_js J _).2.2.1 _ _ _ _ 0 {} _ rfl).2 ⟨_, rfl, hm⟩⟩
  obtain ⟨t, chain, v, md', a1, r1, htr, g1, -, g2, -, g3, -⟩ := C106_journey A B (fun k => if k = World.mediator then M else M')
    (fun _ => { unwrapReWrappingForward := false }) Toy.lawful World.uuid_utf8 World.neverLonger World.printsFloats
    (by rw [eA, eB]; exact World.bob_sees) World.msg World.msg_wf rfl World.bob (some World.alice) none {} {}
    (fun _ => World.msg_notEnvelope) (fun h => (by cases h)) World.headersOk_none (by decide) (by rw [eA]; exact World.wire_bob)
    (by
      rw [eA]
      rintro d (hd | hd)
      · cases hd; exact ⟨World.wire_alice, World.fit_alice⟩
      · cases hd)
    (fun t chain ha h => by
      rw [eA] at ha ⊢
      rw [World.bob_route t chain ha h]
      refine ⟨fun k hk => ?_, fun _ _ _ _ h => by cases h⟩
      rw [eM]
      simp only [List.mem_cons, List.not_mem_nil, or_false] at hk
      rcases hk with rfl | rfl
      · exact ⟨World.wire_mediator, by decide, World.mediator_opens.1⟩
      · exact ⟨World.wire_mediator, by decide, World.mediator_opens.2⟩)
    out md hp h1 (by rw [eA, eB]; exact World.bob_opens (by rw [h2]; decide) (by rw [h2]; decide))
  rw [eA] at a1
  rw [World.bob_route t chain a1 r1] at htr
  exact ⟨out, md, md', v, hp, htr, g1, by rw [g3]; exact h3, by rw [g2]; rfl⟩

set_option maxRecDepth 100000 in
/-- C106_plaintext and C106_signed: Alice packs and signs through either binding, and Bob unpacks through either binding. -/
example : ∀ A ∈ World.aliceApps, ∀ B ∈ World.bobApps,
    (∃ out, A.PacksPlain Toy.crypto World.msg out ∧ B.UnpacksAs Toy.crypto out {} World.msg {}) ∧
    ∃ out md', A.PacksSigned Toy.crypto World.msg World.alice out b!"did:example:alice#ed" ∧ B.UnpacksAs Toy.crypto out {} World.msg md' ∧
      md'.signFrom = some b!"did:example:alice#ed" := by
  intro A hA B hB
  have eA := World.aliceApps_env A hA
  have eB := World.bobApps_env B hB
  constructor
  · obtain ⟨tr, out, hr, ha, -⟩ := World.of_test (E := World.aliceEnv) (p := packPlaintext Toy.crypto World.msg) (P := fun _ => true)
      (by decide +kernel)
    have hp : A.PacksPlain Toy.crypto World.msg out := by
      have hm : MayEnd (A.env Toy.crypto.f64) (packPlaintext Toy.crypto World.msg) (.ok out) := by rw [eA]; exact ⟨tr, ha, hr⟩
      cases A with
      | uniffi E => exact ((C100_uniffi E).1 _ _).2 hm
      | js J => exact ⟨fun _ => [], ((C100_js J _).1 _ _).2 ⟨_, rfl, hm⟩⟩
    obtain ⟨fp, k, h1, h2⟩ := C106_plaintext A B (by rw [eA, eB]; exact World.bob_sees) World.msg World.msg_wf rfl World.msg_notEnvelope {} out hp
    rcases h1 with ⟨-, rfl, rfl⟩ | ⟨_, _, _, _, _, h1, -⟩
    · exact ⟨out, hp, h2⟩
    · cases h1
  · obtain ⟨tr, ⟨out, kid⟩, hr, ha, hk⟩ := World.of_test (E := World.aliceEnv) (p := packSigned Toy.crypto World.msg World.alice)
      (P := fun x => decide (x.2 = b!"did:example:alice#ed")) (by decide +kernel)
    obtain rfl := of_decide_eq_true hk
    have hp : A.PacksSigned Toy.crypto World.msg World.alice out b!"did:example:alice#ed" := by
      have hm : MayEnd (A.env Toy.crypto.f64) (packSigned Toy.crypto World.msg World.alice) (.ok (out, b!"did:example:alice#ed")) := by
        rw [eA]; exact ⟨tr, ha, hr⟩
      cases A with
      | uniffi E => exact ((C100_uniffi E).2.1 _ _ _).2 hm
      | js J => exact ⟨fun _ => [], ((C100_js J _).2.1 _ _ _).2 ⟨_, rfl, hm⟩⟩
    obtain ⟨fp, k, alg, -, -, h3⟩ := C106_signed A B Toy.lawful (by rw [eA, eB]; exact World.bob_sees) World.msg World.msg_wf rfl World.alice
      (by rw [eA]; exact World.wire_alice) (by rw [eA]; exact World.fit_alice) {} out _ hp
    exact ⟨out, _, hp, h3, rfl⟩

set_option maxRecDepth 100000 in
/-- C106_prior: Alice moves to another DID. -/
example : ∀ A ∈ World.aliceApps, ∀ B ∈ World.bobApps, ∃ jwt,
    A.PacksPrior Toy.crypto { iss := World.alice, sub := World.bob, exp := some 1234 } (some b!"did:example:alice#es") jwt b!"did:example:alice#es" ∧
    B.UnpacksPriorAs Toy.crypto jwt { iss := World.alice, sub := World.bob, exp := some 1234 } b!"did:example:alice#es" := by
  intro A hA B hB
  have eA := World.aliceApps_env A hA
  have eB := World.bobApps_env B hB
  obtain ⟨tr, ⟨jwt, kid⟩, hr, ha, hk⟩ := World.of_test (E := World.aliceEnv)
    (p := FromPrior.pack Toy.crypto { iss := World.alice, sub := World.bob, exp := some 1234 } (some b!"did:example:alice#es"))
    (P := fun x => decide (x.2 = b!"did:example:alice#es")) (by decide +kernel)
  obtain rfl := of_decide_eq_true hk
  have hp : A.PacksPrior Toy.crypto { iss := World.alice, sub := World.bob, exp := some 1234 } (some b!"did:example:alice#es") jwt
      b!"did:example:alice#es" := by
    have hm : MayEnd (A.env Toy.crypto.f64) (FromPrior.pack Toy.crypto { iss := World.alice, sub := World.bob, exp := some 1234 }
        (some b!"did:example:alice#es")) (.ok (jwt, b!"did:example:alice#es")) := by rw [eA]; exact ⟨tr, ha, hr⟩
    cases A with
    | uniffi E => exact ((C100_uniffi E).2.2.2.2.1 _ _ _).2 hm
    | js J => exact ⟨fun _ => [], ((C100_js J _).2.2.2.2.1 _ _ _).2 ⟨_, rfl, hm⟩⟩
  refine ⟨jwt, hp, C106_prior A B Toy.lawful (by rw [eA, eB]; exact World.bob_sees) _ ?_ (by rw [eA]; exact World.wire_alice)
    (by rw [eA]; exact World.fit_alice) _ jwt _ hp⟩
  constructor
  · decide
  · decide
  · intro s h; cases h
  · intro s h; cases h

end DIDComm
