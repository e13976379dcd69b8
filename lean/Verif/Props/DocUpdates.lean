import Verif.Proofs.DocUpdates
import Verif.Props.Evidence
import Verif.Props.Negotiation
import Verif.Props.Agree
import Verif.Props.Onion

/-!
# C109: what difference changes of DID documents make
-/

set_option autoImplicit false

namespace DIDComm

variable {C : Crypto} {E E' : Env}

/-- C109: changes of documents that concern no keys make no difference.  If in all documents the same keys are listed for the same
purposes, with the same verification methods, then `unpack` returns the same result or the same error, whatever the order of the lists and
whatever services there are. -/
theorem C109_same (hd : NeverLonger C) (hf : PrintsFloats C) (t : Str) (opts : UnpackOptions) (h : SameKeyDocs E E')
    (r : Res (Message × UnpackMetadata)) :
    (∃ tr, Answers E tr ∧ Runs (unpack C t opts) tr r) ↔ ∃ tr, Answers E' tr ∧ Runs (unpack C t opts) tr r := by
  have key : ∀ {E E' : Env}, SameKeyDocs E E' → (∃ tr, Answers E tr ∧ Runs (unpack C t opts) tr r) →
      ∃ tr, Answers E' tr ∧ Runs (unpack C t opts) tr r := by
    intro E E' h ⟨tr, ha, hr⟩
    have hx := (C81_unpack hd hf t opts tr r hr ha).sameKeys h
    obtain ⟨h1, h2⟩ := Prog.run_spec E' id (unpack C t opts)
    rw [(C81_exact hd hf t opts r).1 hx _ _ h1 h2] at h1
    exact ⟨_, h2, h1⟩
  exact ⟨key h, key h.symm⟩

/-- C109: keys may be added.  What was accepted is accepted again, with the same message and metadata, after any changes of documents
after which the keys that were used by the sender, by the signer and by the issuer of the prior-DID claims are still listed, with their
verification methods. -/
theorem C109_kept (hd : NeverLonger C) (hf : PrintsFloats C) (t : Str) (opts : UnpackOptions) (lost : Str → Prop) (h : StillThere E E')
    (hk : KeysKept DIDDoc.keyAgreement lost E E') (ha : KeysKept DIDDoc.authentication lost E E') (m : Message) (md : UnpackMetadata)
    (h1 : ∀ k, md.encryptedFromKid = some k → ¬ lost k) (h2 : ∀ k, md.signFrom = some k → ¬ lost k)
    (h3 : ∀ k, md.fromPriorIssuerKid = some k → ¬ lost k)
    (hx : ∃ tr, Answers E tr ∧ Runs (unpack C t opts) tr (.ok (m, md))) : Returns E' (unpack C t opts) (m, md) := by
  obtain ⟨tr, han, hr⟩ := hx
  obtain ⟨u, md0, a, s, p, g1, g2, g3, g4, rfl, e1, e2, e3⟩ := (C81_unpack hd hf t opts tr _ hr han).layers
  rw [e1] at h1; rw [e2] at h2; rw [e3] at h3
  have hu : Unpacked C E' opts t (.ok (m, _)) := .unpacked (h.unwrapsStill g1 rfl)
    (g2.kept h hk fun _ _ _ _ hx => h1 _ (by rw [hx]; rfl)) (g3.kept h ha fun _ _ _ hx => h2 _ (by rw [hx]; rfl))
    (g4.kept h ha fun _ _ hx => h3 _ (by rw [hx]; rfl))
  have hx := (C81_exact hd hf t opts _).1 hu
  obtain ⟨q1, q2⟩ := Prog.run_spec E' id (unpack C t opts)
  rw [hx _ _ q1 q2] at q1
  exact ⟨⟨_, q2, q1⟩, fun tr r ha hr => hx tr r hr ha⟩

/-- C109: what was accepted is refused, with `DIDUrlNotFound`, once the key of its sender is not listed for key agreement any more,
although it was sent before: the library has no notion of time. -/
theorem C109_sender_gone (hd : NeverLonger C) (hf : PrintsFloats C) (t : Str) (opts : UnpackOptions) (h : StillThere E E')
    (m : Message) (md : UnpackMetadata) (k : Str) (hs : md.encryptedFromKid = some k) (doc' : DIDDoc)
    (hdoc : E'.resolve (didOf k) = .ok (some doc')) (hl : k ∉ doc'.keyAgreement)
    (hx : ∃ tr, Answers E tr ∧ Runs (unpack C t opts) tr (.ok (m, md))) (tr : List Event) (r : Res (Message × UnpackMetadata))
    (hr : Answers E' tr ∧ Runs (unpack C t opts) tr r) : r = .error (.kind .didUrlNotFound) := by
  obtain ⟨tr0, han, hr0⟩ := hx
  obtain ⟨u, md0, a, s, p, g1, g2, g3, g4, rfl, e1, e2, e3⟩ := (C81_unpack hd hf t opts tr0 _ hr0 han).layers
  rw [e1] at hs
  cases a with
  | none => cases hs
  | some a =>
    cases hs
    exact (C81_exact hd hf t opts _).1 (.authFailed (h.unwrapsStill g1 rfl) (g2.gone hdoc hl)) _ _ hr.2 hr.1

/-- C109: what was accepted is refused, with `DIDUrlNotFound`, once the key of its signer is not listed for authentication any more.  The
key of the sender, if there is one, has to be kept. -/
theorem C109_signer_gone (hd : NeverLonger C) (hf : PrintsFloats C) (t : Str) (opts : UnpackOptions) (lost : Str → Prop)
    (h : StillThere E E') (hk : KeysKept DIDDoc.keyAgreement lost E E')
    (m : Message) (md : UnpackMetadata) (h1 : ∀ k, md.encryptedFromKid = some k → ¬ lost k) (k : Str) (hs : md.signFrom = some k)
    (doc' : DIDDoc) (hdoc : E'.resolve (didOf k) = .ok (some doc')) (hl : k ∉ doc'.authentication)
    (hx : ∃ tr, Answers E tr ∧ Runs (unpack C t opts) tr (.ok (m, md))) (tr : List Event) (r : Res (Message × UnpackMetadata))
    (hr : Answers E' tr ∧ Runs (unpack C t opts) tr r) : r = .error (.kind .didUrlNotFound) := by
  obtain ⟨tr0, han, hr0⟩ := hx
  obtain ⟨u, md0, a, s, p, g1, g2, g3, g4, rfl, e1, e2, e3⟩ := (C81_unpack hd hf t opts tr0 _ hr0 han).layers
  rw [e2] at hs; rw [e1] at h1
  cases s with
  | none => cases hs
  | some s =>
    cases hs
    exact (C81_exact hd hf t opts _).1 (.signFailed (h.unwrapsStill g1 rfl) (g2.kept h hk fun _ _ _ _ hx => h1 _ (by rw [hx]; rfl))
      (g3.gone hdoc hl)) _ _ hr.2 hr.1

/-- C109: and so it is once the key that its prior-DID claims are signed with is not listed for authentication any more. -/
theorem C109_issuer_gone (hd : NeverLonger C) (hf : PrintsFloats C) (t : Str) (opts : UnpackOptions) (lost : Str → Prop)
    (h : StillThere E E') (hk : KeysKept DIDDoc.keyAgreement lost E E') (ha : KeysKept DIDDoc.authentication lost E E')
    (m : Message) (md : UnpackMetadata) (h1 : ∀ k, md.encryptedFromKid = some k → ¬ lost k) (h2 : ∀ k, md.signFrom = some k → ¬ lost k)
    (k : Str) (hs : md.fromPriorIssuerKid = some k)
    (doc' : DIDDoc) (hdoc : E'.resolve (didOf k) = .ok (some doc')) (hl : k ∉ doc'.authentication)
    (hx : ∃ tr, Answers E tr ∧ Runs (unpack C t opts) tr (.ok (m, md))) (tr : List Event) (r : Res (Message × UnpackMetadata))
    (hr : Answers E' tr ∧ Runs (unpack C t opts) tr r) : r = .error (.kind .didUrlNotFound) := by
  obtain ⟨tr0, han, hr0⟩ := hx
  obtain ⟨u, md0, a, s, p, g1, g2, g3, g4, rfl, e1, e2, e3⟩ := (C81_unpack hd hf t opts tr0 _ hr0 han).layers
  rw [e3] at hs; rw [e1] at h1; rw [e2] at h2
  cases p with
  | none => cases hs
  | some p =>
    cases hs
    exact (C81_exact hd hf t opts _).1 (.plainFailed (h.unwrapsStill g1 rfl) (g2.kept h hk fun _ _ _ _ hx => h1 _ (by rw [hx]; rfl))
      (g3.kept h ha fun _ _ _ hx => h2 _ (by rw [hx]; rfl)) (g4.gone hdoc hl)) _ _ hr.2 hr.1

/-- C109: a key that no document lists for a purpose is never reported for it by `unpack`, whatever text arrives and whatever the
resolvers answer otherwise. -/
theorem C109_never_reported (t : Str) (opts : UnpackOptions) (tr : List Event) (m : Message) (md : UnpackMetadata)
    (h : Runs (unpack C t opts) tr (.ok (m, md))) (k : Str) :
    ((∀ d doc, evResolve d (some doc) ∈ tr → k ∉ doc.keyAgreement) → md.encryptedFromKid ≠ some k) ∧
    ((∀ d doc, evResolve d (some doc) ∈ tr → k ∉ doc.authentication) → md.signFrom ≠ some k ∧ md.fromPriorIssuerKid ≠ some k) := by
  refine ⟨fun hk hs => ?_, fun hk => ⟨fun hs => ?_, fun hs => ?_⟩⟩
  · obtain ⟨doc, c, key, _, _, _, _, _, _, _, h2, h3, -⟩ := C10_sender t opts tr m md k h hs
    exact hk _ _ h2 h3.1
  · have hn := C11_reported t opts tr m md h (.inl (by rw [hs]; rfl))
    obtain ⟨k', _, _, doc, _, _, _, h1, -, -, -, h2, h3, -⟩ := C11_signer t opts tr m md h hn
    rw [hs] at h1; cases h1
    exact hk _ _ h2 h3.1
  · cases hj : m.fromPrior with
    | none =>
      obtain ⟨t1, t2, t3, t4, msg1, md1, msg2, md2, msg3, md3, rfl, h1, h2, h3, h4, h5, h6⟩ := unpack_parts h
      rcases h6 with ⟨-, -, rfl⟩ | ⟨_, _, _, _, _, _, hp, -⟩
      · have e1 : md1.fromPriorIssuerKid = none := by
          rcases h1.metadata with ⟨-, rfl, -⟩ | ⟨_, _, _, _, _, _, _, _, rfl, -⟩ <;> rfl
        have e2 : md2.fromPriorIssuerKid = none := by
          rcases h2 with ⟨-, rfl, -⟩ | ⟨_, _, _, _, _, _, _, _, -, -, -, -, -, -, -, rfl⟩ <;> exact e1
        have e3 : md.fromPriorIssuerKid = none := by
          rcases h3 with ⟨-, rfl, -⟩ | ⟨_, _, _, _, _, -, -, -, -, rfl⟩ <;> exact e2
        rw [e3] at hs; cases hs
      · rw [hj] at hp; cases hp
    | some jwt =>
      obtain ⟨k', _, doc, _, _, h1, -, -, h2, h3, -⟩ := C13_from_prior t opts tr m md jwt h hj
      rw [hs] at h1; cases h1
      exact hk _ _ h2 h3.1

/-- The keys an anonymous envelope is for are listed for key agreement. -/
theorem anoncrypt_listed {to : Str} {msg : Bytes} {alg : AnonCryptAlg} {tr : List Event} {out : Str} {kids : List Str}
    (h : Runs (anoncrypt C to msg alg) tr (.ok (out, kids))) :
    ∃ doc hdr, evResolve (didOf to) (some doc) ∈ tr ∧ (∀ k ∈ kids, k ∈ doc.keyAgreement) ∧ IsJwe out hdr kids := by
  obtain ⟨doc, curve, tr', rfl, -, -, h3⟩ := anoncrypt_selection h
  obtain ⟨_, _, _, _, _, _, -, -, -, -, -, h5, h6, h7⟩ := anoncrypt_ok.1 h
  obtain ⟨epk, hw⟩ := jweEncrypt_wire h7
  rw [keysOf_fst h5, ← h6] at hw
  refine ⟨doc, _, by simp, fun k hk => ?_, hw⟩
  rw [h3] at hk
  have := (List.mem_filter.1 hk).1
  unfold meantBy at this
  split at this
  · exact (List.mem_filter.1 this).1
  · exact this

/-- C109: a key that no document lists for a purpose is never used for it by `pack_encrypted`: it does not sign; the message is not
encrypted with it; it is not among the keys the message is encrypted for; and neither is it among the recipients of the text that is
returned, which may be those of a mediator.  For keys of our own the secrets resolver has to report no keys but those it is asked for. -/
theorem C109_never_used (m : Message) (to : Str) (from_ signBy : Option Str) (opts : PackEncryptedOptions) (tr : List Event)
    (out : Str) (md : PackEncryptedMetadata) (h : Runs (packEncrypted C m to from_ signBy opts) tr (.ok (out, md))) (k : Str) :
    ((∀ d doc, evResolve d (some doc) ∈ tr → k ∉ doc.keyAgreement) → k ∉ md.toKids ∧ (∃ hdr kids, IsJwe out hdr kids ∧ k ∉ kids) ∧
      (HonestFind tr → md.fromKid ≠ some k)) ∧
    ((∀ d doc, evResolve d (some doc) ∈ tr → k ∉ doc.authentication) → HonestFind tr → md.signByKid ≠ some k) := by
  have hmeant : ∀ (who : Str) (l : List Str), k ∈ meantBy who l → k ∈ l := by
    intro who l hk
    unfold meantBy at hk
    split at hk
    · exact (List.mem_filter.1 hk).1
    · exact hk
  obtain ⟨t1, t2, t3, inner, sk, env, fk, tk, w, ht, h0, h1, h2, h3, hmd⟩ := packEncrypted_ok.1 h
  refine ⟨fun hk => ?_, fun hk hh hs => ?_⟩
  · have hto : k ∉ md.toKids := by
      intro hm
      cases from_ with
      | none =>
        obtain ⟨doc, curve, g1, -, -, g4, -⟩ := C34_recipients m to signBy opts tr out md h
        rw [g4] at hm
        exact hk _ _ g1 (hmeant _ _ (List.mem_filter.1 hm).1)
      | some f =>
        obtain ⟨doc, _, _, curve, _, g1, -, -, -, -, -, -, g4, -⟩ := C35_negotiation m to f signBy opts tr out md h
        rw [g4] at hm
        exact hk _ _ g1 (hmeant _ _ (List.mem_filter.1 hm).1)
    refine ⟨hto, ?_, fun hh hm => ?_⟩
    · rcases hmd with ⟨-, -, hmd⟩ | ⟨svc, rfl, rfl⟩
      · obtain ⟨hdr, hj, -⟩ := C36_wire m to from_ signBy opts tr out md h (by rw [hmd])
        exact ⟨hdr, _, hj, hto⟩
      · unfold wrapInForwardIfNeeded at h3
        split at h3
        · obtain ⟨-, h3⟩ := runs_pure.1 h3; cases h3
        rw [runs_bind_ok] at h3
        obtain ⟨chain, u1, u2, rfl, hc, h3⟩ := h3
        split at h3
        rotate_left
        · obtain ⟨-, h3⟩ := runs_pure.1 h3; cases h3
        dsimp only at h3
        split at h3
        · obtain ⟨-, h3⟩ := runs_pure.1 h3; cases h3
        rw [runs_bind_ok] at h3
        obtain ⟨o, u3, u4, rfl, h3, h5⟩ := h3
        obtain ⟨rfl, h5⟩ := runs_pure.1 h5
        cases h5
        generalize hroute : chainRoutingKeys chain = route at *
        cases route with
        | nil => simp_all
        | cons r rs =>
          obtain ⟨mid, v1, n, v2, v, kids, rfl, -, -, ha⟩ := wrap_outer h3
          obtain ⟨doc, hdr, g1, g2, g3⟩ := anoncrypt_listed ha
          exact ⟨hdr, kids, g3, fun hm => hk (didOf r) doc (by rw [ht]; simp [g1]) (g2 _ hm)⟩
    · cases from_ with
      | none =>
        rcases packCrypt_ok.1 h2 with ⟨-, rfl, -⟩ | ⟨_, _, hf, -⟩
        · rcases hmd with ⟨-, -, rfl⟩ | ⟨svc, -, rfl⟩ <;> cases hm
        · cases hf
      | some f =>
        obtain ⟨_, doc, found, curve, k', -, g1, g2, g3, g4, -⟩ := C35_negotiation m to f signBy opts tr out md h
        rw [hm] at g4; cases g4
        exact hk _ _ g1 (hmeant _ _ (hh _ _ g2 _ (List.mem_of_find?_eq_some g3)))
  · have hsk : sk = some k := by rcases hmd with ⟨-, -, rfl⟩ | ⟨svc, -, rfl⟩ <;> exact hs
    subst hsk
    rcases packInner_ok.1 h1 with ⟨-, hx, -⟩ | ⟨s, k', -, hx, hp⟩
    · cases hx
    · cases hx
      obtain ⟨doc, _, _, _, g1, -, -, g2, -⟩ := C33_signing_key m s t1 inner k hp
      refine hk (didOf s) doc (by rw [ht, g1]; simp) (g2 fun ks found he => hh ks found ?_).1
      rw [ht]; simp [he]

/-! ## Examples -/

/-- Everybody's secrets, and everybody's documents after a change. -/
def World.changed (f : DIDDoc → DIDDoc) : Env := World.envOf ([World.aliceDoc, World.bobDoc, World.mediatorDoc].map f) World.secrets

theorem World.changed_resolve (f : DIDDoc → DIDDoc) (hid : ∀ d, (f d).id = d.id) (d : Str) :
    (World.changed f).resolve d = .ok ((exampleResolve [World.aliceDoc, World.bobDoc, World.mediatorDoc] d).map f) := by
  show Except.ok (exampleResolve _ d) = _
  have : ∀ l : List DIDDoc, exampleResolve (l.map f) d = (exampleResolve l d).map f := by
    intro l
    induction l with
    | nil => rfl
    | cons x l ih =>
      unfold exampleResolve at ih ⊢
      simp only [List.map_cons, List.find?_cons, hid]
      split
      · rfl
      · exact ih
  rw [this]

theorem World.known {d : Str} {doc : DIDDoc} (h : World.env.resolve d = .ok (some doc)) :
    doc = World.aliceDoc ∧ d = World.alice ∨ doc = World.bobDoc ∧ d = World.bob ∨ doc = World.mediatorDoc ∧ d = World.mediator := by
  simp only [World.env, World.envOf, Except.ok.injEq, exampleResolve] at h
  have hd := List.find?_some h
  have hm := List.mem_of_find?_eq_some h
  simp only [beq_iff_eq] at hd
  simp only [List.mem_cons, List.not_mem_nil, or_false] at hm
  rcases hm with rfl | rfl | rfl <;> simp [← hd, World.aliceDoc, World.bobDoc, World.mediatorDoc]

/-- Documents after a change of keys that leaves everybody some of their keys. -/
theorem World.still (f : DIDDoc → DIDDoc) (hid : ∀ d, (f d).id = d.id)
    (ho : ∀ doc ∈ [World.aliceDoc, World.bobDoc, World.mediatorDoc],
      (exampleFindSecrets World.secrets doc.keyAgreement).isEmpty = (exampleFindSecrets World.secrets (f doc).keyAgreement).isEmpty) :
    StillThere World.env (World.changed f) ∧
    ∀ d doc doc', World.env.resolve d = .ok (some doc) → (World.changed f).resolve d = .ok (some doc') → doc' = f doc := by
  have key : ∀ d doc, World.env.resolve d = .ok (some doc) → (World.changed f).resolve d = .ok (some (f doc)) := by
    intro d doc h
    rw [World.changed_resolve f hid]
    simp only [World.env, World.envOf, Except.ok.injEq] at h
    rw [h]; rfl
  have same : ∀ d doc doc', World.env.resolve d = .ok (some doc) → (World.changed f).resolve d = .ok (some doc') → doc' = f doc := by
    intro d doc doc' h h'
    rw [key d doc h] at h'
    cases h'; rfl
  refine ⟨⟨⟨fun _ => rfl, fun _ => rfl⟩, fun d doc h => ⟨_, key d doc h⟩, fun d doc doc' h h' => ?_⟩, same⟩
  cases same d doc doc' h h'
  refine .found (ho doc ?_)
  rcases World.known h with ⟨rfl, -⟩ | ⟨rfl, -⟩ | ⟨rfl, -⟩ <;> simp

/-- Claims of Alice's about Bob's DID, in a message that Alice signs and Bob encrypts for Alice. -/
def World.claimsProg (signBy : Option Str) : Prog (Str × PackEncryptedMetadata) := do
  let (jwt, _) ← FromPrior.pack Toy.crypto { iss := World.alice, sub := World.bob } none
  packEncrypted Toy.crypto { id := b!"7", type_ := [], body := .null, from_ := some World.bob, fromPrior := some jwt } World.alice
    (some World.bob) signBy { forward := false }

/-- The text of it. -/
def World.claimsText (signBy : Option Str) : Str :=
  match ((World.claimsProg signBy).run World.env id).2 with
  | .ok x => x.1
  | .error _ => []

set_option maxRecDepth 1000000 in
theorem World.claims_test : World.test World.env (unpack Toy.crypto (World.claimsText (some World.alice)) {})
    (fun x => decide (x.2.encryptedFromKid = some b!"did:example:bob#x1" ∧ x.2.signFrom = some b!"did:example:alice#ed" ∧
      x.2.fromPriorIssuerKid = some b!"did:example:alice#ed")) = true := by decide +kernel

set_option maxRecDepth 1000000 in
theorem World.claims_unsigned : World.test World.env (unpack Toy.crypto (World.claimsText none) {})
    (fun x => decide (x.2.encryptedFromKid = some b!"did:example:bob#x1" ∧ x.2.signFrom = none ∧
      x.2.fromPriorIssuerKid = some b!"did:example:alice#ed")) = true := by decide +kernel

/-- Lists in another order, and no services. -/
def World.shuffle (d : DIDDoc) : DIDDoc :=
  { d with keyAgreement := d.keyAgreement.reverse, authentication := d.authentication.reverse, service := [] }

theorem World.shuffled : SameKeyDocs World.env (World.changed World.shuffle) := by
  obtain ⟨h1, h2⟩ := World.still World.shuffle (fun _ => rfl) (by decide +kernel)
  refine ⟨h1.toSameSecrets, fun d => ?_, h1.ours⟩
  rw [World.changed_resolve World.shuffle (fun _ => rfl)]
  show SameAnswer (.ok (exampleResolve _ d)) _
  cases exampleResolve [World.aliceDoc, World.bobDoc, World.mediatorDoc] d with
  | none => exact .unknown
  | some doc => exact .found ⟨fun k => by simp [World.shuffle], fun k => by simp [World.shuffle], fun k => rfl⟩

/-- The message is read as before. -/
example : ∃ x, (∃ tr, Answers World.env tr ∧ Runs (unpack Toy.crypto (World.claimsText (some World.alice)) {}) tr (.ok x)) ∧
    ∃ tr, Answers (World.changed World.shuffle) tr ∧ Runs (unpack Toy.crypto (World.claimsText (some World.alice)) {}) tr (.ok x) := by
  obtain ⟨tr, x, h, ha, -⟩ := World.of_test World.claims_test
  generalize World.claimsText (some World.alice) = t at *
  exact ⟨x, ⟨tr, ha, h⟩, (C109_same World.neverLonger World.printsFloats t {} World.shuffled _).1 ⟨tr, ha, h⟩⟩

/-- A new key for everybody, before the others. -/
def World.grow (d : DIDDoc) : DIDDoc :=
  { d with
    keyAgreement := (d.id ++ b!"#new") :: d.keyAgreement
    authentication := (d.id ++ b!"#new") :: d.authentication
    verificationMethod := d.verificationMethod ++ [World.method (d.id ++ b!"#new") b!"OKP" b!"X25519" [99]] }

/-- And the key `k` is not listed any more. -/
def World.drop (k : Str) (d : DIDDoc) : DIDDoc :=
  { World.grow d with
    keyAgreement := (World.grow d).keyAgreement.filter (fun x => x ≠ k)
    authentication := (World.grow d).authentication.filter (fun x => x ≠ k) }

theorem World.drop_kept (k : Str) (f : DIDDoc → DIDDoc) (hf : f = World.drop k)
    (hs : ∀ d doc doc', World.env.resolve d = .ok (some doc) → (World.changed f).resolve d = .ok (some doc') → doc' = f doc) :
    KeysKept DIDDoc.keyAgreement (· = k) World.env (World.changed f) ∧ KeysKept DIDDoc.authentication (· = k) World.env (World.changed f) := by
  subst hf
  have hm : ∀ doc kid vm, methodOf doc kid = some vm → methodOf (World.drop k doc) kid = some vm := by
    intro doc kid vm h
    unfold methodOf at h ⊢
    simp only [World.drop, World.grow, List.find?_append, h, Option.some_or]
  refine ⟨fun d doc doc' h h' kid hk hn => ?_, fun d doc doc' h h' kid hk hn => ?_⟩ <;>
    obtain rfl := hs d doc doc' h h' <;>
    refine ⟨List.mem_filter.2 ⟨List.mem_cons_of_mem _ hk, by simpa using hn⟩, fun vm hv => hm _ _ _ hv⟩

/-- Everybody has a new key: the message is read as before.  (No key is dropped: there is none with an empty id.) -/
example : ∃ x, (∃ tr, Answers World.env tr ∧ Runs (unpack Toy.crypto (World.claimsText (some World.alice)) {}) tr (.ok x)) ∧
    Returns (World.changed (World.drop [])) (unpack Toy.crypto (World.claimsText (some World.alice)) {}) x := by
  obtain ⟨tr, x, h, ha, hx⟩ := World.of_test World.claims_test
  generalize World.claimsText (some World.alice) = t at *
  obtain ⟨h1, h2⟩ := World.still (World.drop []) (fun _ => rfl) (by decide +kernel)
  obtain ⟨k1, k2⟩ := World.drop_kept [] _ rfl h2
  obtain ⟨e1, e2, e3⟩ := of_decide_eq_true hx
  refine ⟨x, ⟨tr, ha, h⟩, C109_kept World.neverLonger World.printsFloats t {} (· = []) h1 k1 k2 x.1 x.2 ?_ ?_ ?_ ⟨tr, ha, h⟩⟩
  · intro k hk; rw [e1] at hk; cases hk; nofun
  · intro k hk; rw [e2] at hk; cases hk; nofun
  · intro k hk; rw [e3] at hk; cases hk; nofun

/-- Bob's key is not listed any more, or Alice's key is not: the message is refused. -/
example : (∀ tr r, Answers (World.changed (World.drop b!"did:example:bob#x1")) tr ∧
      Runs (unpack Toy.crypto (World.claimsText (some World.alice)) {}) tr r → r = .error (.kind .didUrlNotFound)) ∧
    (∀ tr r, Answers (World.changed (World.drop b!"did:example:alice#ed")) tr ∧
      Runs (unpack Toy.crypto (World.claimsText (some World.alice)) {}) tr r → r = .error (.kind .didUrlNotFound)) ∧
    (∀ tr r, Answers (World.changed (World.drop b!"did:example:alice#ed")) tr ∧
      Runs (unpack Toy.crypto (World.claimsText none) {}) tr r → r = .error (.kind .didUrlNotFound)) := by
  obtain ⟨tr, x, h, ha, hx⟩ := World.of_test World.claims_test
  obtain ⟨tr', x', h', ha', hx'⟩ := World.of_test World.claims_unsigned
  generalize World.claimsText (some World.alice) = t at *
  generalize World.claimsText none = t' at *
  obtain ⟨e1, e2, e3⟩ := of_decide_eq_true hx
  obtain ⟨e1', e2', e3'⟩ := of_decide_eq_true hx'
  obtain ⟨b1, b2⟩ := World.still (World.drop b!"did:example:bob#x1") (fun _ => rfl) (by decide +kernel)
  obtain ⟨a1, a2⟩ := World.still (World.drop b!"did:example:alice#ed") (fun _ => rfl) (by decide +kernel)
  obtain ⟨k1, k2⟩ := World.drop_kept _ _ rfl a2
  refine ⟨fun u r hr => ?_, fun u r hr => ?_, fun u r hr => ?_⟩
  · exact C109_sender_gone World.neverLonger World.printsFloats t {} b1 x.1 x.2 _ e1 (World.drop b!"did:example:bob#x1" World.bobDoc)
      (World.changed_resolve (World.drop _) (fun _ => rfl) _) (by decide +kernel) ⟨tr, ha, h⟩ u r hr
  · exact C109_signer_gone World.neverLonger World.printsFloats t {} _ a1 k1 x.1 x.2
      (fun k hk => by rw [e1] at hk; cases hk; decide +kernel) _ e2 (World.drop b!"did:example:alice#ed" World.aliceDoc)
      (World.changed_resolve (World.drop _) (fun _ => rfl) _) (by decide +kernel) ⟨tr, ha, h⟩ u r hr
  · exact C109_issuer_gone World.neverLonger World.printsFloats t' {} _ a1 k1 k2 x'.1 x'.2
      (fun k hk => by rw [e1'] at hk; cases hk; decide +kernel) (fun k hk => by rw [e2'] at hk; cases hk) _ e3'
      (World.drop b!"did:example:alice#ed" World.aliceDoc)
      (World.changed_resolve (World.drop _) (fun _ => rfl) _) (by decide +kernel) ⟨tr', ha', h'⟩ u r hr

/-- Nobody lists the key `#old`; messages are packed and unpacked, and it is neither used nor reported. -/
example : ∃ (t : Str) (tr tr' : List Event) (x : Str × PackEncryptedMetadata) (m : Message) (md : UnpackMetadata),
    Runs (packEncrypted Toy.crypto World.msg World.bob (some World.alice) (some World.alice) {}) tr (.ok x) ∧
    x.2.messagingService.isSome = true ∧ HonestFind tr ∧
    (∀ d doc, evResolve d (some doc) ∈ tr → b!"did:example:alice#old" ∉ doc.keyAgreement ∧ b!"did:example:alice#old" ∉ doc.authentication) ∧
    Runs (unpack Toy.crypto t {}) tr' (.ok (m, md)) ∧ md.signFrom.isSome = true ∧
    ∀ d doc, evResolve d (some doc) ∈ tr' → b!"did:example:alice#old" ∉ doc.keyAgreement ∧ b!"did:example:alice#old" ∉ doc.authentication := by
  have key : ∀ tr, Answers World.env tr → ∀ d doc, evResolve d (some doc) ∈ tr →
      b!"did:example:alice#old" ∉ doc.keyAgreement ∧ b!"did:example:alice#old" ∉ doc.authentication := by
    intro tr ha d doc h
    have : World.env.resolve d = .ok (some doc) := (ha _ h).symm
    rcases World.known this with ⟨rfl, -⟩ | ⟨rfl, -⟩ | ⟨rfl, -⟩ <;> decide +kernel
  obtain ⟨tr', x', h', ha', hx'⟩ := World.of_test World.claims_test
  obtain ⟨tr, x, h, ha, hx⟩ := World.of_test (E := World.env)
    (p := packEncrypted Toy.crypto World.msg World.bob (some World.alice) (some World.alice) {})
    (P := fun x => x.2.messagingService.isSome) (by decide +kernel)
  refine ⟨_, tr, tr', x, x'.1, x'.2, h, hx, ?_, key tr ha, h', by rw [(of_decide_eq_true hx').2.1]; rfl, key tr' ha'⟩
  intro ks found hf k hk
  have : World.env.findSecrets ks = .ok found := (ha _ hf).symm
  cases this
  exact (List.mem_filter.1 hk).1

end DIDComm
