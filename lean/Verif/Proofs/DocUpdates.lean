import Verif.Spec.DocUpdates
import Verif.Proofs.Devices

/-! # Lemmas about DID documents that change -/

set_option autoImplicit false

namespace DIDComm

variable {C : Crypto} {E E' : Env} {α : Type}

/-! ## The same secrets -/

theorem SameSecrets.symm (h : SameSecrets E E') : SameSecrets E' E := ⟨fun k => (h.find k).symm, fun k => (h.get k).symm⟩

theorem TriedKeys.sameSecrets (h : SameSecrets E E') {all : Bool} {tried : Str → KeyPair C → Res α → Prop} {l : List Str} {r : Res α}
    (hr : TriedKeys C E all tried l r) : TriedKeys C E' all tried l r := by
  induction hr with
  | noSecret g => exact .noSecret (g.same (h.get _))
  | failed g ht => exact .failed (g.same (h.get _)) ht
  | last g ht hl => exact .last (g.same (h.get _)) ht hl
  | more g ht hl hn _ ih => exact .more (g.same (h.get _)) ht hl hn ih

theorem OpenedFor.sameSecrets (h : SameSecrets E E') {all : Bool} {tried : Str → KeyPair C → Res (α × Bytes) → Prop} {kids : List Str}
    {r : Res (α × Str)} (hr : OpenedFor C E all tried kids r) : OpenedFor C E' all tried kids r := by
  cases hr with
  | manyDids g => exact .manyDids g
  | searchFailed g gf => exact .searchFailed g (h.find _ ▸ gf)
  | notOurs g gf => exact .notOurs g (h.find _ ▸ gf)
  | failed g gf ht => exact .failed g (h.find _ ▸ gf) (ht.sameSecrets h)
  | notText g gf ht hu => exact .notText g (h.find _ ▸ gf) (ht.sameSecrets h) hu
  | opened g gf ht hu => exact .opened g (h.find _ ▸ gf) (ht.sameSecrets h) hu

theorem AnonLayer.sameSecrets (h : SameSecrets E E') {all : Bool} {t : Str} {r : Res (Option (List Str × AnonCryptAlg × Str))}
    (hr : AnonLayer C E all t r) : AnonLayer C E' all t r := by
  cases hr with
  | notJwe g => exact .notJwe g
  | cutOff g => exact .cutOff g
  | badHeader g hh => exact .badHeader g hh
  | otherAlg g hh ha => exact .otherAlg g hh ha
  | misfit g hh ha hb => exact .misfit g hh ha hb
  | failed g hh ha hb ho => exact .failed g hh ha hb (ho.sameSecrets h)
  | opened g hh ha hb ho => exact .opened g hh ha hb (ho.sameSecrets h)

theorem SameSearch.ok {x y : Except ErrorKind (List Str)} (h : SameSearch x y) {l : List Str} (hx : x = .ok l) :
    ∃ l', y = .ok l' ∧ l'.isEmpty = l.isEmpty := by
  subst hx
  cases h with
  | found h => exact ⟨_, rfl, h.symm⟩

theorem SameSearch.symm {x y : Except ErrorKind (List Str)} (h : SameSearch x y) : SameSearch y x := by
  cases h with
  | failed k => exact .failed k
  | found h => exact .found h.symm

/-! ## The same keys -/

theorem SameKeys.symm {doc doc' : DIDDoc} (h : SameKeys doc doc') : SameKeys doc' doc :=
  ⟨fun k => (h.authentication k).symm, fun k => (h.keyAgreement k).symm, fun k => (h.methods k).symm⟩

theorem SameKeyDocs.symm (h : SameKeyDocs E E') : SameKeyDocs E' E where
  toSameSecrets := h.toSameSecrets.symm
  docs d := by
    have := h.docs d
    generalize E.resolve d = x at this
    generalize E'.resolve d = y at this
    cases this with
    | failed k => exact .failed k
    | unknown => exact .unknown
    | found h => exact .found h.symm
  ours d doc doc' h1 h2 := (h.ours d doc' doc h2 h1).symm

theorem SameKeyDocs.found (h : SameKeyDocs E E') {d : Str} {doc : DIDDoc} (hd : E.resolve d = .ok (some doc)) :
    ∃ doc', E'.resolve d = .ok (some doc') ∧ SameKeys doc doc' := by
  have := h.docs d
  rw [hd] at this
  generalize E'.resolve d = y at this
  cases this with
  | found h => exact ⟨_, rfl, h⟩

theorem SameKeyDocs.unknown (h : SameKeyDocs E E') {d : Str} (hd : E.resolve d = .ok none) : E'.resolve d = .ok none := by
  have := h.docs d
  rw [hd] at this
  generalize E'.resolve d = y at this
  cases this
  rfl

theorem SameKeyDocs.failed (h : SameKeyDocs E E') {d : Str} {k : ErrorKind} (hd : E.resolve d = .error k) : E'.resolve d = .error k := by
  have := h.docs d
  rw [hd] at this
  generalize E'.resolve d = y at this
  cases this
  rfl

theorem Document.sameKeys (h : SameKeyDocs E E') {d : Str} {r : Res DIDDoc} (hr : Document E d r) :
    (∀ e, r = .error e → Document E' d (.error e)) ∧ ∀ doc, r = .ok doc → ∃ doc', Document E' d (.ok doc') ∧ SameKeys doc doc' := by
  cases hr with
  | found g =>
    obtain ⟨doc', h1, h2⟩ := h.found g
    exact ⟨nofun, fun doc hd => by cases hd; exact ⟨doc', .found h1, h2⟩⟩
  | unknown g => exact ⟨fun e he => by cases he; exact .unknown (h.unknown g), nofun⟩
  | failed g => exact ⟨fun e he => by cases he; exact .failed (h.failed g), nofun⟩

theorem SignersKey.sameKeys {doc doc' : DIDDoc} (h : SameKeys doc doc') {kid : Str} {alg : JwsAlg} {r : Res (Curve × SigType × C.Key)}
    (hr : SignersKey C doc kid alg r) : SignersKey C doc' kid alg r := by
  have hm := h.methods kid
  have ha := h.authentication kid
  cases hr with
  | notListed g => exact .notListed fun g' => g (ha.2 g')
  | noMethod g g1 => exact .noMethod (ha.1 g) (hm ▸ g1)
  | unknownAlg g g1 g2 => exact .unknownAlg (ha.1 g) (hm ▸ g1) g2
  | otherType g g1 g2 g3 => exact .otherType (ha.1 g) (hm ▸ g1) g2 g3
  | unreadable g g1 g2 g3 g4 => exact .unreadable (ha.1 g) (hm ▸ g1) g2 g3 g4
  | key g g1 g2 g3 => exact .key (ha.1 g) (hm ▸ g1) g2 g3

theorem SignatureChecked.sameKeys (h : SameKeyDocs E E') {s : JwsSig} {hdr : JwsHeader} {pl : Str} {r : Res (SignAlg × Str)}
    (hr : SignatureChecked C E s hdr pl r) : SignatureChecked C E' s hdr pl r := by
  cases hr with
  | notKey g => exact .notKey g
  | noDocument g hd => exact .noDocument g ((hd.sameKeys h).1 _ rfl)
  | noKey g hd hk =>
    obtain ⟨doc', hd', hs⟩ := (hd.sameKeys h).2 _ rfl
    exact .noKey g hd' (hk.sameKeys hs)
  | notVerified g hd hk hv =>
    obtain ⟨doc', hd', hs⟩ := (hd.sameKeys h).2 _ rfl
    exact .notVerified g hd' (hk.sameKeys hs) hv
  | notText g hd hk hr hv hp =>
    obtain ⟨doc', hd', hs⟩ := (hd.sameKeys h).2 _ rfl
    exact .notText g hd' (hk.sameKeys hs) hr hv hp
  | verified g hd hk hsc hr hv hp hu =>
    obtain ⟨doc', hd', hs⟩ := (hd.sameKeys h).2 _ rfl
    exact .verified g hd' (hk.sameKeys hs) hsc hr hv hp hu

theorem SignLayer.sameKeys (h : SameKeyDocs E E') {t : Str} {r : Res (Option (Str × SignAlg × Str))}
    (hr : SignLayer C E t r) : SignLayer C E' t r := by
  cases hr with
  | notJws g => exact .notJws g
  | cutOff g => exact .cutOff g
  | badHeader g hh => exact .badHeader g hh
  | notOne g hh hn => exact .notOne g hh hn
  | failed g hh hc => exact .failed g hh (hc.sameKeys h)
  | signed g hh hc => exact .signed g hh (hc.sameKeys h)

theorem PriorRead.sameKeys (h : SameKeyDocs E E') {jwt : Str} {r : Res (FromPrior × Str)} (hr : PriorRead C E jwt r) :
    PriorRead C E' jwt r := by
  cases hr with
  | notJwt g => exact .notJwt g
  | noDocument g hd => exact .noDocument g ((hd.sameKeys h).1 _ rfl)
  | noKey g hd hk =>
    obtain ⟨doc', hd', hs⟩ := (hd.sameKeys h).2 _ rfl
    exact .noKey g hd' (hk.sameKeys hs)
  | notVerified g hd hk hv =>
    obtain ⟨doc', hd', hs⟩ := (hd.sameKeys h).2 _ rfl
    exact .notVerified g hd' (hk.sameKeys hs) hv
  | notClaims g hd hk hr hv hp =>
    obtain ⟨doc', hd', hs⟩ := (hd.sameKeys h).2 _ rfl
    exact .notClaims g hd' (hk.sameKeys hs) hr hv hp
  | read g hd hk hr hv hp hu hc =>
    obtain ⟨doc', hd', hs⟩ := (hd.sameKeys h).2 _ rfl
    exact .read g hd' (hk.sameKeys hs) hr hv hp hu hc

theorem PlainLayer.sameKeys (h : SameKeyDocs E E') {t : Str} {r : Res (Message × Option (FromPrior × Str))}
    (hr : PlainLayer C E t r) : PlainLayer C E' t r := by
  cases hr with
  | notMessage g => exact .notMessage g
  | cutOff g => exact .cutOff g
  | otherTyp g ht => exact .otherTyp g ht
  | plain g ht hp => exact .plain g ht hp
  | badPrior g ht hp hr => exact .badPrior g ht hp (hr.sameKeys h)
  | prior g ht hp hr => exact .prior g ht hp (hr.sameKeys h)

theorem SendersKey.sameKeys (h : SameKeyDocs E E') {kid : Str} {r : Res (KeyPair C)} (hr : SendersKey C E kid r) :
    SendersKey C E' kid r := by
  cases hr with
  | failed g => exact .failed (h.failed g)
  | unknown g => exact .unknown (h.unknown g)
  | notListed g hl =>
    obtain ⟨doc', hd', hs⟩ := h.found g
    exact .notListed hd' fun g' => hl ((hs.keyAgreement _).2 g')
  | noMethod g hl hm =>
    obtain ⟨doc', hd', hs⟩ := h.found g
    exact .noMethod hd' ((hs.keyAgreement _).1 hl) (hs.methods _ ▸ hm)
  | read g hl hm hr =>
    obtain ⟨doc', hd', hs⟩ := h.found g
    exact .read hd' ((hs.keyAgreement _).1 hl) (hs.methods _ ▸ hm) hr

theorem AuthOpened.sameKeys (h : SameKeyDocs E E') {all : Bool} {j : JWE} {hdr : JweHeader} {apv : Bytes} {apu : Option Bytes}
    {r : Res (Str × AuthCryptAlg × Str)} (hr : AuthOpened C E all j hdr apv apu r) : AuthOpened C E' all j hdr apv apu r := by
  cases hr with
  | noSender => exact .noSender
  | senderNotKey g => exact .senderNotKey g
  | noKey g hk => exact .noKey g (hk.sameKeys h)
  | failed g hk ho => exact .failed g (hk.sameKeys h) (ho.sameSecrets h.toSameSecrets)
  | opened g hk ho => exact .opened g (hk.sameKeys h) (ho.sameSecrets h.toSameSecrets)

theorem AuthLayer.sameKeys (h : SameKeyDocs E E') {all : Bool} {t : Str} {r : Res (Option (List Str × Str × AuthCryptAlg × Str))}
    (hr : AuthLayer C E all t r) : AuthLayer C E' all t r := by
  cases hr with
  | notJwe g => exact .notJwe g
  | cutOff g => exact .cutOff g
  | badHeader g hh => exact .badHeader g hh
  | otherAlg g hh ha => exact .otherAlg g hh ha
  | misfit g hh ha hb => exact .misfit g hh ha hb
  | failed g hh ha hb ho => exact .failed g hh ha hb (ho.sameKeys h)
  | opened g hh ha hb ho => exact .opened g hh ha hb (ho.sameKeys h)

theorem Ours.sameKeys (h : SameKeyDocs E E') {next : Str} {r : Res Bool} (hr : Ours E next r) : Ours E' next r := by
  cases hr with
  | key g gf => exact .key g (h.find _ ▸ gf)
  | keyFailed g gf => exact .keyFailed g (h.find _ ▸ gf)
  | noDocument g hd => exact .noDocument g ((hd.sameKeys h).1 _ rfl)
  | did g hd gf =>
    obtain ⟨doc', hd', -⟩ := (hd.sameKeys h).2 _ rfl
    cases hd with | found g1 =>
    cases hd' with | found g2 =>
    obtain ⟨l', hl, he⟩ := (h.ours _ _ _ g1 g2).ok gf
    rw [← he]
    exact .did g (.found g2) hl
  | didFailed g hd gf =>
    obtain ⟨doc', hd', -⟩ := (hd.sameKeys h).2 _ rfl
    cases hd with | found g1 =>
    cases hd' with | found g2 =>
    have hs := h.ours _ _ _ g1 g2
    rw [gf] at hs
    refine .didFailed g (.found g2) ?_
    generalize E'.findSecrets doc'.keyAgreement = y at hs
    cases hs
    rfl

theorem Unwraps.sameKeys (h : SameKeyDocs E E') {opts : UnpackOptions} {t : Str} {md : UnpackMetadata}
    {r : Res (Str × UnpackMetadata)} (hr : Unwraps C E opts t md r) : Unwraps C E' opts t md r := by
  have hi : ∀ {u : Str} {x : Res (Option (List Str × AnonCryptAlg × Str))}, AnonLayer C E opts.expectDecryptByAllKeys u x →
      AnonLayer C E' opts.expectDecryptByAllKeys u x := fun g => g.sameSecrets h.toSameSecrets
  have hw : ∀ {u : Str} {x : Res (Option Str)}, ForwardInside C E u x → ForwardInside C E' u x :=
    fun g => g.sameOurs fun _ _ _ _ _ _ => Ours.sameKeys h
  induction hr with
  | failed g => exact .failed (hi g)
  | none g => exact .none (hi g)
  | notAsked g hu => exact .notAsked (hi g) hu
  | forwardFailed g hu hf => exact .forwardFailed (hi g) hu (hw hf)
  | last g hu hf => exact .last (hi g) hu (hw hf)
  | again g hu hf _ ih => exact .again (hi g) hu (hw hf) ih

theorem Unpacked.sameKeys (h : SameKeyDocs E E') {opts : UnpackOptions} {t : Str} {r : Res (Message × UnpackMetadata)}
    (hr : Unpacked C E opts t r) : Unpacked C E' opts t r := by
  cases hr with
  | unwrapFailed g => exact .unwrapFailed (g.sameKeys h)
  | authFailed g ha => exact .authFailed (g.sameKeys h) (ha.sameKeys h)
  | signFailed g ha hs => exact .signFailed (g.sameKeys h) (ha.sameKeys h) (hs.sameKeys h)
  | plainFailed g ha hs hp => exact .plainFailed (g.sameKeys h) (ha.sameKeys h) (hs.sameKeys h) (hp.sameKeys h)
  | unpacked g ha hs hp => exact .unpacked (g.sameKeys h) (ha.sameKeys h) (hs.sameKeys h) (hp.sameKeys h)

/-! ## Keys that are kept, and keys that are gone -/

variable {lost : Str → Prop}

theorem StillThere.oursStill (h : StillThere E E') {next : Str} {b : Bool} (hr : Ours E next (.ok b)) : Ours E' next (.ok b) := by
  cases hr with
  | key g gf => exact .key g (h.find _ ▸ gf)
  | did g hd gf =>
    cases hd with | found g1 =>
    obtain ⟨doc', g2⟩ := h.docs _ _ g1
    obtain ⟨l', hl, he⟩ := (h.ours _ _ _ g1 g2).ok gf
    rw [← he]
    exact .did g (.found g2) hl

theorem StillThere.forwardStill (h : StillThere E E') {t : Str} {x : Option Str} (hr : ForwardInside C E t (.ok x)) :
    ForwardInside C E' t (.ok x) := by
  cases hr with
  | notMessage g => exact .notMessage g
  | notForward g hn => exact .notForward g hn
  | others g hf ho => exact .others g hf (h.oursStill ho)
  | ours g hf ho => exact .ours g hf (h.oursStill ho)

theorem StillThere.unwrapsStill (h : StillThere E E') {opts : UnpackOptions} {t : Str} {md : UnpackMetadata}
    {r : Res (Str × UnpackMetadata)} (hr : Unwraps C E opts t md r) : ∀ {x}, r = .ok x → Unwraps C E' opts t md (.ok x) := by
  have hi : ∀ {u : Str} {x : Res (Option (List Str × AnonCryptAlg × Str))}, AnonLayer C E opts.expectDecryptByAllKeys u x →
      AnonLayer C E' opts.expectDecryptByAllKeys u x := fun g => g.sameSecrets h.toSameSecrets
  intro x hx
  induction hr with
  | failed g => cases hx
  | none g => cases hx; exact .none (hi g)
  | notAsked g hu => cases hx; exact .notAsked (hi g) hu
  | forwardFailed g hu hf => cases hx
  | last g hu hf => cases hx; exact .last (hi g) hu (h.forwardStill hf)
  | again g hu hf _ ih => exact .again (hi g) hu (h.forwardStill hf) (ih hx)

/-- An envelope of a named sender whose key is kept. -/
theorem AuthLayer.kept (h : StillThere E E') (hk : KeysKept DIDDoc.keyAgreement lost E E') {all : Bool} {t : Str}
    {x : Option (List Str × Str × AuthCryptAlg × Str)} (hg : ∀ kids kid alg u, x = some (kids, kid, alg, u) → ¬ lost kid)
    (hr : AuthLayer C E all t (.ok x)) : AuthLayer C E' all t (.ok x) := by
  cases hr with
  | notJwe g => exact .notJwe g
  | otherAlg g hh ha => exact .otherAlg g hh ha
  | opened g hh ha hb ho =>
    refine .opened g hh ha hb ?_
    cases ho with
    | opened g1 g2 g3 =>
      refine .opened g1 ?_ (g3.sameSecrets h.toSameSecrets)
      cases g2 with
      | read hd hl hm hr =>
        obtain ⟨doc', hd'⟩ := h.docs _ _ hd
        obtain ⟨k1, k2⟩ := hk _ _ _ hd hd' _ hl (hg _ _ _ _ rfl)
        exact .read hd' k1 (k2 _ hm) hr

/-- An envelope of a named sender whose key is not listed any more. -/
theorem AuthLayer.gone {all : Bool} {t : Str} {kids : List Str} {kid : Str} {alg : AuthCryptAlg} {u : Str} {doc' : DIDDoc}
    (hd : E'.resolve (didOf kid) = .ok (some doc')) (hl : kid ∉ doc'.keyAgreement)
    (hr : AuthLayer C E all t (.ok (some (kids, kid, alg, u)))) : AuthLayer C E' all t (.error (.kind .didUrlNotFound)) := by
  cases hr with
  | opened g hh ha hb ho =>
    cases ho with
    | opened g1 g2 g3 => exact .failed g hh ha hb (.noKey g1 (.notListed hd hl))

theorem SignersKey.kept {doc doc' : DIDDoc} {kid : Str} {alg : JwsAlg} {x : Curve × SigType × C.Key}
    (h : kid ∈ doc.authentication → kid ∈ doc'.authentication ∧ ∀ vm, methodOf doc kid = some vm → methodOf doc' kid = some vm)
    (hr : SignersKey C doc kid alg (.ok x)) : SignersKey C doc' kid alg (.ok x) := by
  cases hr with
  | key g g1 g2 g3 => exact .key (h g).1 ((h g).2 _ g1) g2 g3

theorem Document.still (h : StillThere E E') {d : Str} {doc : DIDDoc} (hr : Document E d (.ok doc)) :
    ∃ doc', E.resolve d = .ok (some doc) ∧ E'.resolve d = .ok (some doc') := by
  cases hr with
  | found g =>
    obtain ⟨doc', g'⟩ := h.docs _ _ g
    exact ⟨doc', g, g'⟩

/-- A signature whose key is kept. -/
theorem SignLayer.kept (h : StillThere E E') (hk : KeysKept DIDDoc.authentication lost E E') {t : Str} {x : Option (Str × SignAlg × Str)}
    (hg : ∀ kid alg u, x = some (kid, alg, u) → ¬ lost kid) (hr : SignLayer C E t (.ok x)) : SignLayer C E' t (.ok x) := by
  cases hr with
  | notJws g => exact .notJws g
  | signed g hh hc =>
    refine .signed g hh ?_
    cases hc with
    | verified g1 hd hk' hs hr hv hp hu =>
      obtain ⟨doc', h1, h2⟩ := hd.still h
      exact .verified g1 (.found h2) (hk'.kept fun hl => hk _ _ _ h1 h2 _ hl (hg _ _ _ rfl)) hs hr hv hp hu

/-- A signature whose key is not listed any more. -/
theorem SignLayer.gone {t : Str} {kid : Str} {alg : SignAlg} {u : Str} {doc' : DIDDoc}
    (hd : E'.resolve (didOf kid) = .ok (some doc')) (hl : kid ∉ doc'.authentication)
    (hr : SignLayer C E t (.ok (some (kid, alg, u)))) : SignLayer C E' t (.error (.kind .didUrlNotFound)) := by
  cases hr with
  | signed g hh hc =>
    cases hc with
    | verified g1 _ _ _ _ _ _ _ => exact .failed g hh (.noKey g1 (.found hd) (.notListed hl))

/-- A message with prior-DID claims whose key is kept. -/
theorem PlainLayer.kept (h : StillThere E E') (hk : KeysKept DIDDoc.authentication lost E E') {t : Str} {m : Message}
    {p : Option (FromPrior × Str)} (hg : ∀ fp kid, p = some (fp, kid) → ¬ lost kid) (hr : PlainLayer C E t (.ok (m, p))) :
    PlainLayer C E' t (.ok (m, p)) := by
  cases hr with
  | plain g ht hp => exact .plain g ht hp
  | prior g ht hp hr =>
    refine .prior g ht hp ?_
    cases hr with
    | read g1 hd hk' hr hv hp hu hc =>
      obtain ⟨doc', h1, h2⟩ := hd.still h
      exact .read g1 (.found h2) (hk'.kept fun hl => hk _ _ _ h1 h2 _ hl (hg _ _ rfl)) hr hv hp hu hc

/-- A message with prior-DID claims whose key is not listed any more. -/
theorem PlainLayer.gone {t : Str} {m : Message} {fp : FromPrior} {kid : Str} {doc' : DIDDoc}
    (hd : E'.resolve (didOf kid) = .ok (some doc')) (hl : kid ∉ doc'.authentication)
    (hr : PlainLayer C E t (.ok (m, some (fp, kid)))) : PlainLayer C E' t (.error (.kind .didUrlNotFound)) := by
  cases hr with
  | prior g ht hp hr =>
    cases hr with
    | read g1 _ _ _ _ _ _ _ => exact .badPrior g ht hp (.noKey g1 (.found hd) (.notListed hl))

/-- Envelopes without a named sender and forwards say nothing about senders and signers. -/
theorem Unwraps.silent {opts : UnpackOptions} {t : Str} {md : UnpackMetadata} {r : Res (Str × UnpackMetadata)}
    (hr : Unwraps C E opts t md r) : ∀ {x}, r = .ok x → x.2.signFrom = md.signFrom ∧ x.2.encryptedFromKid = md.encryptedFromKid ∧
      x.2.fromPriorIssuerKid = md.fromPriorIssuerKid := by
  intro x hx
  induction hr with
  | failed g => cases hx
  | none g => cases hx; exact ⟨rfl, rfl, rfl⟩
  | notAsked g hu => cases hx; exact ⟨rfl, rfl, rfl⟩
  | forwardFailed g hu hf => cases hx
  | last g hu hf => cases hx; exact ⟨rfl, rfl, rfl⟩
  | again g hu hf _ ih => exact ih hx

/-- The layers of what was unpacked, and the keys that are reported for them. -/
theorem Unpacked.layers {opts : UnpackOptions} {t : Str} {m : Message} {md : UnpackMetadata} (hr : Unpacked C E opts t (.ok (m, md))) :
    ∃ u md0 a s p, Unwraps C E opts t {} (.ok (u, md0)) ∧ AuthLayer C E opts.expectDecryptByAllKeys u (.ok a) ∧
      SignLayer C E (pastAuth u md0 a).1 (.ok s) ∧ PlainLayer C E (pastSign (pastAuth u md0 a).1 (pastAuth u md0 a).2 s).1 (.ok (m, p)) ∧
      md = (pastSign (pastAuth u md0 a).1 (pastAuth u md0 a).2 s).2.seePrior p ∧
      md.encryptedFromKid = a.map (fun x => x.2.1) ∧ md.signFrom = s.map (fun x => x.1) ∧ md.fromPriorIssuerKid = p.map (fun x => x.2) := by
  cases hr with
  | @unpacked u md0 a s _ p h ha hs hp =>
    obtain ⟨e1, e2, e3⟩ := h.silent rfl
    refine ⟨u, md0, a, s, p, h, ha, hs, hp, rfl, ?_⟩
    rcases a with _ | ⟨_, _, _, _⟩ <;> rcases s with _ | ⟨_, _, _⟩ <;> rcases p with _ | ⟨_, _⟩ <;>
      simp_all [pastAuth, pastSign, UnpackMetadata.seePrior, UnpackMetadata.seeAuth, UnpackMetadata.seeSign]

end DIDComm
