import Verif.Spec.Devices
import Verif.Proofs.Agree
import Verif.Props.ThirdParty

/-! # Lemmas about receivers with different secrets -/

set_option autoImplicit false

namespace DIDComm

variable {C : Crypto} {E E' : Env} {α : Type}

theorem SameFirst.symm (h : SameFirst E E') : SameFirst E' E := by
  refine ⟨fun d => (h.docs d).symm, fun kids => ?_, fun kids kid rest hf => ?_⟩
  · have := h.found kids
    generalize E.findSecrets kids = x at this
    generalize E'.findSecrets kids = y at this
    cases this
    · exact .failed _
    · exact .nothing
    · exact .first _ _ _
  · have hs := h.found kids
    rw [hf] at hs
    generalize hx : E.findSecrets kids = x at hs
    cases hs
    exact (h.secret kids kid _ hx).symm

/-! ## What depends on documents only -/

theorem Document.docs (h : ∀ d, E.resolve d = E'.resolve d) {d : Str} {r : Res DIDDoc} (hr : Document E d r) : Document E' d r := by
  cases hr with
  | found g => exact .found (by rw [← h, g])
  | unknown g => exact .unknown (by rw [← h, g])
  | failed g => exact .failed (by rw [← h, g])

theorem SignatureChecked.docs (h : ∀ d, E.resolve d = E'.resolve d) {s : JwsSig} {hdr : JwsHeader} {pl : Str} {r : Res (SignAlg × Str)}
    (hr : SignatureChecked C E s hdr pl r) : SignatureChecked C E' s hdr pl r := by
  cases hr with
  | notKey g => exact .notKey g
  | noDocument g hd => exact .noDocument g (hd.docs h)
  | noKey g hd hk => exact .noKey g (hd.docs h) hk
  | notVerified g hd hk hv => exact .notVerified g (hd.docs h) hk hv
  | notText g hd hk hr hv hp => exact .notText g (hd.docs h) hk hr hv hp
  | verified g hd hk hs hr hv hp hu => exact .verified g (hd.docs h) hk hs hr hv hp hu

theorem SignLayer.docs (h : ∀ d, E.resolve d = E'.resolve d) {t : Str} {r : Res (Option (Str × SignAlg × Str))}
    (hr : SignLayer C E t r) : SignLayer C E' t r := by
  cases hr with
  | notJws g => exact .notJws g
  | cutOff g => exact .cutOff g
  | badHeader g hh => exact .badHeader g hh
  | notOne g hh hn => exact .notOne g hh hn
  | failed g hh hc => exact .failed g hh (hc.docs h)
  | signed g hh hc => exact .signed g hh (hc.docs h)

theorem PriorRead.docs (h : ∀ d, E.resolve d = E'.resolve d) {jwt : Str} {r : Res (FromPrior × Str)} (hr : PriorRead C E jwt r) :
    PriorRead C E' jwt r := by
  cases hr with
  | notJwt g => exact .notJwt g
  | noDocument g hd => exact .noDocument g (hd.docs h)
  | noKey g hd hk => exact .noKey g (hd.docs h) hk
  | notVerified g hd hk hv => exact .notVerified g (hd.docs h) hk hv
  | notClaims g hd hk hr hv hp => exact .notClaims g (hd.docs h) hk hr hv hp
  | read g hd hk hr hv hp hu hc => exact .read g (hd.docs h) hk hr hv hp hu hc

theorem PlainLayer.docs (h : ∀ d, E.resolve d = E'.resolve d) {t : Str} {r : Res (Message × Option (FromPrior × Str))}
    (hr : PlainLayer C E t r) : PlainLayer C E' t r := by
  cases hr with
  | notMessage g => exact .notMessage g
  | cutOff g => exact .cutOff g
  | otherTyp g ht => exact .otherTyp g ht
  | plain g ht hp => exact .plain g ht hp
  | badPrior g ht hp hr => exact .badPrior g ht hp (hr.docs h)
  | prior g ht hp hr => exact .prior g ht hp (hr.docs h)

theorem SendersKey.docs (h : ∀ d, E.resolve d = E'.resolve d) {kid : Str} {r : Res (KeyPair C)} (hr : SendersKey C E kid r) :
    SendersKey C E' kid r := by
  cases hr with
  | failed g => exact .failed (by rw [← h, g])
  | unknown g => exact .unknown (by rw [← h, g])
  | notListed g hl => exact .notListed (by rw [← h, g]) hl
  | noMethod g hl hm => exact .noMethod (by rw [← h, g]) hl hm
  | read g hl hm hr => exact .read (by rw [← h, g]) hl hm hr

/-! ## The first key -/

theorem OurSecret.same {kid : Str} (h : E.getSecret kid = E'.getSecret kid) {r : Res (KeyPair C)} (hr : OurSecret C E kid r) :
    OurSecret C E' kid r := by
  cases hr with
  | failed g => exact .failed (by rw [← h, g])
  | gone g => exact .gone (by rw [← h, g])
  | read g hr => exact .read (by rw [← h, g]) hr

theorem TriedKeys.sameFirst {tried : Str → KeyPair C → Res α → Prop} {kid : Str} {rest rest' : List Str} {r : Res α}
    (h : E.getSecret kid = E'.getSecret kid) (hr : TriedKeys C E false tried (kid :: rest) r) :
    TriedKeys C E' false tried (kid :: rest') r := by
  cases hr with
  | noSecret g => exact .noSecret (g.same h)
  | failed g ht => exact .failed (g.same h) ht
  | last g ht hl => exact .last (g.same h) ht (.inl rfl)
  | more _ _ hl => cases hl

theorem OpenedFor.sameFirst {tried : Str → KeyPair C → Res (α × Bytes) → Prop} {kids : List Str} {r : Res (α × Str)}
    (h : SameFirst E E') (hr : OpenedFor C E false tried kids r) : OpenedFor C E' false tried kids r := by
  have hf := h.found kids
  generalize hx : E.findSecrets kids = x at hf
  generalize hy : E'.findSecrets kids = y at hf
  cases hr with
  | manyDids g => exact .manyDids g
  | searchFailed g gf =>
    rw [hx] at gf; subst gf
    cases hf
    exact .searchFailed g hy
  | notOurs g gf =>
    rw [hx] at gf; subst gf
    cases hf
    exact .notOurs g hy
  | failed g gf ht =>
    rw [hx] at gf; subst gf
    cases hf with
    | nothing => cases ht
    | first kid rest rest' => exact .failed g hy (ht.sameFirst (h.secret kids kid rest hx))
  | notText g gf ht hu =>
    rw [hx] at gf; subst gf
    cases hf with
    | nothing => cases ht
    | first kid rest rest' => exact .notText g hy (ht.sameFirst (h.secret kids kid rest hx)) hu
  | opened g gf ht hu =>
    rw [hx] at gf; subst gf
    cases hf with
    | nothing => cases ht
    | first kid rest rest' => exact .opened g hy (ht.sameFirst (h.secret kids kid rest hx)) hu

theorem AnonLayer.sameFirst {t : Str} {r : Res (Option (List Str × AnonCryptAlg × Str))} (h : SameFirst E E')
    (hr : AnonLayer C E false t r) : AnonLayer C E' false t r := by
  cases hr with
  | notJwe g => exact .notJwe g
  | cutOff g => exact .cutOff g
  | badHeader g hh => exact .badHeader g hh
  | otherAlg g hh ha => exact .otherAlg g hh ha
  | misfit g hh ha hb => exact .misfit g hh ha hb
  | failed g hh ha hb ho => exact .failed g hh ha hb (ho.sameFirst h)
  | opened g hh ha hb ho => exact .opened g hh ha hb (ho.sameFirst h)

theorem AuthOpened.sameFirst {j : JWE} {hdr : JweHeader} {apv : Bytes} {apu : Option Bytes} {r : Res (Str × AuthCryptAlg × Str)}
    (h : SameFirst E E') (hr : AuthOpened C E false j hdr apv apu r) : AuthOpened C E' false j hdr apv apu r := by
  cases hr with
  | noSender => exact .noSender
  | senderNotKey g => exact .senderNotKey g
  | noKey g hk => exact .noKey g (hk.docs h.docs)
  | failed g hk ho => exact .failed g (hk.docs h.docs) (ho.sameFirst h)
  | opened g hk ho => exact .opened g (hk.docs h.docs) (ho.sameFirst h)

theorem AuthLayer.sameFirst {t : Str} {r : Res (Option (List Str × Str × AuthCryptAlg × Str))} (h : SameFirst E E')
    (hr : AuthLayer C E false t r) : AuthLayer C E' false t r := by
  cases hr with
  | notJwe g => exact .notJwe g
  | cutOff g => exact .cutOff g
  | badHeader g hh => exact .badHeader g hh
  | otherAlg g hh ha => exact .otherAlg g hh ha
  | misfit g hh ha hb => exact .misfit g hh ha hb
  | failed g hh ha hb ho => exact .failed g hh ha hb (ho.sameFirst h)
  | opened g hh ha hb ho => exact .opened g hh ha hb (ho.sameFirst h)

theorem SameFirst.error (h : SameFirst E E') {kids : List Str} {k : ErrorKind} (hk : E.findSecrets kids = .error k) :
    E'.findSecrets kids = .error k := by
  have hf := h.found kids
  rw [hk] at hf
  generalize E'.findSecrets kids = y at hf
  cases hf
  rfl

theorem SameFirst.empty (h : SameFirst E E') {kids found : List Str} (hk : E.findSecrets kids = .ok found) :
    ∃ found', E'.findSecrets kids = .ok found' ∧ found'.isEmpty = found.isEmpty := by
  have hf := h.found kids
  rw [hk] at hf
  generalize E'.findSecrets kids = y at hf
  cases hf
  · exact ⟨[], rfl, rfl⟩
  · exact ⟨_, rfl, rfl⟩

theorem Ours.sameFirst {next : Str} {r : Res Bool} (h : SameFirst E E') (hr : Ours E next r) : Ours E' next r := by
  cases hr with
  | key g gf =>
    obtain ⟨found', hf, he⟩ := h.empty gf
    rw [← he]; exact .key g hf
  | keyFailed g gf => exact .keyFailed g (h.error gf)
  | noDocument g hd => exact .noDocument g (hd.docs h.docs)
  | did g hd gf =>
    obtain ⟨found', hf, he⟩ := h.empty gf
    rw [← he]; exact .did g (hd.docs h.docs) hf
  | didFailed g hd gf => exact .didFailed g (hd.docs h.docs) (h.error gf)

theorem ForwardInside.sameOurs {t : Str} {r : Res (Option Str)}
    (h : ∀ m next v r, fromJson (dMessage C.f64) t = .ok m → IsForward m next v → Ours E next r → Ours E' next r) (hr : ForwardInside C E t r) :
    ForwardInside C E' t r := by
  cases hr with
  | notMessage g => exact .notMessage g
  | cutOff g => exact .cutOff g
  | notForward g hn => exact .notForward g hn
  | failed g hf ho => cases g with | one g => exact .failed (.one g) hf (h _ _ _ _ g hf ho)
  | others g hf ho => cases g with | one g => exact .others (.one g) hf (h _ _ _ _ g hf ho)
  | ours g hf ho => cases g with | one g => exact .ours (.one g) hf (h _ _ _ _ g hf ho)

theorem Unwraps.sameFirst {opts : UnpackOptions} (ho : opts.expectDecryptByAllKeys = false) {t : Str} {md : UnpackMetadata}
    {r : Res (Str × UnpackMetadata)} (h : SameFirst E E') (hr : Unwraps C E opts t md r) : Unwraps C E' opts t md r := by
  have hi : ∀ {u : Str} {x : Res (Option (List Str × AnonCryptAlg × Str))}, AnonLayer C E opts.expectDecryptByAllKeys u x →
      AnonLayer C E' opts.expectDecryptByAllKeys u x := by
    rw [ho]; exact fun g => g.sameFirst h
  have hw : ∀ {u : Str} {x : Res (Option Str)}, ForwardInside C E u x → ForwardInside C E' u x :=
    fun g => g.sameOurs fun _ _ _ _ _ _ => Ours.sameFirst h
  induction hr with
  | failed g => exact .failed (hi g)
  | none g => exact .none (hi g)
  | notAsked g hu => exact .notAsked (hi g) hu
  | forwardFailed g hu hf => exact .forwardFailed (hi g) hu (hw hf)
  | last g hu hf => exact .last (hi g) hu (hw hf)
  | again g hu hf _ ih => exact .again (hi g) hu (hw hf) ih

theorem Unpacked.sameFirst {opts : UnpackOptions} (ho : opts.expectDecryptByAllKeys = false) {t : Str}
    {r : Res (Message × UnpackMetadata)} (h : SameFirst E E') (hr : Unpacked C E opts t r) : Unpacked C E' opts t r := by
  have hi : ∀ {u : Str} {x : Res (Option (List Str × Str × AuthCryptAlg × Str))}, AuthLayer C E opts.expectDecryptByAllKeys u x →
      AuthLayer C E' opts.expectDecryptByAllKeys u x := by
    rw [ho]; exact fun g => g.sameFirst h
  cases hr with
  | unwrapFailed g => exact .unwrapFailed (g.sameFirst ho h)
  | authFailed g ha => exact .authFailed (g.sameFirst ho h) (hi ha)
  | signFailed g ha hs => exact .signFailed (g.sameFirst ho h) (hi ha) (hs.docs h.docs)
  | plainFailed g ha hs hp => exact .plainFailed (g.sameFirst ho h) (hi ha) (hs.docs h.docs) (hp.docs h.docs)
  | unpacked g ha hs hp => exact .unpacked (g.sameFirst ho h) (hi ha) (hs.docs h.docs) (hp.docs h.docs)

/-! ## A device with some of the keys -/

theorem TriedKeys.each {tried : Str → KeyPair C → Res α → Prop} {l : List Str} {a : α} {r : Res α} (h : TriedKeys C E true tried l r)
    (hr : r = .ok a) : ∀ kid ∈ l, ∃ p y, OurSecret C E kid (.ok p) ∧ tried kid p (.ok y) := by
  induction h with
  | noSecret | failed => cases hr
  | last h ht hl =>
    rcases hl with hl | rfl
    · cases hl
    · intro kid hk
      obtain rfl := List.mem_singleton.1 hk
      exact ⟨_, _, h, ht⟩
  | more h ht _ _ _ ih =>
    intro kid hk
    rcases List.mem_cons.1 hk with rfl | hk
    · exact ⟨_, _, h, ht⟩
    · exact ih hr kid hk

theorem TriedKeys.of_each {tried : Str → KeyPair C → Res α → Prop} {all : Bool} {a : α} :
    ∀ l : List Str, l ≠ [] → (∀ kid ∈ l, ∃ p, OurSecret C E kid (.ok p) ∧ tried kid p (.ok a)) → TriedKeys C E all tried l (.ok a)
  | [], h, _ => absurd rfl h
  | [kid], _, h => by
    obtain ⟨p, h1, h2⟩ := h kid (List.mem_singleton.2 rfl)
    exact .last h1 h2 (.inr rfl)
  | kid :: kid' :: rest, _, h => by
    obtain ⟨p, h1, h2⟩ := h kid (List.mem_cons_self ..)
    cases all with
    | false => exact .last h1 h2 (.inl rfl)
    | true => exact .more h1 h2 rfl nofun (TriedKeys.of_each (kid' :: rest) nofun fun k hk => h k (List.mem_cons_of_mem _ hk))

theorem OpenedFor.device {tried : Str → KeyPair C → Res (α × Bytes) → Prop} {kids : List Str} {x : α × Str} {all : Bool}
    (hd : DeviceOf E' E) (ht : ∀ kid kid' p p' y y', tried kid p (.ok y) → tried kid' p' (.ok y') → y = y')
    (h : OpenedFor C E true tried kids (.ok x)) :
    OpenedFor C E' all tried kids (.ok x) ∨ OpenedFor C E' all tried kids (.error (.kind .secretNotFound)) := by
  cases h with
  | opened h1 h2 h3 h4 =>
    obtain ⟨found', hf, hk⟩ := hd.found _ _ h2
    obtain ⟨kid0, p0, g0⟩ := h3.one rfl
    by_cases he : found' = []
    · subst he; exact .inr (.notOurs h1 hf)
    · refine .inl (.opened h1 hf (TriedKeys.of_each _ he fun kid hkid => ?_) h4)
      obtain ⟨hm, hs⟩ := hk kid hkid
      obtain ⟨p, y, g1, g2⟩ := h3.each rfl kid hm
      cases ht _ _ _ _ _ _ g2 g0
      exact ⟨p, g1.same hs.symm, g2⟩

theorem AnonLayer.device {t : Str} {x : Option (List Str × AnonCryptAlg × Str)} {all : Bool} (hd : DeviceOf E' E)
    (hc : ∀ ce, CommitsTo C ce) (h : AnonLayer C E true t (.ok x)) :
    AnonLayer C E' all t (.ok x) ∨ AnonLayer C E' all t (.error (.kind .secretNotFound)) := by
  cases h with
  | notJwe h => exact .inl (.notJwe h)
  | otherAlg h hh ha => exact .inl (.otherAlg h hh ha)
  | opened h hh ha hb ho =>
    rcases ho.device (all := all) hd fun _ _ _ _ _ _ => TriedAnon.agree hc with g | g
    · exact .inl (.opened h hh ha hb g)
    · exact .inr (.failed h hh ha hb g)

theorem SendersKey.seen (hd : SeesDocsOf E' E) {kid : Str} {p : KeyPair C} (h : SendersKey C E kid (.ok p)) :
    SendersKey C E' kid (.ok p) := by
  cases h with
  | read h hl hm hr => exact .read (hd _ _ h) hl hm hr

theorem AuthLayer.device {t : Str} {x : Option (List Str × Str × AuthCryptAlg × Str)} {all : Bool} (hd : DeviceOf E' E)
    (hc : ∀ ce, CommitsTo C ce) (h : AuthLayer C E true t (.ok x)) :
    AuthLayer C E' all t (.ok x) ∨ AuthLayer C E' all t (.error (.kind .secretNotFound)) := by
  cases h with
  | notJwe h => exact .inl (.notJwe h)
  | otherAlg h hh ha => exact .inl (.otherAlg h hh ha)
  | opened h hh ha hb ho =>
    cases ho with
    | opened g1 g2 g3 =>
      rcases g3.device (all := all) hd fun _ _ _ _ _ _ => TriedAuth.agree (hc _) with g | g
      · exact .inl (.opened h hh ha hb (.opened g1 (g2.seen hd.docs) g))
      · exact .inr (.failed h hh ha hb (.failed g1 (g2.seen hd.docs) g))

/-- What was opened with the first key is inside. -/
theorem AnonLayer.within {t : Str} {kids : List Str} {alg : AnonCryptAlg} {u : Str}
    (h : AnonLayer C E false t (.ok (some (kids, alg, u)))) : Within C t u := by
  cases h with
  | opened h hh ha hb ho =>
    cases h with | one h =>
    rename_i j hdr apu apv
    cases ho with
    | opened ho hf ht hu =>
      obtain ⟨kid, p, htr⟩ := ht.one rfl
      cases htr with
      | opened hc he hap hd =>
        subst hap
        cases hd with
        | opened e1 e2 e3 e4 e5 e6 e7 e8 e9 =>
          have hr := List.mem_of_find?_eq_some e1
          have hkid := List.find?_some e1
          have hskid : hdr.skid = none := by
            rcases hb.2 with ⟨_, h⟩ | ⟨_, h, _⟩
            · exact h
            · cases h
          have hread : ReadsJwe C t j hdr none apv := by
            cases hh with
            | anonymous h1 h2 h3 =>
              cases h1 with
              | json h4 h5 => exact ⟨h, ⟨_, h4, h5⟩, .inl ⟨h3, rfl⟩, h2⟩
          exact .anon (c := p.curve) (kid := kid) (rkey := p.key) ⟨j, hdr, apv, _, _, _, _, hread, ha, hskid, he, rfl, hb.1, e3, e5,
            _, _, _, _, _, hr, by simpa using hkid, e2, e4, e7, e8, e6, e9⟩ hu (.here _)

theorem Unwraps.device {o o' : UnpackOptions} (hall : o.expectDecryptByAllKeys = true)
    (ho : o.unwrapReWrappingForward = o'.unwrapReWrappingForward) (hd : DeviceOf E' E) (hc : ∀ ce, CommitsTo C ce) {t0 : Str}
    (hs : o.unwrapReWrappingForward = true → ∀ u m next v r, Within C t0 u → fromJson (dMessage C.f64) u = .ok m → IsForward m next v →
      Ours E next r → Ours E' next r)
    {t : Str} {md : UnpackMetadata} {r : Res (Str × UnpackMetadata)} (h : Unwraps C E o t md r) (hw : Within C t0 t) {x : Str × UnpackMetadata}
    (hr : r = .ok x) : Unwraps C E' o' t md (.ok x) ∨ Unwraps C E' o' t md (.error (.kind .secretNotFound)) := by
  have hi : ∀ {u : Str} {x : Option (List Str × AnonCryptAlg × Str)}, AnonLayer C E o.expectDecryptByAllKeys u (.ok x) →
      AnonLayer C E' o'.expectDecryptByAllKeys u (.ok x) ∨ AnonLayer C E' o'.expectDecryptByAllKeys u (.error (.kind .secretNotFound)) := by
    rw [hall]; exact fun g => g.device hd hc
  have hin : ∀ {u v : Str} {kids : List Str} {alg : AnonCryptAlg}, Within C t0 u →
      AnonLayer C E o.expectDecryptByAllKeys u (.ok (some (kids, alg, v))) → Within C t0 v :=
    fun hu g => hu.trans (g.first fun _ => hc).within
  induction h with
  | failed | forwardFailed => cases hr
  | none h =>
    cases hr
    rcases hi h with g | g
    · exact .inl (.none g)
    · exact .inr (.failed g)
  | notAsked h hu =>
    cases hr
    rcases hi h with g | g
    · exact .inl (.notAsked g (ho ▸ hu))
    · exact .inr (.failed g)
  | last h hu hf =>
    cases hr
    rcases hi h with g | g
    · exact .inl (.last g (ho ▸ hu) (hf.sameOurs fun _ _ _ _ => hs hu _ _ _ _ _ (hin hw h)))
    · exact .inr (.failed g)
  | again h hu hf _ ih =>
    have hf' := hf.sameOurs fun _ _ _ _ => hs hu _ _ _ _ _ (hin hw h)
    rcases hi h with g | g
    · have hw' : Within C t0 _ := hin hw h
      have := ih (hw'.trans (by
        cases hf with
        | ours g hf _ => cases g with | one g => exact .forward g hf (.here _))) hr
      rcases this with k | k
      · exact .inl (.again g (ho ▸ hu) hf' k)
      · exact .inr (.again g (ho ▸ hu) hf' k)
    · exact .inr (.failed g)

theorem SignLayer.seen (hs : SeesDocsOf E' E) {t : Str} {x : Option (Str × SignAlg × Str)} (h : SignLayer C E t (.ok x)) :
    SignLayer C E' t (.ok x) := by
  cases h with
  | notJws h => exact .notJws h
  | signed h hh hc => exact .signed h hh (hc.seen hs)

theorem Unpacked.device {o o' : UnpackOptions} (hall : o.expectDecryptByAllKeys = true)
    (ho : o.unwrapReWrappingForward = o'.unwrapReWrappingForward) (hd : DeviceOf E' E) (hc : ∀ ce, CommitsTo C ce)
    {t : Str} (hs : o.unwrapReWrappingForward = true → ∀ u m next v r, Within C t u → fromJson (dMessage C.f64) u = .ok m →
      IsForward m next v → Ours E next r → Ours E' next r) {x : Message × UnpackMetadata} (h : Unpacked C E o t (.ok x)) :
    Unpacked C E' o' t (.ok x) ∨ Unpacked C E' o' t (.error (.kind .secretNotFound)) := by
  cases h with
  | unpacked hw ha hsn hp =>
    rcases hw.device hall ho hd hc hs (.here t) rfl with g | g
    · rw [hall] at ha
      rcases ha.device (all := o'.expectDecryptByAllKeys) hd hc with k | k
      · exact .inl (.unpacked g k (hsn.seen hd.docs) (hp.seen hd.docs))
      · exact .inr (.authFailed g k)
    · exact .inr (.unwrapFailed g)

end DIDComm
