import Verif.Spec.HistoryPrior
import Verif.Props.History
import Verif.Props.Prior
import Verif.Props.Meant

/-! # C112: in every history of calls, each `from_prior` that is accepted, by whatever call, was asked for before -/

set_option autoImplicit false

namespace DIDComm

variable {C : Crypto} {pairs : Curve → C.Key → C.Key → Prop} {honest : Curve → C.Key → Prop}

/-! ## Helper lemmas -/

theorem fitPrior_of {m : Message} {jwt : Str} {t tr : List Event} (h : FitPrior C m t) (hj : m.fromPrior = some jwt) (ht : ∀ e ∈ t, e ∈ tr) :
    ∃ k fp doc c key, evResolve (didOf k) (some doc) ∈ tr ∧ KeyFrom C doc doc.authentication k c key ∧ JwtBy C jwt k c key fp := by
  rcases h with ⟨h, -⟩ | ⟨jwt', fp, kid, doc, c, key, h1, rfl, h2, h3, -⟩
  · rw [hj] at h; cases h
  · rw [hj] at h1; cases h1
    exact ⟨kid, fp, doc, c, key, ht _ (by simp), h2, h3⟩

/-- What a call that accepts a `from_prior` has seen. -/
theorem accepts_seen {call : LibCall} {tr : List Event} {jwt : Str} (h : call.Happens C tr) (ha : call.Accepts jwt) :
    ∃ k fp doc c key, evResolve (didOf k) (some doc) ∈ tr ∧ KeyFrom C doc doc.authentication k c key ∧ JwtBy C jwt k c key fp := by
  cases call with
  | packPlaintext m out => exact fitPrior_of ((C70_plaintext m tr out).1 h).2 ha fun _ h => h
  | packSigned m signBy out kid =>
    obtain ⟨t, ht, hf⟩ := C70_signed m signBy tr out kid h
    exact fitPrior_of hf ha fun _ h => ht.subset h
  | packEncrypted m to from_ signBy opts out md =>
    obtain ⟨t, ht, hf⟩ := C70_encrypted m to from_ signBy opts tr out md h
    exact fitPrior_of hf ha fun _ h => ht.subset h
  | packPrior f issuerKid jwt kid => exact ha.elim
  | unpackPrior jwt' f kid =>
    obtain rfl : jwt' = jwt := ha
    obtain ⟨doc, c, key, -, rfl, h2, h3⟩ := (C70_reading _ tr f kid).1 h
    exact ⟨kid, f, doc, c, key, by simp, h2, h3⟩
  | wrapInForward msg headers to keys alg out => exact ha.elim
  | unpack t opts m md =>
    obtain ⟨k, fp, doc, c, key, -, -, -, h1, h2, h3⟩ := C13_from_prior t opts tr m md jwt h ha
    exact ⟨k, fp, doc, c, key, h1, h2, h3⟩

theorem jwtBy_parts {P : Primitives C.Key} {jwt k k' : Str} {c' : Curve} {key' : C.Key} {fp' : FromPrior}
    {hd pl sig : Str} {b payload : Bytes} {hdr : CompactHeader} (hx : jwt = hd ++ b!"." ++ pl ++ b!"." ++ sig) (d1 : B64.decode hd = some b)
    (d2 : fromJson dCompactHeader b = .ok hdr) (d3 : hdr.kid = k) (d4 : B64.decode pl = some payload)
    (h : JwtBy (C.replaced P) jwt k' c' key' fp') :
    k' = k ∧ ∃ st raw', P.verify c' key' (hd ++ b!"." ++ pl) raw' st = some true := by
  obtain ⟨hd', pl', sig', b', hdr', st', sa', raw', payload', hx', g1, g2, -, g3, -, -, g4, g5, -⟩ := h
  rw [hx] at hx'
  obtain ⟨rfl, hr⟩ := dot_unique (b := pl ++ b!"." ++ sig) (b' := pl' ++ b!"." ++ sig') (by simpa only [List.append_assoc] using hx')
    (no_dot d1) (no_dot g1)
  obtain ⟨rfl, -⟩ := dot_unique hr (no_dot d4) (no_dot g5)
  rw [d1] at g1; cases g1
  rw [d2] at g2; cases g2
  exact ⟨by rw [← d3, ← g3], st', raw', g4⟩

/-! ## The property -/

/-- C112: in every history in which nobody forges signatures for the keys of issuers, each `from_prior` that a call takes for good, be it a
call that sends it, receives it or only reads it, was made by an earlier call of `FromPrior::pack`, which was asked to sign these very claims and
signed with the secret half of the key that the issuer's document lists. -/
theorem C112_every_prior (H : List LibStep) (hH : History C H) (hu : Unforged C pairs honest H) (i : Nat) (s : LibStep) (jwt : Str)
    (hi : H[i]? = some s) (ha : s.call.Accepts jwt)
    (hh : ∀ k fp doc c pub, s.env.resolve (didOf k) = .ok (some doc) → KeyFrom C doc doc.authentication k c pub → JwtBy C jwt k c pub fp →
      honest c pub)
    (hwf : ∀ s ∈ H, ∀ f, s.call.AsksToSignPrior f → f.WF) :
    ∃ k fp doc c pub j s' priv text, s.env.resolve (didOf k) = .ok (some doc) ∧ KeyFrom C doc doc.authentication k c pub ∧
      JwtBy C jwt k c pub fp ∧ j < i ∧ H[j]? = some s' ∧ s'.call.AsksToSignPrior fp ∧ pairs c priv pub ∧ s'.Signed C c priv text := by
  obtain ⟨h, hE⟩ := hH _ (List.mem_of_getElem? hi)
  obtain ⟨k, fp, doc, c, key, e3, e4, e5⟩ := accepts_seen h ha
  have hdoc : s.env.resolve (didOf k) = .ok (some doc) := (hE _ e3).symm
  have hhon := hh k fp doc c key hdoc e4 e5
  have e5' := e5
  obtain ⟨hd, pl, sig, b, hdr, st, sa, raw, payload, hx, d1, d2, -, dk, -, -, d3, d4, -, d5⟩ := e5
  have hrel : s.Relied C c key (hd ++ b!"." ++ pl) := by
    refine ⟨h, fun h' => ?_⟩
    obtain ⟨k', fp', doc', c', key', f3, f4, f5⟩ := accepts_seen h' ha
    obtain ⟨rfl, st', raw', hv⟩ := jwtBy_parts (P := C.notTrusting c key (hd ++ b!"." ++ pl)) hx d1 d2 dk d4 f5
    have hdoc' : s.env.resolve (didOf k') = .ok (some doc') := (hE _ f3).symm
    rw [hdoc] at hdoc'; cases hdoc'
    cases (notTrusting_at (C := C) (keyFrom_unique e4 (keyFrom_replaced f4))).symm.trans hv
  obtain ⟨j, s', priv, hji, hs, hp, hsig⟩ := hu i _ c key _ hi hhon hrel
  rcases signed_texts hsig with ⟨m', ha', a, ht⟩ | ⟨f, ha', a, kid, ht⟩
  · obtain ⟨rfl, -⟩ := dot_unique ht (no_dot d1) (encode_no_dot _)
    rw [B64.decode_encode] at d1; cases d1
    exact absurd d2 (jwsHeader_not_compact _ _ _)
  · obtain ⟨-, rfl⟩ := dot_unique ht (no_dot d1) (encode_no_dot _)
    rw [B64.decode_encode] at d4; cases d4
    rw [fromPrior_print f (hwf s' (List.mem_of_getElem? hs) f ha')] at d5
    cases d5
    exact ⟨k, _, doc, c, key, j, s', priv, _, hdoc, e4, e5', hji, hs, ha', hp, hsig⟩

/-- C112: in particular the claims that `FromPrior::unpack` returns were handed to an earlier call of `FromPrior::pack`. -/
theorem C112_prior_alone (H : List LibStep) (hH : History C H) (hu : Unforged C pairs honest H) (i : Nat) (E : Env) (tr : List Event)
    (jwt : Str) (fp : FromPrior) (k : Str) (hi : H[i]? = some ⟨E, tr, .unpackPrior jwt fp k⟩)
    (hh : ∀ doc c pub, E.resolve (didOf k) = .ok (some doc) → KeyFrom C doc doc.authentication k c pub → honest c pub)
    (hwf : ∀ s ∈ H, ∀ f, s.call.AsksToSignPrior f → f.WF) :
    ∃ j s, j < i ∧ H[j]? = some s ∧ s.call.AsksToSignPrior fp := by
  obtain ⟨doc0, c0, key0, -, -, -, h0⟩ := (C70_reading jwt tr fp k).1 (hH _ (List.mem_of_getElem? hi)).1
  obtain ⟨k', fp', doc, c, pub, j, s', priv, text, h1, h2, h3, h4, h5, h6, -⟩ := C112_every_prior H hH hu i _ jwt hi rfl (by
    intro k' fp' doc c pub g1 g2 g3
    obtain ⟨rfl, -⟩ := h0.unique g3
    exact hh doc c pub g1 g2) hwf
  obtain ⟨-, rfl⟩ := h0.unique h3
  exact ⟨j, s', h4, h5, h6⟩

/-! ## The hypotheses are met -/

/-- Two calls, of which the first relies on no signature and signs the one text. -/
theorem World.unforged_two {text : Bytes} {s s2 : LibStep} (hr : ∀ c pub x, ¬ s.Relied (World.oneSignature text) c pub x)
    (hs : s.Signed (World.oneSignature text) .ed25519 ([1] : Bytes) text) :
    Unforged (World.oneSignature text) Toy.pairs World.aliceSigns [s, s2] := by
  rintro i x c pub t hi ⟨rfl, rfl⟩ ⟨h, hn⟩
  match i, hi with
  | 0, hi =>
    cases hi
    exact absurd ⟨h, hn⟩ (hr _ _ _)
  | 1, hi =>
    cases hi
    by_cases ht : t = text
    · subst ht
      exact ⟨0, s, [1], by omega, rfl, rfl, hs⟩
    · refine absurd ?_ hn
      have e : (World.oneSignature text).notTrusting .ed25519 ([1] : Bytes) t = (World.oneSignature text).primitives := by
        have hv : ((World.oneSignature text).notTrusting .ed25519 ([1] : Bytes) t).verify = (World.oneSignature text).verify := by
          funext c' k' t' sig st
          by_cases hc : c' = .ed25519 ∧ k' = ([1] : Bytes) ∧ t' = t
          · obtain ⟨rfl, rfl, rfl⟩ := hc
            exact (notTrusting_at (C := World.oneSignature text) ⟨rfl, rfl⟩).trans (if_neg ht).symm
          · simp [Crypto.notTrusting, hc]
        exact congrArg (fun v => { (World.oneSignature text).primitives with verify := v }) hv
      rw [e]
      exact h
  | n + 2, hi => cases hi

set_option maxRecDepth 100000 in
/-- Alice signs claims of a prior DID.  Somebody reads them; somebody sends a message with them, signed: in both histories all hypotheses of
`C112_every_prior`, and in the first those of `C112_prior_alone`, are met. -/
example : ∃ t1 t2 t3 jwt m out, m.fromPrior = some jwt ∧ ∀ s2 ∈ [LibStep.mk World.env t2 (.unpackPrior jwt World.claims b!"did:example:alice#ed"),
      LibStep.mk World.env t3 (.packSigned m World.alice out b!"did:example:alice#ed")],
    History (World.oneSignature World.priorText) [⟨World.env, t1, .packPrior World.claims none jwt b!"did:example:alice#ed"⟩, s2] ∧
    Unforged (World.oneSignature World.priorText) Toy.pairs World.aliceSigns
      [⟨World.env, t1, .packPrior World.claims none jwt b!"did:example:alice#ed"⟩, s2] ∧ s2.call.Accepts jwt ∧
    (∀ k fp doc c pub, s2.env.resolve (didOf k) = .ok (some doc) → KeyFrom (World.oneSignature World.priorText) doc doc.authentication k c pub →
      JwtBy (World.oneSignature World.priorText) jwt k c pub fp → World.aliceSigns c pub) ∧
    ∀ s ∈ [LibStep.mk World.env t1 (.packPrior World.claims none jwt b!"did:example:alice#ed"), s2], ∀ f, s.call.AsksToSignPrior f → f.WF := by
  have h : World.test World.env (do
      let (jwt, kid) ← FromPrior.pack (World.oneSignature World.priorText) World.claims none
      let x ← FromPrior.unpack (World.oneSignature World.priorText) jwt
      let (out, kid') ← packSigned (World.oneSignature World.priorText)
        { id := [], type_ := [], body := .null, fromPrior := some jwt } World.alice
      pure (kid, x, kid'))
      (fun x => decide (x.1 = b!"did:example:alice#ed" ∧ x.2.1 = (World.claims, b!"did:example:alice#ed") ∧
        x.2.2 = b!"did:example:alice#ed")) = true := by
    decide +kernel
  obtain ⟨tr, x, h, ha, hk⟩ := World.of_test h
  obtain ⟨hk1, hk2, hk3⟩ := of_decide_eq_true hk
  simp only [runs_bind_ok] at h
  obtain ⟨⟨jwt, kid⟩, t1, t', rfl, h1, x2, t2, t3, rfl, h2, ⟨out, kid'⟩, t4, t5, rfl, h3, h4⟩ := h
  cases (runs_pure.1 h4).2
  obtain rfl : kid = b!"did:example:alice#ed" := hk1
  obtain rfl : x2 = (World.claims, b!"did:example:alice#ed") := hk2
  obtain rfl : kid' = b!"did:example:alice#ed" := hk3
  have a1 : Answers World.env t1 := fun ev he => ha ev (by simp [he])
  have a2 : Answers World.env t2 := fun ev he => ha ev (by simp [he])
  have a3 : Answers World.env t4 := fun ev he => ha ev (by simp [he])
  obtain ⟨doc0, c0, key0, -, -, -, h0⟩ := (C70_reading jwt t2 World.claims _).1 h2
  refine ⟨t1, t2, t4, jwt, { id := [], type_ := [], body := .null, fromPrior := some jwt }, out, rfl, fun s2 hs2 => ?_⟩
  simp only [List.mem_cons, List.not_mem_nil, or_false] at hs2
  have hs2' : s2.call.Happens (World.oneSignature World.priorText) s2.tr ∧ s2.env = World.env ∧ Answers World.env s2.tr ∧ s2.call.Accepts jwt ∧
      ∀ f, ¬ s2.call.AsksToSignPrior f := by
    rcases hs2 with rfl | rfl
    · exact ⟨h2, rfl, a2, rfl, fun _ h => h⟩
    · exact ⟨h3, rfl, a3, rfl, fun _ h => h⟩
  obtain ⟨b1, b2, b3, b4, b5⟩ := hs2'
  refine ⟨?_, World.unforged_two ?_ ?_, b4, ?_, ?_⟩
  · intro s hs
    simp only [List.mem_cons, List.not_mem_nil, or_false] at hs
    rcases hs with rfl | rfl
    · exact ⟨h1, a1⟩
    · exact ⟨b1, b2 ▸ b3⟩
  · rintro c pub x ⟨-, hn⟩
    refine hn ?_
    show Runs (World.claims.pack ((World.oneSignature World.priorText).replaced _) none) _ _
    rw [priorPack_replaced (C := World.oneSignature World.priorText) (fun _ _ _ _ _ => rfl)]
    exact h1
  · obtain ⟨secret, pair, alg, g1, g2, g3, g4⟩ := packPrior_signs (E := World.env) h1
    cases World.aliceSecret World.priorText a1 g1 g2
    cases g3
    exact g4
  · intro k fp doc c pub g1 g2 g3
    obtain ⟨rfl, -⟩ := h0.unique g3
    exact World.aliceKey _ doc c pub (b2 ▸ g1) g2
  · intro s hs f hf
    simp only [List.mem_cons, List.not_mem_nil, or_false] at hs
    rcases hs with rfl | rfl
    · cases hf
      exact ⟨by decide, by decide, fun s h => (by cases h), fun s h => (by cases h)⟩
    · exact absurd hf (b5 f)

end DIDComm
