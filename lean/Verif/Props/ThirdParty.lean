import Verif.Props.OutcomeUnpack
import Verif.Props.Negative
import Verif.Props.Reading
import Verif.Props.LookUps

/-!
# C93: the signed message as evidence

The metadata of a signed message carry the signed message itself, so that the receiver can show it to somebody else.
-/

set_option autoImplicit false

namespace DIDComm

variable {C : Crypto} {E E' : Env}

/-- Nothing is said about a signature or a `from_prior`. -/
def Unsaid (md : UnpackMetadata) : Prop := md.signedMessage = none ∧ md.fromPrior = none ∧ md.fromPriorIssuerKid = none

theorem Unwraps.unsigned {opts : UnpackOptions} {t : Str} {md0 : UnpackMetadata} {r : Res (Str × UnpackMetadata)} (h : Unwraps C E opts t md0 r) :
    ∀ u md, r = .ok (u, md) → Unsaid md0 → Unsaid md := by
  induction h with
  | failed => intro u md h; cases h
  | none => intro u md h h0; cases h; exact h0
  | notAsked => intro u md h h0; cases h; exact h0
  | forwardFailed => intro u md h; cases h
  | last => intro u md h h0; cases h; exact h0
  | again h ho hf hu ih => intro u md h h0; exact ih u md h h0

theorem SignatureChecked.seen {s : JwsSig} {hdr : JwsHeader} {pl : Str} {x : SignAlg × Str} (hs : SeesDocsOf E' E)
    (h : SignatureChecked C E s hdr pl (.ok x)) : SignatureChecked C E' s hdr pl (.ok x) := by
  cases h with
  | verified h hd hk hsc hr hv hp hu =>
    cases hd with
    | found hd => exact .verified h (.found (hs _ _ hd)) hk hsc hr hv hp hu

theorem PriorRead.seen {jwt : Str} {x : FromPrior × Str} (hs : SeesDocsOf E' E) (h : PriorRead C E jwt (.ok x)) : PriorRead C E' jwt (.ok x) := by
  cases h with
  | read hf hd hk hr hv hp hu hc =>
    cases hd with
    | found hd => exact .read hf (.found (hs _ _ hd)) hk hr hv hp hu hc

theorem PlainLayer.seen {t : Str} {x : Message × Option (FromPrior × Str)} (hs : SeesDocsOf E' E) (h : PlainLayer C E t (.ok x)) :
    PlainLayer C E' t (.ok x) := by
  cases h with
  | plain h ht hp => exact .plain h ht hp
  | prior h ht hp hr => exact .prior h ht hp (hr.seen hs)

/-- C93: if `unpack` reports a signed message, then whoever sees the documents of the same DIDs can unpack the signed message
alone, with any options and without secrets: every run returns the same message, with the same signer, algorithm and claims, and asks
for nothing but documents.  The signed message must not at the same time have the form of an encrypted envelope. -/
theorem C93_evidence (hd : NeverLonger C) (hf : PrintsFloats C) (text : Str) (opts : UnpackOptions) (tr : List Event) (m : Message)
    (md : UnpackMetadata) (h : Runs (unpack C text opts) tr (.ok (m, md))) (ha : Answers E tr) (signed : Str)
    (hm : md.signedMessage = some signed) (hj : ∀ t j, JsonText t signed → ¬ IsEncrypted t j) (hs : SeesDocsOf E' E)
    (opts' : UnpackOptions) (tr' : List Event) (r : Res (Message × UnpackMetadata)) (h' : Runs (unpack C signed opts') tr' r)
    (ha' : Answers E' tr') :
    r = .ok (m, { authenticated := true, nonRepudiation := true, signFrom := md.signFrom, signAlg := md.signAlg,
                  signedMessage := some signed, fromPrior := md.fromPrior, fromPriorIssuerKid := md.fromPriorIssuerKid }) ∧
      md.signFrom.isSome ∧ md.signAlg.isSome ∧ ∀ ev ∈ tr', ∃ d, ev.query = .resolve d := by
  have hje : ∀ j, jweFromStr signed ≠ .ok j := by
    intro j h
    obtain ⟨t, ht, hi⟩ := (C74_encrypted signed j).1 h
    exact hj t j ht hi
  have key := C81_unpack hd hf text opts tr _ h ha
  generalize hx : (Except.ok (m, md) : Res (Message × UnpackMetadata)) = x at key
  cases key with
  | unwrapFailed => cases hx
  | authFailed => cases hx
  | signFailed => cases hx
  | plainFailed => cases hx
  | unpacked hu hau hsi hp =>
    rename_i u md1 a s m1 p
    cases hx
    have h0 : Unsaid (pastAuth u md1 a).2 := by
      have := hu.unsigned u md1 rfl ⟨rfl, rfl, rfl⟩
      cases a with
      | none => exact this
      | some a => exact this
    generalize pastAuth u md1 a = v at *
    obtain ⟨v, md2⟩ := v
    cases hsi with
    | notJws hn =>
      exfalso
      have : md2.signedMessage = some signed := by cases p <;> exact hm
      rw [h0.1] at this
      cases this
    | signed hr hh hc =>
      rename_i sg pl w hdr sa
      have hv : v = signed := by
        cases p with
        | none => exact Option.some.inj hm
        | some p => exact Option.some.inj hm
      subst hv
      cases hr with
      | one hr =>
        have hjm : Recognised dJwe v (.ok none) := by
          obtain ⟨t, ht, -⟩ := (C72_reads_json dJws v _).1 hr
          refine .other ((C72_refuses dJwe v).1 t ht ?_)
          cases hjd : dJwe depthLimit t with
          | none => rfl
          | some j => exact absurd ((C72_reads_json dJwe v j).2 ⟨t, ht, hjd⟩) (hje j)
        have := (C81_exact (E := E') hd hf v opts' _).1
          (.unpacked (.none (.notJwe hjm)) (.notJwe hjm) (a := none) (.signed (.one hr) hh (hc.seen hs)) (hp.seen hs)) tr' r h' ha'
        refine ⟨?_, ?_, ?_, ?_⟩
        · rw [this]
          obtain ⟨-, e1, e2⟩ := h0
          cases p with
          | none =>
            dsimp only at e1 e2
            simp only [pastAuth, pastSign, UnpackMetadata.seeSign, UnpackMetadata.seePrior, e1, e2]
          | some p => rfl
        · cases p <;> rfl
        · cases p <;> rfl
        · intro ev he
          have h1 := C32_unencrypted _ hje opts' tr' r h' ev he
          have h2 := unpack_no_random h' ev he
          cases hq : ev.query with
          | resolve d => exact ⟨d, rfl⟩
          | random => exact absurd hq h2
          | findSecrets _ => rw [hq] at h1; exact absurd trivial h1
          | getSecret _ => rw [hq] at h1; exact absurd trivial h1

/-- C93: what `pack_signed` returns never has the form of an encrypted envelope, so the condition holds for whatever this library
signs, alone or inside an encrypted message. -/
theorem C93_own_signatures (m : Message) (signBy : Str) (tr : List Event) (out kid : Str) (h : Runs (packSigned C m signBy) tr (.ok (out, kid))) :
    ∀ t j, JsonText t out → ¬ IsEncrypted t j := by
  intro t j ht hi
  obtain ⟨_, _, _, -, -, ⟨sig, rfl⟩, -⟩ := C50_signed m signBy tr out kid h
  have h1 := (C74_encrypted _ j).2 ⟨t, ht, hi⟩
  rw [JWS.onWire_eq, jws_not_jwe] at h1
  cases h1

/-- Alice signs and encrypts for Bob; what Bob has of the signature, anybody with the documents can check. -/
example : ∃ (text signed : Str) (tr : List Event) (m : Message) (md : UnpackMetadata),
    Runs (unpack Toy.crypto text {}) tr (.ok (m, md)) ∧ Answers World.env tr ∧ md.encryptedFromKid.isSome ∧ md.signedMessage = some signed ∧
    (∀ t j, JsonText t signed → ¬ IsEncrypted t j) ∧ SeesDocsOf World.mediatorEnv World.env ∧
    ∀ tr' r, Runs (unpack Toy.crypto signed {}) tr' r → Answers World.mediatorEnv tr' → ∃ md', r = .ok (m, md') ∧ md'.nonRepudiation = true ∧
      md'.signFrom = md.signFrom := by
  have ht : World.test World.env (do
      let x ← packEncrypted Toy.crypto World.msg World.bob (some World.alice) (some World.alice) { forward := false }
      let y ← unpack Toy.crypto x.1 {}
      pure (x.1, y)) (fun z => z.2.2.encryptedFromKid.isSome && z.2.2.signedMessage.isSome &&
        z.2.2.signedMessage.all fun s => match jweFromStr s with | .ok _ => false | .error _ => true) = true := by decide +kernel
  obtain ⟨tr, ⟨text, m, md⟩, h, ha, hk⟩ := World.of_test ht
  simp only [Bool.and_eq_true] at hk
  obtain ⟨⟨k1, k2⟩, k3⟩ := hk
  obtain ⟨signed, hs⟩ := Option.isSome_iff_exists.1 k2
  rw [hs] at k3
  simp only [runs_bind_ok] at h
  obtain ⟨x, t1, _, rfl, -, y, t2, t3, rfl, h2, h3⟩ := h
  obtain ⟨rfl, h3⟩ := runs_pure.1 h3
  cases h3
  have hj : ∀ t j, JsonText t signed → ¬ IsEncrypted t j := by
    intro t j ht hi
    have := (C74_encrypted signed j).2 ⟨t, ht, hi⟩
    rw [Option.all_some, this] at k3
    cases k3
  have ha := (answers_append.1 (answers_append.1 ha).2).1
  refine ⟨x.1, signed, t2, m, md, h2, ha, k1, hs, hj, fun _ _ h => h, fun tr' r hr ha' => ?_⟩
  obtain ⟨h1, -⟩ := C93_evidence World.neverLonger World.printsFloats x.1 {} t2 m md h2 ha signed hs hj
    (E' := World.mediatorEnv) (fun _ _ h => h) {} tr' r hr ha'
  exact ⟨_, h1, rfl, rfl⟩

/-! ## What the condition is for -/

/-- The members of both. -/
def World.joined : Value → Value → Str
  | .obj a, .obj b => (Value.obj (a ++ b)).print
  | _, _ => []

/-- A signed message that is at the same time an anonymous envelope with something else in it, sent in an anonymous envelope. -/
def World.twoFacesProg : Prog (Str × Str × (Message × UnpackMetadata) × Message × UnpackMetadata) := do
  let (jws, _) ← packSigned Toy.crypto { id := b!"signed", type_ := [], body := .null } alice
  let j ← Prog.lift (jwsFromStr jws)
  let (jwe, _) ← anoncrypt Toy.crypto bob (Message.toJson { id := b!"other", type_ := [], body := .null }).print .xc20pEcdhEsA256kw
  let e ← Prog.lift (jweFromStr jwe)
  let (out, _) ← anoncrypt Toy.crypto bob (World.joined j.toJson e.toJson) .xc20pEcdhEsA256kw
  let x ← unpack Toy.crypto out {}
  let y ← unpack Toy.crypto (x.2.signedMessage.getD []) {}
  pure (out, World.joined j.toJson e.toJson, x, y)

set_option maxRecDepth 100000 in
theorem World.twoFacesTest : World.test World.env World.twoFacesProg (fun x => decide (x.2.2.1.1.id = b!"signed" ∧
    x.2.2.1.2.signFrom = some b!"did:example:alice#ed" ∧ x.2.2.1.2.signedMessage = some x.2.1 ∧ x.2.2.2.1.id = b!"other" ∧
    x.2.2.2.2.signFrom = none)) = true := by decide +kernel

/-- C93 (negative): a signed message can be made that `unpack` reports as signed inside an envelope, and as another message, not
signed, when it is unpacked alone. -/
theorem C93_two_faces : ∃ (text signed : Str) (t1 t2 : List Event) (m m' : Message) (md md' : UnpackMetadata),
    Runs (unpack Toy.crypto text {}) t1 (.ok (m, md)) ∧ Answers World.env t1 ∧ md.signFrom = some b!"did:example:alice#ed" ∧
    md.signedMessage = some signed ∧ Runs (unpack Toy.crypto signed {}) t2 (.ok (m', md')) ∧ Answers World.env t2 ∧
    m'.id ≠ m.id ∧ md'.signFrom = none := by
  obtain ⟨tr, ⟨text, signed, ⟨m, md⟩, m', md'⟩, h, ha, hk⟩ := World.of_test World.twoFacesTest
  obtain ⟨k1, k2, k3, k4, k5⟩ := of_decide_eq_true hk
  dsimp only at k1 k2 k3 k4 k5
  unfold World.twoFacesProg at h
  rw [runs_bind_ok] at h
  obtain ⟨⟨jws, _⟩, t1, _, rfl, -, h⟩ := h
  obtain ⟨j, -, h⟩ := runs_lift_bind_ok.1 h
  rw [runs_bind_ok] at h
  obtain ⟨⟨jwe, _⟩, t2, _, rfl, -, h⟩ := h
  obtain ⟨e, -, h⟩ := runs_lift_bind_ok.1 h
  simp only [runs_bind_ok] at h
  obtain ⟨⟨out, _⟩, t3, _, rfl, -, x, t4, _, rfl, h1, y, t5, t6, rfl, h2, h3⟩ := h
  obtain ⟨rfl, h3⟩ := runs_pure.1 h3
  cases h3
  rw [k3] at h2
  refine ⟨_, _, t4, t5, m, m', md, md', h1, fun e he => ha e (by simp [he]), k2, k3, h2, fun e he => ha e (by simp [he]), ?_, k5⟩
  rw [k1, k4]
  decide

end DIDComm
