import Verif.Props.Negotiation
import Verif.Props.Evidence
import Verif.Spec.World
import Verif.Proofs.Toy

/-! # C70: when a `from_prior` is accepted, by `FromPrior::unpack` and by the packing operations -/

set_option autoImplicit false

namespace DIDComm

variable {C : Crypto}

/-- The claims `fp` of a prior DID are fit to be sent in the message `m` by the key `kid`: two different plain DIDs,
the key belongs to the issuer, and the subject is the sender of the message, if it names one. -/
def FitClaims (m : Message) (fp : FromPrior) (kid : Str) : Prop :=
  PlainDid fp.iss ∧ PlainDid fp.sub ∧ fp.iss ≠ fp.sub ∧ HasFragment kid ∧ didOf kid = fp.iss ∧
    ∀ f, m.from_ = some f → fp.sub = f

/-- The `from_prior` of the message is fit to be sent, and `tr` is what has to be looked up to see it: nothing if there
is none, else the document of the DID that signed it; there the key is listed under authentication, the JWT is
signed with it, and its claims are fit. -/
def FitPrior (C : Crypto) (m : Message) (tr : List Event) : Prop :=
  (m.fromPrior = none ∧ tr = []) ∨
  ∃ jwt fp kid doc c key, m.fromPrior = some jwt ∧ tr = [evResolve (didOf kid) (some doc)] ∧
    KeyFrom C doc doc.authentication kid c key ∧ JwtBy C jwt kid c key fp ∧ FitClaims m fp kid

/-! ## Helper lemmas -/

theorem splitOn_sym {s : Str} (r : Str) (h : ∀ x ∈ s, x ≠ 0x2E) :
    splitOn 0x2E (s ++ 0x2E :: r) = s :: splitOn 0x2E r := by
  induction s with
  | nil => simp [splitOn]
  | cons a s ih =>
    rw [List.cons_append, splitOn, if_neg (h a (by simp)), ih (fun x hx => h x (List.mem_cons_of_mem _ hx))]

theorem splitOn_last {s : Str} (h : ∀ x ∈ s, x ≠ 0x2E) : splitOn 0x2E s = [s] := by
  induction s with
  | nil => rfl
  | cons a s ih => rw [splitOn, if_neg (h a (by simp)), ih (fun x hx => h x (List.mem_cons_of_mem _ hx))]

theorem no_dot {s : Str} {b : Bytes} (h : B64.decode s = some b) : ∀ x ∈ s, x ≠ 0x2E := by
  rintro x hx rfl
  obtain ⟨pad, rfl, hp⟩ := B64.decode_some h
  rcases List.mem_append.1 hx with hx | hx
  · have := B64.encode_sym b 0x2E hx
    revert this; decide
  · rcases hp with rfl | rfl | rfl <;> revert hx <;> decide

theorem as_of {vm : VerificationMethod} {c : Curve} {key : C.Key} (h1 : vm.keyAlg = some c)
    (h2 : vm.asKeyPair C = .ok ⟨c, key⟩) : vm.as C c = .ok key := by
  unfold VerificationMethod.as asCurve
  rw [if_neg (by simp [h1]), h2]
  simp only [bind, Except.bind, if_true]

theorem Scheme.parts {a : JwsAlg} {c : Curve} {st : SigType} {sa : SignAlg} (h : Scheme a c st sa) :
    curveFor a = .ok c ∧ a.sigType = .ok st := by cases h <;> exact ⟨rfl, rfl⟩

theorem validatePackPlaintext_ok {m : Message} {fp : FromPrior} {kid : Str} :
    m.validatePackPlaintext (some (fp, kid)) = .ok () ↔ FitClaims m fp kid := by
  unfold Message.validatePackPlaintext FitClaims
  simp only [res_bind_ok]
  constructor
  · rintro ⟨_, h1, h2⟩
    obtain ⟨a, b, c, d⟩ := validatePack_ok.1 h1
    refine ⟨a, b, c, (d _ rfl).1, (d _ rfl).2, ?_⟩
    intro f hf
    rw [hf] at h2
    simp only at h2
    split at h2
    · cases h2
    · rename_i hq; exact Decidable.not_not.1 hq
  · rintro ⟨a, b, c, d, e, f⟩
    refine ⟨(), validatePack_ok.2 ⟨a, b, c, ?_⟩, ?_⟩
    · rintro k hk; cases hk; exact ⟨d, e⟩
    · cases hf : m.from_ with
      | none => rfl
      | some g => simp only; rw [if_neg (by simp [f g hf])]

/-! ## The property -/

/-- C70, reading: `FromPrior::unpack` returns the claims `fp` and the key id `kid` exactly if the text is a compact JWS
of type `JWT` with these claims as payload, `kid` is a DID URL, the document of its DID lists it under authentication, and the
signature verifies with the key of that name there; this one document is all that is looked up. -/
theorem C70_reading (jwt : Str) (tr : List Event) (fp : FromPrior) (kid : Str) :
    Runs (FromPrior.unpack C jwt) tr (.ok (fp, kid)) ↔
      ∃ doc c key, HasFragment kid ∧ tr = [evResolve (didOf kid) (some doc)] ∧
        KeyFrom C doc doc.authentication kid c key ∧ JwtBy C jwt kid c key fp := by
  constructor
  · intro h
    obtain ⟨doc, c, key, h1, h2, h3, h4⟩ := fromPrior_layer h
    exact ⟨doc, c, key, h2, h3, h4, h1⟩
  · rintro ⟨doc, c, key, h1, rfl, ⟨k1, vm, k2, k3, k4⟩, h, pl, sig, b, hdr, st, sa, raw, payload, rfl, j1, j2, j3, rfl, j5,
      j6, j7, j8, j9, j10⟩
    have hs : splitOn 0x2E (h ++ b!"." ++ pl ++ b!"." ++ sig) = [h, pl, sig] := by
      have e : h ++ b!"." ++ pl ++ b!"." ++ sig = h ++ 0x2E :: (pl ++ 0x2E :: sig) := by
        simp
      rw [e, splitOn_sym _ (no_dot j1), splitOn_sym _ (no_dot j8), splitOn_last (no_dot j6)]
    refine FromPrior.unpack_ok.2 ⟨⟨h, hdr, pl, sig⟩, doc, vm, c, key, payload, ?_, j3, (didOrUrl_isSome _).2 h1, rfl,
      by rw [didOrUrl_fst], k1, ?_, j5.parts.1, as_of k3 k4, ?_, j8, (validUtf8_iff _).2 j9, j10⟩
    · unfold parseCompact
      rw [hs]
      simp only [res_bind_ok, okOr_eq_ok, withKind_eq_ok, Except.ok.injEq]
      exact ⟨b, j1, hdr, j2, rfl⟩
    · rw [find_method]; exact k2
    · simp only [ParsedCompactJWS.verify, res_bind_ok, okOr_eq_ok]
      exact ⟨st, j5.parts.2, raw, j6, by simpa [dotJoin] using j7⟩

/-- C70, plaintext: `pack_plaintext` succeeds exactly if the `from_prior` of the message is fit, and its result is then
the JSON of the message. -/
theorem C70_plaintext (m : Message) (tr : List Event) (out : Str) :
    Runs (packPlaintext C m) tr (.ok out) ↔ out = m.toJson.print ∧ FitPrior C m tr := by
  rw [packPlaintext_ok]
  unfold FitPrior
  cases hj : m.fromPrior with
  | none =>
    simp only [unpackFromPrior]
    constructor
    · rintro ⟨fp, h, -, rfl⟩; exact ⟨rfl, .inl ⟨trivial, (runs_pure.1 h).1⟩⟩
    · rintro ⟨rfl, ⟨-, rfl⟩ | ⟨_, _, _, _, _, _, h, -⟩⟩
      · exact ⟨none, runs_pure.2 ⟨rfl, rfl⟩, rfl, rfl⟩
      · cases h
  | some jwt =>
    simp only [unpackFromPrior]
    constructor
    · rintro ⟨o, h, hv, rfl⟩
      obtain ⟨⟨fp, kid⟩, t1, t2, rfl, h1, h2⟩ := runs_bind_ok.1 h
      obtain ⟨rfl, h2⟩ := runs_pure.1 h2
      cases h2
      obtain ⟨doc, c, key, -, rfl, h4, h5⟩ := (C70_reading jwt _ fp kid).1 h1
      exact ⟨rfl, .inr ⟨jwt, fp, kid, doc, c, key, rfl, by simp, h4, h5, validatePackPlaintext_ok.1 hv⟩⟩
    · rintro ⟨rfl, ⟨h, -⟩ | ⟨_, fp, kid, doc, c, key, h, rfl, h4, h5, h6⟩⟩
      · cases h
      · cases h
        have h1 := (C70_reading jwt _ fp kid).2 ⟨doc, c, key, h6.2.2.2.1, rfl, h4, h5⟩
        exact ⟨some (fp, kid), runs_bind_ok.2 ⟨(fp, kid), _, [], by simp, h1, runs_pure.2 ⟨rfl, rfl⟩⟩,
          validatePackPlaintext_ok.2 h6, rfl⟩

/-- C70, signed: the same check is made by `pack_signed`, after the signing key has been chosen. -/
theorem C70_signed (m : Message) (signBy : Str) (tr : List Event) (out kid : Str)
    (h : Runs (packSigned C m signBy) tr (.ok (out, kid))) :
    ∃ t, t <:+ tr ∧ FitPrior C m t := by
  obtain ⟨_, _, _, _, _, t, _, _, _, rfl, _, _, _, h, _⟩ := packSigned_ok.1 h
  exact ⟨t, ⟨[_, _, _], rfl⟩, ((C70_plaintext m _ _).1 h).2⟩

/-- C70, encrypted: the same check is made by `pack_encrypted`, with or without signature. -/
theorem C70_encrypted (m : Message) (to : Str) (from_ signBy : Option Str) (opts : PackEncryptedOptions) (tr : List Event)
    (out : Str) (md : PackEncryptedMetadata) (h : Runs (packEncrypted C m to from_ signBy opts) tr (.ok (out, md))) :
    ∃ t, t <:+: tr ∧ FitPrior C m t := by
  obtain ⟨t1, t2, t3, inner, sk, _, _, _, _, rfl, -, h, -⟩ := packEncrypted_ok.1 h
  rcases packInner_ok.1 h with ⟨-, -, h⟩ | ⟨s, k, -, -, h⟩
  · exact ⟨t1, ⟨[], t2 ++ t3, by simp⟩, ((C70_plaintext m _ _).1 h).2⟩
  · obtain ⟨t, ⟨u, rfl⟩, hf⟩ := C70_signed m s t1 _ k h
    exact ⟨t, ⟨u, t2 ++ t3, by simp⟩, hf⟩

/-- Alice's agent issues a `from_prior` for Bob's DID; Bob's agent sends it, signed by Alice's and encrypted for Bob. -/
def World.priorPackProg : Prog (Message × Str × PackEncryptedMetadata) := do
  let (jwt, _) ← FromPrior.pack Toy.crypto { iss := alice, sub := bob } none
  let m : Message := { id := [], type_ := [], body := .null, from_ := some bob, fromPrior := some jwt }
  let (out, md) ← packEncrypted Toy.crypto m bob none (some alice) { forward := false }
  pure (m, out, md)

set_option maxRecDepth 100000 in
theorem World.priorPackTest : World.test World.env World.priorPackProg
    (fun x => decide (x.1.fromPrior.isSome = true ∧ x.1.from_ = some World.bob)) = true := by decide +kernel

/-- A message with `from` and `from_prior` that is signed and encrypted; its `from_prior` is fit by what `FromPrior::pack`
made. -/
example : ∃ m jwt tr x t, Runs (packEncrypted Toy.crypto m World.bob none (some World.alice) { forward := false }) tr (.ok x) ∧
    m.fromPrior = some jwt ∧ m.from_ = some World.bob ∧ t <:+: tr ∧ FitPrior Toy.crypto m t ∧ t ≠ [] := by
  obtain ⟨tr, ⟨m, out, md⟩, h, ha, hk⟩ := World.of_test World.priorPackTest
  obtain ⟨k1, k2⟩ := of_decide_eq_true hk
  obtain ⟨jwt', hj⟩ := Option.isSome_iff_exists.1 k1
  unfold World.priorPackProg at h
  simp only [runs_bind_ok] at h
  obtain ⟨⟨jwt, _⟩, t1, _, rfl, h1, ⟨o, md'⟩, t2, t3, rfl, h2, h3⟩ := h
  cases (runs_pure.1 h3).2
  obtain ⟨t, ht, hf⟩ := C70_encrypted _ _ _ _ _ _ _ _ h2
  refine ⟨_, jwt', t2, _, t, h2, hj, k2, ht, hf, ?_⟩
  rcases hf with ⟨h, -⟩ | ⟨_, _, _, _, _, _, -, rfl, -⟩
  · rw [hj] at h; cases h
  · simp

end DIDComm
