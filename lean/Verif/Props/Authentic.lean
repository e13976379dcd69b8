import Verif.Spec.Authentic
import Verif.Spec.Receiver
import Verif.Spec.World
import Verif.Spec.Toy
import Verif.Proofs.Inv
import Verif.Proofs.Secrecy
import Verif.Proofs.Trip
import Verif.Proofs.WorldParties
import Verif.Proofs.ParseTotal
import Verif.Props.Evidence
import Verif.Props.Prior
import Verif.Props.Secrecy

/-! # C83-C85: what is reported as signed or authenticated was packed by the owner of the key -/

set_option autoImplicit false

namespace DIDComm

variable {C : Crypto}

/-! ## Helper lemmas -/

theorem dot_unique {a b a' b' : Str} (h : a ++ b!"." ++ b = a' ++ b!"." ++ b') (ha : ∀ x ∈ a, x ≠ 0x2E)
    (ha' : ∀ x ∈ a', x ≠ 0x2E) : a = a' ∧ b = b' := by
  induction a generalizing a' with
  | nil =>
    cases a' with
    | nil => simpa using h
    | cons x a' =>
      simp only [List.nil_append, List.cons_append, List.cons.injEq] at h
      exact absurd h.1.symm (ha' x (by simp))
  | cons x a ih =>
    cases a' with
    | nil =>
      simp only [List.nil_append, List.cons_append, List.cons.injEq] at h
      exact absurd h.1 (ha x (by simp))
    | cons y a' =>
      simp only [List.cons_append, List.cons.injEq] at h
      obtain ⟨e1, e2⟩ := ih h.2 (fun z hz => ha z (by simp [hz])) (fun z hz => ha' z (by simp [hz]))
      exact ⟨by rw [h.1, e1], e2⟩

theorem encode_no_dot (b : Bytes) : ∀ x ∈ B64.encode b, x ≠ 0x2E := no_dot (B64.decode_encode b)

/-- The header of a signed message is no header of a JWT: it names no key. -/
theorem jwsHeader_not_compact (typ : Str) (alg : JwsAlg) (hdr : CompactHeader) :
    fromJson dCompactHeader (JwsHeader.toJson ⟨typ, alg⟩).print ≠ .ok hdr := by
  intro h
  rw [fromJson_print_none (by simp [JwsHeader.toJson, Value.NumsOk, Value.NumsOkM])] at h
  · cases h
  · unfold dCompactHeader JwsHeader.toJson
    rw [asStruct_tree _ _ _ (by decide) (by keys_utf8)]
    simp only [Option.bind_eq_bind, Option.bind_some]
    rw [reqField_tree_none (name := b!"kid") (by rfl)]
    simp

/-- The claims of a prior DID are no message: they have no `id`. -/
theorem fromPrior_not_message (f : FromPrior) (m : Message) : fromJson (dMessage C.f64) f.toJson.print ≠ .ok m := by
  intro h
  have hn := f.numsOk
  unfold FromPrior.toJson at hn h
  rw [not_message (by keys_utf8) hn] at h
  · cases h
  · rcases f with ⟨i, s, a, e, n, t, j⟩
    cases a <;> cases e <;> cases n <;> cases t <;> cases j <;> simp [optMember]

/-- A signed envelope is read back with its payload. -/
theorem jws_payload {j j' : JWS} (hp : Plain j.payload) (h : fromJson dJws j.toJson.print = .ok j') :
    j'.payload = j.payload := by
  obtain ⟨t, ht, hd⟩ := fromJson_ok h
  rw [parseJson_print] at ht
  · cases ht
    unfold dJws JWS.toJson at hd
    rw [asStruct_tree _ _ _ (by decide) (by keys_utf8)] at hd
    simp only [Option.bind_eq_bind, Option.bind_some] at hd
    rw [reqField_tree (name := b!"payload") (v := .str j.payload) (by simp), dBorrow_plain hp] at hd
    simp only [Option.bind_eq_some_iff, Option.some.injEq] at hd
    obtain ⟨_, -, _, rfl, rfl⟩ := hd
    rfl
  · simp only [JWS.toJson, Value.NumsOk, Value.NumsOkM, and_true]
    exact numsOkL_map _ _ (fun s _ => by simp [JwsSig.toJson, Value.NumsOk, Value.NumsOkM])

/-! ## C83: signatures and prior DIDs are authentic -/

/-- C83: packing a signed message makes a signature over a text that says which message it is, and only that. -/
theorem C83_packs_signed (m : Message) (signBy : Str) (tr : List Event) (out kid : Str)
    (h : Runs (packSigned C m signBy) tr (.ok (out, kid))) :
    ∃ secret pair text sig st, evGet kid (some secret) ∈ tr ∧ secret.asKeyPair C = .ok pair ∧ SignsMessage m text ∧
      C.sign pair.curve pair.key text st = some sig ∧
      out = (JWS.toJson ⟨[⟨kid, text.takeWhile (· ≠ 0x2E), B64.encode sig⟩], B64.encode m.toJson.print⟩).print := by
  obtain ⟨doc, kids, found, secret, pair, tr', payload, alg, -, rfl, -, -, h0, h1, ha, h2⟩ := packSigned_ok.1 h
  obtain ⟨-, rfl⟩ := draws_plaintext h1
  obtain ⟨st, sig, -, hs, rfl⟩ := jwsSign_ok.1 h2
  refine ⟨secret, pair, _, sig, st, by simp, h0, ⟨alg, rfl⟩, ?_, ?_⟩
  · simpa [dotJoin, jwsProtected, signedTyp, JwsHeader.onWire_eq] using hs
  · have : ∀ (a : Str) (b : Str), (∀ x ∈ a, x ≠ 0x2E) → (a ++ b!"." ++ b).takeWhile (· ≠ 0x2E) = a := by
      intro a b ha
      induction a with
      | nil => rfl
      | cons x a ih =>
        have := ih (fun z hz => ha z (by simp [hz]))
        simp only [List.cons_append]
        rw [List.takeWhile_cons_of_pos (by simpa using ha x (by simp)), this]
    rw [this _ _ (encode_no_dot _)]
    rfl

/-- C83: packing a `from_prior` makes a signature over a text that says which claims these are, and only that. -/
theorem C83_packs_prior (f : FromPrior) (issuerKid : Option Str) (tr : List Event) (jwt kid : Str)
    (h : Runs (f.pack C issuerKid) tr (.ok (jwt, kid))) :
    ∃ secret pair text sig st, evGet kid (some secret) ∈ tr ∧ secret.asKeyPair C = .ok pair ∧ SignsPrior f text ∧
      C.sign pair.curve pair.key text st = some sig ∧ jwt = text ++ b!"." ++ B64.encode sig := by
  obtain ⟨doc, kids, found, secret, pair, alg, -, rfl, -, -, h0, ha, h2⟩ := FromPrior.pack_ok.1 h
  obtain ⟨st, sig, -, hs, rfl⟩ := jwsSignCompact_ok.1 h2
  refine ⟨secret, pair, _, sig, st, by simp, h0, ⟨alg, kid, rfl⟩, ?_, ?_⟩
  · simpa [dotJoin, jwtTyp, CompactHeader.onWire_eq] using hs
  · simp [dotJoin, jwtTyp, CompactHeader.onWire_eq]

/-- C83: if the owner of every key that can stand for the reported signer signs only the messages `msgs` and the claims
`priors`, the returned message is what one of `msgs` is read as. -/
theorem C83_signed_reading (msg : Str) (opts : UnpackOptions) (tr : List Event) (m : Message) (md : UnpackMetadata) (k : Str)
    (msgs : Message → Prop) (priors : FromPrior → Prop) (h : Runs (unpack C msg opts) tr (.ok (m, md)))
    (hk : md.signFrom = some k)
    (honest : ∀ doc c key, evResolve (didOf k) (some doc) ∈ tr → KeyFrom C doc doc.authentication k c key →
      OnlySigned C c key msgs priors) :
    ∃ m', msgs m' ∧ fromJson (dMessage C.f64) m'.toJson.print = .ok m := by
  obtain ⟨k', t, alg, doc, c, key, payload, e1, -, -, -, e2, e3, -, e4, e5⟩ :=
    C11_signer msg opts tr m md h (C11_reported msg opts tr m md h (.inl (by simp [hk])))
  rw [hk] at e1; cases e1
  obtain ⟨prot, sig, pl, b, hdr, st, raw, -, d1, -, -, -, d2, d3, -⟩ := e4
  rcases honest doc c key e2 e3 _ _ _ d2 with ⟨m', hm, a, ht⟩ | ⟨f, hf, a, kid, ht⟩
  · obtain ⟨-, rfl⟩ := dot_unique ht (no_dot d1) (encode_no_dot _)
    rw [B64.decode_encode] at d3; cases d3
    exact ⟨m', hm, e5⟩
  · obtain ⟨-, rfl⟩ := dot_unique ht (no_dot d1) (encode_no_dot _)
    rw [B64.decode_encode] at d3; cases d3
    exact absurd e5 (fromPrior_not_message f m)

/-- C83: if the owner of every key that can stand for the reported signer signs only the messages `msgs` and the claims
`priors`, the returned message is one of `msgs`. -/
theorem C83_signed (msg : Str) (opts : UnpackOptions) (tr : List Event) (m : Message) (md : UnpackMetadata) (k : Str)
    (msgs : Message → Prop) (priors : FromPrior → Prop) (h : Runs (unpack C msg opts) tr (.ok (m, md)))
    (hk : md.signFrom = some k) (hwf : ∀ m', msgs m' → m'.WF C.f64)
    (honest : ∀ doc c key, evResolve (didOf k) (some doc) ∈ tr → KeyFrom C doc doc.authentication k c key →
      OnlySigned C c key msgs priors) :
    msgs m := by
  obtain ⟨m', hm, hr⟩ := C83_signed_reading msg opts tr m md k msgs priors h hk honest
  rw [message_print m' (hwf m' hm)] at hr
  cases hr; exact hm

/-- C83: if the owner of every key that can stand for the reported issuer signs only the messages `msgs` and the claims
`priors`, the reported claims are one of `priors`. -/
theorem C83_prior (msg : Str) (opts : UnpackOptions) (tr : List Event) (m : Message) (md : UnpackMetadata) (k : Str)
    (fp : FromPrior) (msgs : Message → Prop) (priors : FromPrior → Prop) (h : Runs (unpack C msg opts) tr (.ok (m, md)))
    (hk : md.fromPriorIssuerKid = some k) (hfp : md.fromPrior = some fp) (hwf : ∀ f, priors f → f.WF)
    (honest : ∀ doc c key, evResolve (didOf k) (some doc) ∈ tr → KeyFrom C doc doc.authentication k c key →
      OnlySigned C c key msgs priors) :
    priors fp := by
  cases hj : m.fromPrior with
  | none =>
    obtain ⟨t1, t2, t3, t4, msg1, md1, msg2, md2, msg3, md3, rfl, h1, h2, h3, h4, h5, h6⟩ := unpack_parts h
    rcases h6 with ⟨-, -, rfl⟩ | ⟨_, _, _, _, _, _, hp, -⟩
    · exfalso
      have e1 : md1.fromPrior = none := by
        rcases h1.metadata with ⟨-, rfl, -⟩ | ⟨_, _, _, _, _, _, _, _, rfl, -⟩ <;> rfl
      have e2 : md2.fromPrior = none := by
        rcases h2 with ⟨-, rfl, -⟩ | ⟨_, _, _, _, _, _, _, _, -, -, -, -, -, -, -, rfl⟩ <;> exact e1
      have e3 : md.fromPrior = none := by
        rcases h3 with ⟨-, rfl, -⟩ | ⟨_, _, _, _, _, -, -, -, -, rfl⟩ <;> exact e2
      rw [e3] at hfp; cases hfp
    · rw [hj] at hp; cases hp
  | some jwt =>
    obtain ⟨k', fp', doc, c, key, e1, e2, -, e3, e4, e5⟩ := C13_from_prior msg opts tr m md jwt h hj
    rw [hk] at e1; cases e1
    rw [hfp] at e2; cases e2
    obtain ⟨hd, pl, sig, b, hdr, st, sa, raw, payload, -, d1, d2, -, -, -, -, d3, d4, -, d5⟩ := e5
    rcases honest doc c key e3 e4 _ _ _ d3 with ⟨m', hm, a, ht⟩ | ⟨f, hf, a, kid, ht⟩
    · obtain ⟨rfl, -⟩ := dot_unique ht (no_dot d1) (encode_no_dot _)
      rw [B64.decode_encode] at d1; cases d1
      exact absurd d2 (jwsHeader_not_compact _ _ _)
    · obtain ⟨-, rfl⟩ := dot_unique ht (no_dot d1) (encode_no_dot _)
      rw [B64.decode_encode] at d4; cases d4
      rw [fromPrior_print f (hwf f hf)] at d5
      cases d5; exact hf

/-- What Alice signs for `World.msg` with the Ed25519 key. -/
def World.signedText : Str :=
  B64.encode (JwsHeader.toJson ⟨b!"application/didcomm-signed+json", .edDSA⟩).print ++ b!"." ++ B64.encode World.msg.toJson.print

/-- The claims of a prior DID that Alice signs. -/
def World.claims : FromPrior := { iss := World.alice, sub := World.bob }

/-- What Alice signs for these claims. -/
def World.priorText : Str :=
  B64.encode (CompactHeader.toJson ⟨b!"JWT", .edDSA, b!"did:example:alice#ed"⟩).print ++ b!"." ++ B64.encode World.claims.toJson.print

/-- The toy primitives with ideal signatures: only what Alice has signed verifies. -/
def World.signing : Crypto :=
  { Toy.crypto with
    verify := fun c k m s t => if m = World.signedText ∨ m = World.priorText then Toy.crypto.verify c k m s t else some false }

theorem World.onlySigned (c : Curve) (key : World.signing.Key) :
    OnlySigned World.signing c key (· = World.msg) (· = World.claims) := by
  intro text sig st h
  simp only [World.signing] at h
  split at h
  · rename_i ht
    rcases ht with rfl | rfl
    · exact .inl ⟨_, rfl, .edDSA, rfl⟩
    · exact .inr ⟨_, rfl, .edDSA, b!"did:example:alice#ed", rfl⟩
  · cases h

/-- With ideal signatures, a message Alice signed is accepted, and so is a message with claims Alice signed; all
hypotheses of `C83_signed` and `C83_prior` are met. -/
example : (∃ text tr m md, Runs (unpack World.signing text {}) tr (.ok (m, md)) ∧ md.signFrom = some b!"did:example:alice#ed") ∧
    (∃ text tr m md, Runs (unpack World.signing text {}) tr (.ok (m, md)) ∧
      md.fromPriorIssuerKid = some b!"did:example:alice#ed" ∧ md.fromPrior = some World.claims) ∧
    ∀ c key, OnlySigned World.signing c key (· = World.msg) (· = World.claims) := by
  refine ⟨?_, ?_, World.onlySigned⟩
  · have h : World.test World.env (do
        let (out, _) ← packSigned World.signing World.msg World.alice
        unpack World.signing out {}) (fun x => decide (x.2.signFrom = some b!"did:example:alice#ed")) = true := by
      decide +kernel
    obtain ⟨tr, ⟨m, md⟩, h, -, hk⟩ := World.of_test h
    rw [runs_bind_ok] at h
    obtain ⟨⟨out, _⟩, t1, t2, rfl, _, h⟩ := h
    exact ⟨out, t2, m, md, h, of_decide_eq_true hk⟩
  · have h : World.test World.env (do
        let (jwt, _) ← FromPrior.pack World.signing World.claims none
        unpack World.signing (Message.toJson { id := [], type_ := [], body := .null, fromPrior := some jwt }).print {})
        (fun x => decide (x.2.fromPriorIssuerKid = some b!"did:example:alice#ed" ∧ x.2.fromPrior = some World.claims)) = true := by
      decide +kernel
    obtain ⟨tr, ⟨m, md⟩, h, -, hk⟩ := World.of_test h
    rw [runs_bind_ok] at h
    obtain ⟨⟨out, _⟩, t1, t2, rfl, _, h⟩ := h
    exact ⟨_, t2, m, md, h, of_decide_eq_true hk⟩

/-! ## C84: signatures are not exchangeable -/

/-- C84: a signature made for a message is no evidence for claims of a prior DID. -/
theorem C84_message_is_no_prior (m : Message) (text sig kid : Str) (c : Curve) (key : C.Key) (fp : FromPrior)
    (hm : SignsMessage m text) : ¬ JwtBy C (text ++ b!"." ++ sig) kid c key fp := by
  rintro ⟨h, pl, sig', b, hdr, st, sa, raw, payload, ht, d1, d2, -⟩
  obtain ⟨a, rfl⟩ := hm
  have ht' : B64.encode (JwsHeader.onWire ⟨b!"application/didcomm-signed+json", a⟩) ++ b!"." ++
      (B64.encode m.toJson.print ++ b!"." ++ sig) = h ++ b!"." ++ (pl ++ b!"." ++ sig') := by
    simpa only [List.append_assoc] using ht
  obtain ⟨rfl, -⟩ := dot_unique ht' (encode_no_dot _) (no_dot d1)
  rw [B64.decode_encode] at d1; cases d1
  exact jwsHeader_not_compact _ _ _ d2

/-- C84: a signature made for claims of a prior DID is no evidence for a message: a signed envelope over the same text
holds no message. -/
theorem C84_prior_is_no_message (f : FromPrior) (t kid prot sig pl : Str) (alg : SignAlg) (c : Curve) (key : C.Key)
    (payload : Bytes) (hf : SignsPrior f (prot ++ b!"." ++ pl))
    (ht : fromJson dJws t = .ok ⟨[⟨kid, prot, sig⟩], pl⟩) (h : SignedBy C t kid alg c key payload) :
    ∀ m, fromJson (dMessage C.f64) payload ≠ .ok m := by
  intro m hm
  obtain ⟨prot', sig', pl', b, hdr, st, raw, e, d1, -, -, -, -, d3, -⟩ := h
  rw [ht] at e; cases e
  obtain ⟨a, k, hf⟩ := hf
  obtain ⟨-, rfl⟩ := dot_unique hf (no_dot d1) (encode_no_dot _)
  rw [B64.decode_encode] at d3; cases d3
  exact fromPrior_not_message f m hm

/-- A signature by Alice over claims of a prior DID, put into a signed envelope, is a valid signature by Alice: the
hypotheses of `C84_prior_is_no_message` are met, only the payload is no message. -/
example : ∃ t prot sig pl payload, SignsPrior World.claims (prot ++ b!"." ++ pl) ∧
    fromJson dJws t = .ok ⟨[⟨b!"did:example:alice#ed", prot, sig⟩], pl⟩ ∧
    SignedBy Toy.crypto t b!"did:example:alice#ed" .edDSA .ed25519 [1] payload := by
  let hdr := B64.encode (CompactHeader.toJson ⟨b!"JWT", .edDSA, b!"did:example:alice#ed"⟩).print
  let pl := B64.encode World.claims.toJson.print
  let raw : Bytes := Toy.curveByte .ed25519 :: Toy.sigByte .edDSA :: ([1] ++ (hdr ++ b!"." ++ pl))
  refine ⟨(JWS.toJson ⟨[⟨b!"did:example:alice#ed", hdr, B64.encode raw⟩], pl⟩).print, hdr, B64.encode raw, pl,
    World.claims.toJson.print, ⟨.edDSA, b!"did:example:alice#ed", rfl⟩, ?_, hdr, B64.encode raw, pl, _,
    ⟨b!"JWT", .edDSA⟩, .edDSA, raw, ?_, B64.decode_encode _, ?_, .edDSA, B64.decode_encode _, ?_, B64.decode_encode _, ?_⟩
  · exact jws_print ⟨[⟨_, hdr, B64.encode raw⟩], pl⟩ (B64.plain_encode _)
      (by simp only [List.mem_singleton, forall_eq]; exact ⟨⟨by decide, by decide⟩, B64.plain_encode _, B64.plain_encode _⟩)
  · exact jws_print ⟨[⟨_, hdr, B64.encode raw⟩], pl⟩ (B64.plain_encode _)
      (by simp only [List.mem_singleton, forall_eq]; exact ⟨⟨by decide, by decide⟩, B64.plain_encode _, B64.plain_encode _⟩)
  · rfl
  · simp [Toy.crypto, raw]
  · exact (validUtf8_iff _).1 (by decide +kernel)

/-! ## C85: authenticated encryption is authentic -/

/-- C85: what `pack_encrypted` with a sender encrypts for the receiver's keys, naming the sender, is the message or a
signed envelope around it. -/
theorem C85_packs (m : Message) (to f : Str) (signBy : Option Str) (opts : PackEncryptedOptions) (tr : List Event)
    (out : Str) (md : PackEncryptedMetadata) (h : Runs (packEncrypted C m to (some f) signBy opts) tr (.ok (out, md)))
    (hw : md.messagingService = none) :
    ∃ inner auth, Packs m inner ∧ Envelope C tr auth md.toKids b!"ECDH-1PU+A256KW" b!"A256CBC-HS512" md.fromKid inner ∧
      (opts.protectSender = false → out = auth) := by
  obtain ⟨inner, hi, -, he⟩ := C50_envelope m to (some f) signBy opts tr out md h hw
  have hp : Packs m inner := by
    cases signBy with
    | none => exact .inl hi
    | some _ => exact .inr hi
  obtain ⟨-, h1, h2⟩ := he rfl
  cases hs : opts.protectSender with
  | false => exact ⟨inner, out, hp, h1 hs, fun _ => rfl⟩
  | true =>
    obtain ⟨auth, ha, -⟩ := h2 hs
    exact ⟨inner, auth, hp, ha, fun h => by cases h⟩

/-- C85: if the owners of the reported sender key and of the key that opened the message encrypt for each other only the
messages `msgs`, the returned message is one of `msgs`. -/
theorem C85_authenticated (msg : Str) (opts : UnpackOptions) (tr : List Event) (m : Message) (md : UnpackMetadata) (k : Str)
    (msgs : Message → Prop) (h : Runs (unpack C msg opts) tr (.ok (m, md))) (hk : md.encryptedFromKid = some k)
    (hwf : ∀ m', msgs m' → m'.WF C.f64 ∧ NotEnvelope m')
    (honest : ∀ doc c skey kid secret rkey, evResolve (didOf k) (some doc) ∈ tr →
      KeyFrom C doc doc.keyAgreement k c skey → evGet kid (some secret) ∈ tr → secret.asKeyPair C = .ok ⟨c, rkey⟩ →
      OnlyEncrypted C c skey rkey msgs) :
    msgs m := by
  obtain ⟨t1, t2, t3, t4, msg1, md1, msg2, md2, msg3, md3, rfl, h1, h2, h3, h4, h5, h6⟩ := unpack_parts h
  have e6 : md.encryptedFromKid = md3.encryptedFromKid := by
    rcases h6 with ⟨-, -, rfl⟩ | ⟨_, _, _, _, _, _, -, -, -, -, -, rfl⟩ <;> rfl
  have e3 : md3.encryptedFromKid = md2.encryptedFromKid := by
    rcases h3 with ⟨-, rfl, -⟩ | ⟨_, _, _, _, _, -, -, -, -, rfl⟩ <;> rfl
  have e1 : md1.encryptedFromKid = none := by
    rcases h1.metadata with ⟨-, rfl, -⟩ | ⟨_, _, _, _, _, _, _, _, rfl, -⟩ <;> rfl
  rcases h2 with ⟨-, rfl, -⟩ | ⟨kids, k', doc, c, skey, kid, secret, rkey, ⟨a1, -⟩, -, a2, a3, -, a4, a5, rfl⟩
  · rw [e6, e3, e1] at hk; cases hk
  rw [e6, e3] at hk
  cases hk
  obtain ⟨j, hdr, apv, epk, kw, tag, -, -, -, -, -, -, -, b1, r, ek, cek, ct, iv, -, -, -, -, -, -, b2, b3⟩ := a1
  obtain ⟨m', hm, hp⟩ := honest doc c skey kid secret rkey (by simp [a2]) a3 (by simp [a4]) a5 _ _ _ _ _ _ _ _ _ _ _ b1 b2 b3
  have hread : fromJson (dMessage C.f64) m'.toJson.print = .ok m := by
    rcases h3 with ⟨rfl, -, -⟩ | ⟨kid, alg, doc, c, key, hs, -, -, -, -⟩
    · rcases hp with rfl | ⟨hdr, kid, sig, rfl⟩
      · exact h4
      · rw [JWS.onWire_eq, jws_not_message] at h4; cases h4
    · obtain ⟨prot, sig, pl, b, hdr, st, raw, d0, -, -, -, -, -, d3, -⟩ := hs
      rcases hp with rfl | ⟨hdr, kid, sig, rfl⟩
      · have := message_not_jws (hwf m' hm).1 (hwf m' hm).2
        unfold jwsFromStr at this
        rw [d0] at this; cases this
      · rw [JWS.onWire_eq] at d0
        have := jws_payload (B64.plain_encode _) d0
        simp only at this
        subst this
        rw [B64.decode_encode] at d3; cases d3
        exact h4
  rw [message_print m' (hwf m' hm).1] at hread
  cases hread; exact hm

/-- The toy primitives with ideal authenticated encryption: nothing opens but encryptions of `World.msg`. -/
def World.encrypting : Crypto :=
  { Toy.crypto with
    aeadDec := fun ce k iv aad d => (Toy.crypto.aeadDec ce k iv aad d).filter (fun p => decide (p = World.msg.toJson.print)) }

theorem World.onlyEncrypted (c : Curve) (skey rkey : World.encrypting.Key) :
    OnlyEncrypted World.encrypting c skey rkey (· = World.msg) := by
  intro epk apu apv tag kw ek cek iv aad ct payload _ _ h
  simp only [World.encrypting, Option.filter_eq_some_iff, decide_eq_true_eq] at h
  exact ⟨_, rfl, .inl h.2⟩

/-- With ideal authenticated encryption, a message Alice encrypted for Bob is accepted; all hypotheses of
`C85_authenticated` are met. -/
example : (∃ text tr m md, Runs (unpack World.encrypting text {}) tr (.ok (m, md)) ∧
      md.encryptedFromKid = some b!"did:example:alice#p1") ∧
    (∀ c skey rkey, OnlyEncrypted World.encrypting c skey rkey (· = World.msg)) ∧
    ∀ m', m' = World.msg → m'.WF World.encrypting.f64 ∧ NotEnvelope m' := by
  refine ⟨?_, World.onlyEncrypted, ?_⟩
  · have h : World.test World.env (do
        let (out, _) ← packEncrypted World.encrypting World.msg World.bob (some World.alice) none { forward := false }
        unpack World.encrypting out {}) (fun x => decide (x.2.encryptedFromKid = some b!"did:example:alice#p1")) = true := by
      decide +kernel
    obtain ⟨tr, ⟨m, md⟩, h, -, hk⟩ := World.of_test h
    rw [runs_bind_ok] at h
    obtain ⟨⟨out, _⟩, t1, t2, rfl, _, h⟩ := h
    exact ⟨out, t2, m, md, h, of_decide_eq_true hk⟩
  · rintro m' rfl
    exact ⟨World.msg_wf, World.msg_notEnvelope⟩

end DIDComm
