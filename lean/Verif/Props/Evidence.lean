import Verif.Proofs.Evidence
import Verif.Proofs.Steps
import Verif.Proofs.StrOrder
import Verif.Proofs.WorldRuns

/-!
# What a successful unpacking guarantees: C10–C13, C17–C24

All theorems are about every text and every run, so about every resolver, honest or not.
The words used in the statements (`AuthOpens`, `SignedBy`, `Within`, ..) are defined in
`Verif.Spec.Evidence` in terms of JSON texts and the cryptographic primitives.
-/

set_option autoImplicit false

namespace DIDComm

variable {C : Crypto}

/-! ## C10: authenticated encryption -/

/-- C10: if unpacking reports the sender key `k`, then a document was resolved for the DID of `k` that
lists `k` for key agreement with a public key `skey`, the text contains an envelope from `k` that opens,
by ECDH-1PU with exactly this key and a secret obtained from the resolver, and the message is in it. -/
theorem C10_sender (msg : Str) (opts : UnpackOptions) (tr : List Event) (m : Message) (md : UnpackMetadata) (k : Str)
    (h : Runs (unpack C msg opts) tr (.ok (m, md))) (hk : md.encryptedFromKid = some k) :
    ∃ (doc : DIDDoc) (c : Curve) (skey : C.Key) (t : Str) (kids : List Str) (kid : Str) (secret : Secret)
      (rkey : C.Key) (payload : Bytes),
      HasFragment k ∧ evResolve (didOf k) (some doc) ∈ tr ∧ KeyFrom C doc doc.keyAgreement k c skey ∧
      Within C msg t ∧ evGet kid (some secret) ∈ tr ∧ secret.asKeyPair C = .ok ⟨c, rkey⟩ ∧
      AuthOpens C t kids k c skey kid rkey payload ∧ Holds C payload m := by
  obtain ⟨t1, t2, t3, t4, msg1, md1, msg2, md2, msg3, md3, rfl, h1, h2, h3, h4, h5, h6⟩ := unpack_parts h
  have e6 : md.encryptedFromKid = md3.encryptedFromKid := by
    rcases h6 with ⟨-, -, rfl⟩ | ⟨_, _, _, _, _, _, -, -, -, -, -, rfl⟩ <;> rfl
  have e3 : md3.encryptedFromKid = md2.encryptedFromKid := by
    rcases h3 with ⟨-, rfl, -⟩ | ⟨_, _, _, _, _, -, -, -, -, rfl⟩ <;> rfl
  have e1 : md1.encryptedFromKid = none := by
    rcases h1.metadata with ⟨-, rfl, -⟩ | ⟨_, _, _, _, _, _, _, _, rfl, -⟩ <;> rfl
  have hw : Holds C msg2 m := by
    refine ⟨msg3, ?_, h4⟩
    rcases h3 with ⟨rfl, -, -⟩ | ⟨_, _, _, _, _, hs, -⟩
    · exact .here _
    · exact .signed hs (.here _)
  rcases h2 with ⟨-, rfl, -⟩ | ⟨kids, fromKid, doc, c, skey, kid, secret, rkey, a1, a2, a3, a4, a5, a6, a7, rfl⟩
  · rw [e6, e3, e1] at hk; cases hk
  · rw [e6, e3] at hk
    cases hk
    exact ⟨doc, c, skey, msg1, kids, kid, secret, rkey, msg2, a2, by simp [a3], a4, h1.within, by simp [a6], a7, a1.1, hw⟩

/-- In the concrete world there is a text for which a sender is reported. -/
example : ∃ msg tr m md, Runs (unpack Toy.crypto msg {}) tr (.ok (m, md)) ∧
    md.encryptedFromKid = some b!"did:example:alice#p1" := by
  obtain ⟨msg, tr, m, md, h, -, hk, -⟩ := World.fullRun
  exact ⟨msg, tr, m, md, h, hk⟩

/-! ## C11: signatures -/

/-- C11: if unpacking reports `non_repudiation`, it also reports the signer `k`, an algorithm and the signed
text `t`.  That text was found inside the input; it is a JWS with one signature, by `k`; a
document was resolved for the DID of `k` that lists `k` for authentication, and the signature verifies
with that key; the message is in the signed payload. -/
theorem C11_signer (msg : Str) (opts : UnpackOptions) (tr : List Event) (m : Message) (md : UnpackMetadata)
    (h : Runs (unpack C msg opts) tr (.ok (m, md))) (hn : md.nonRepudiation = true) :
    ∃ (k t : Str) (alg : SignAlg) (doc : DIDDoc) (c : Curve) (key : C.Key) (payload : Bytes),
      md.signFrom = some k ∧ md.signedMessage = some t ∧ md.signAlg = some alg ∧
      HasFragment k ∧ evResolve (didOf k) (some doc) ∈ tr ∧ KeyFrom C doc doc.authentication k c key ∧
      Within C msg t ∧ SignedBy C t k alg c key payload ∧ fromJson (dMessage C.f64) payload = .ok m := by
  obtain ⟨t1, t2, t3, t4, msg1, md1, msg2, md2, msg3, md3, rfl, h1, h2, h3, h4, h5, h6⟩ := unpack_parts h
  have e6 : md.nonRepudiation = md3.nonRepudiation ∧ md.signFrom = md3.signFrom ∧ md.signedMessage = md3.signedMessage ∧
      md.signAlg = md3.signAlg := by
    rcases h6 with ⟨-, -, rfl⟩ | ⟨_, _, _, _, _, _, -, -, -, -, -, rfl⟩ <;> exact ⟨rfl, rfl, rfl, rfl⟩
  have e1 : md1.nonRepudiation = false := by
    rcases h1.metadata with ⟨-, rfl, -⟩ | ⟨_, _, _, _, _, _, _, _, rfl, -⟩ <;> rfl
  have e2 : md2.nonRepudiation = md1.nonRepudiation := by
    rcases h2 with ⟨-, rfl, -⟩ | ⟨_, _, _, _, _, _, _, _, -, -, -, -, -, -, -, rfl⟩ <;> rfl
  have hw : Within C msg msg2 := by
    refine h1.within.trans ?_
    rcases h2 with ⟨rfl, -, -⟩ | ⟨_, _, _, _, _, _, _, _, hs, -⟩
    · exact .here _
    · exact .auth hs.1 hs.2 (.here _)
  rcases h3 with ⟨-, rfl, -⟩ | ⟨kid, alg, doc, c, key, a1, a2, rfl, a4, rfl⟩
  · rw [e6.1, e2, e1] at hn; cases hn
  · exact ⟨kid, msg2, alg, doc, c, key, msg3, e6.2.1, e6.2.2.1, e6.2.2.2, a2, by simp, a4, hw, a1, h4⟩

/-- C11, from the reported signer: a signer is only reported with `non_repudiation`, so with the evidence of
`C11_signer`. -/
theorem C11_reported (msg : Str) (opts : UnpackOptions) (tr : List Event) (m : Message) (md : UnpackMetadata)
    (h : Runs (unpack C msg opts) tr (.ok (m, md))) (hs : md.signFrom.isSome = true ∨ md.signedMessage.isSome = true) :
    md.nonRepudiation = true := by
  obtain ⟨t1, t2, t3, t4, msg1, md1, msg2, md2, msg3, md3, rfl, h1, h2, h3, h4, h5, h6⟩ := unpack_parts h
  have e6 : md.nonRepudiation = md3.nonRepudiation ∧ md.signFrom = md3.signFrom ∧ md.signedMessage = md3.signedMessage := by
    rcases h6 with ⟨-, -, rfl⟩ | ⟨_, _, _, _, _, _, -, -, -, -, -, rfl⟩ <;> exact ⟨rfl, rfl, rfl⟩
  have e1 : md1.signFrom = none ∧ md1.signedMessage = none := by
    rcases h1.metadata with ⟨-, rfl, -⟩ | ⟨_, _, _, _, _, _, _, _, rfl, -⟩ <;> exact ⟨rfl, rfl⟩
  have e2 : md2.signFrom = md1.signFrom ∧ md2.signedMessage = md1.signedMessage := by
    rcases h2 with ⟨-, rfl, -⟩ | ⟨_, _, _, _, _, _, _, _, -, -, -, -, -, -, -, rfl⟩ <;> exact ⟨rfl, rfl⟩
  rcases h3 with ⟨-, rfl, -⟩ | ⟨kid, alg, doc, c, key, a1, a2, rfl, a4, rfl⟩
  · rw [e6.2.1, e6.2.2, e2.1, e2.2, e1.1, e1.2] at hs; simp at hs
  · rw [e6.1]; rfl

/-- In the concrete world there is a text for which a signer is reported. -/
example : ∃ msg tr m md, Runs (unpack Toy.crypto msg {}) tr (.ok (m, md)) ∧
    md.signFrom = some b!"did:example:alice#ed" := by
  obtain ⟨msg, tr, m, md, h, -, -, hk, -⟩ := World.fullRun
  exact ⟨msg, tr, m, md, h, hk⟩

/-! ## C12: consistency of the metadata -/

/-- The metadata of a message are consistent with each other, with the options and with the message. -/
structure Consistent (opts : UnpackOptions) (m : Message) (md : UnpackMetadata) : Prop where
  authenticated : md.authenticated = true ↔ md.encryptedFromKid.isSome = true ∨ md.signFrom.isSome = true
  nonRepudiation : md.nonRepudiation = true ↔ md.signFrom.isSome = true
  signAlg : md.signAlg.isSome = md.signFrom.isSome
  signedMessage : md.signedMessage.isSome = md.signFrom.isSome
  encrypted : md.encrypted = true ↔ md.encryptedToKids.isSome = true
  algs : md.encrypted = true ↔ md.encAlgAnon.isSome = true ∨ md.encAlgAuth.isSome = true
  anonymous : md.anonymousSender = true ↔ md.encAlgAnon.isSome = true
  sender : md.encAlgAuth.isSome = md.encryptedFromKid.isSome
  reWrapped : md.reWrappedInForward = true →
    opts.unwrapReWrappingForward = true ∧ md.encrypted = true ∧ md.anonymousSender = true
  fromPrior : md.fromPrior.isSome = m.fromPrior.isSome
  issuer : md.fromPriorIssuerKid.isSome = m.fromPrior.isSome

/-- C12: the metadata of every successful unpacking are consistent. -/
theorem C12_consistent (msg : Str) (opts : UnpackOptions) (tr : List Event) (m : Message) (md : UnpackMetadata)
    (h : Runs (unpack C msg opts) tr (.ok (m, md))) : Consistent opts m md := by
  obtain ⟨t1, t2, t3, t4, msg1, md1, msg2, md2, msg3, md3, rfl, h1, h2, h3, h4, h5, h6⟩ := unpack_parts h
  rcases h1.metadata with ⟨-, rfl, -⟩ | ⟨kids, alg, w, t, kid, secret, key, payload, rfl, hw, -⟩ <;>
  rcases h2 with ⟨-, rfl, -⟩ | ⟨_, _, _, _, _, _, _, _, -, -, -, -, -, -, -, rfl⟩ <;>
  rcases h3 with ⟨-, rfl, -⟩ | ⟨_, _, _, _, _, -, -, -, -, rfl⟩ <;>
  rcases h6 with ⟨hp, -, rfl⟩ | ⟨_, _, _, _, _, _, hp, -, -, -, -, rfl⟩ <;>
  constructor <;> simp_all [UnpackMetadata.anon, UnpackMetadata.auth, UnpackMetadata.sign]

/-! ## C13: from_prior -/

/-- C13: if the returned message carries a `from_prior`, the metadata contain an issuer key id `k` and
claims `fp`; the text of `from_prior` is a JWT of these claims naming `k`, and its signature
verifies with the key `k` listed for authentication in a document resolved for the DID of `k`. -/
theorem C13_from_prior (msg : Str) (opts : UnpackOptions) (tr : List Event) (m : Message) (md : UnpackMetadata)
    (jwt : Str) (h : Runs (unpack C msg opts) tr (.ok (m, md))) (hj : m.fromPrior = some jwt) :
    ∃ (k : Str) (fp : FromPrior) (doc : DIDDoc) (c : Curve) (key : C.Key),
      md.fromPriorIssuerKid = some k ∧ md.fromPrior = some fp ∧ HasFragment k ∧
      evResolve (didOf k) (some doc) ∈ tr ∧ KeyFrom C doc doc.authentication k c key ∧ JwtBy C jwt k c key fp := by
  obtain ⟨t1, t2, t3, t4, msg1, md1, msg2, md2, msg3, md3, rfl, h1, h2, h3, h4, h5, h6⟩ := unpack_parts h
  rcases h6 with ⟨hp, -, -⟩ | ⟨jwt', fp, kid, doc, c, key, hp, a1, a2, rfl, a4, rfl⟩
  · rw [hp] at hj; cases hj
  · rw [hp] at hj; cases hj
    exact ⟨kid, fp, doc, c, key, rfl, rfl, a2, by simp, a4, a1⟩

/-- In the concrete world there is a text with a `from_prior`. -/
example : ∃ msg tr m md jwt, Runs (unpack Toy.crypto msg {}) tr (.ok (m, md)) ∧ m.fromPrior = some jwt ∧
    md.fromPrior = some { iss := World.alice, sub := World.bob } := by
  obtain ⟨msg, tr, m, md, h, -, hs, -, hk⟩ := World.priorRun
  obtain ⟨jwt, hj⟩ := Option.isSome_iff_exists.1 hs
  exact ⟨msg, tr, m, md, jwt, h, hj, hk⟩

/-! ## C17: plaintext -/

/-- C17: a returned message has the plaintext media type and is what the innermost text, found inside
the input, is parsed to. -/
theorem C17_plaintext (msg : Str) (opts : UnpackOptions) (tr : List Event) (m : Message) (md : UnpackMetadata)
    (h : Runs (unpack C msg opts) tr (.ok (m, md))) :
    m.typ = b!"application/didcomm-plain+json" ∧ Holds C msg m := by
  obtain ⟨t1, t2, t3, t4, msg1, md1, msg2, md2, msg3, md3, rfl, h1, h2, h3, h4, h5, h6⟩ := unpack_parts h
  refine ⟨h5, msg3, h1.within.trans ?_, h4⟩
  rcases h2 with ⟨rfl, -, -⟩ | ⟨_, _, _, _, _, _, _, _, hs, -⟩ <;>
    rcases h3 with ⟨rfl, -, -⟩ | ⟨_, _, _, _, _, hs3, -⟩
  · exact .here _
  · exact .signed hs3 (.here _)
  · exact .auth hs.1 hs.2 (.here _)
  · exact .auth hs.1 hs.2 (.signed hs3 (.here _))

/-! ## C18: recipients -/

theorem checkRecipients_ok {kids : List Str} :
    checkRecipients kids = .ok () ↔
      kids ≠ [] ∧ (∀ k ∈ kids, HasFragment k) ∧ ∀ k ∈ kids, ∀ k' ∈ kids, didOf k = didOf k' := by
  cases kids with
  | nil => simp [checkRecipients, fail]
  | cons k0 r =>
    simp only [checkRecipients, fail, didOrUrl_fst]
    split
    · rename_i h
      simp only [List.any_eq_true, Bool.or_eq_true, decide_eq_true_eq, didOrUrl_isNone] at h
      obtain ⟨k, hk, h⟩ := h
      refine ⟨fun h => (by cases h), ?_⟩
      rintro ⟨-, h1, h2⟩
      rcases h with h | h
      · exact absurd (h2 k hk k0 (by simp)) h
      · exact absurd (h1 k hk) h
    · rename_i h
      simp only [List.any_eq_true, Bool.or_eq_true, decide_eq_true_eq, didOrUrl_isNone, not_exists, not_and, not_or,
        ne_eq, Decidable.not_not] at h
      refine ⟨fun _ => ⟨by simp, fun k hk => (h k hk).2, fun k hk k' hk' => ?_⟩, fun _ => rfl⟩
      rw [(h k hk).1, (h k' hk').1]

/-- C18: the reported recipients exist, are key ids, and belong to one DID. -/
theorem C18_one_did (msg : Str) (opts : UnpackOptions) (tr : List Event) (m : Message) (md : UnpackMetadata)
    (ks : List Str) (h : Runs (unpack C msg opts) tr (.ok (m, md))) (hk : md.encryptedToKids = some ks) :
    ks ≠ [] ∧ (∀ k ∈ ks, HasFragment k) ∧ ∀ k ∈ ks, ∀ k' ∈ ks, didOf k = didOf k' := by
  rw [← checkRecipients_ok]
  obtain ⟨t1, t2, t3, t4, msg1, md1, msg2, md2, msg3, md3, rfl, h1, h2, h3, h4, h5, h6⟩ := unpack_parts h
  have e6 : md.encryptedToKids = md3.encryptedToKids := by
    rcases h6 with ⟨-, -, rfl⟩ | ⟨_, _, _, _, _, _, -, -, -, -, -, rfl⟩ <;> rfl
  have e3 : md3.encryptedToKids = md2.encryptedToKids := by
    rcases h3 with ⟨-, rfl, -⟩ | ⟨_, _, _, _, _, -, -, -, -, rfl⟩ <;> rfl
  rw [e6, e3] at hk
  rcases h1.metadata with ⟨-, rfl, -⟩ | ⟨kids, alg, w, t, kid, secret, key, payload, rfl, hw, hc, -⟩ <;>
  rcases h2 with ⟨-, rfl, -⟩ | ⟨kids', _, _, _, _, _, _, _, -, -, -, -, hc', -, -, rfl⟩ <;> cases hk <;> assumption

/-- In the concrete world there is a text with reported recipients. -/
example : ∃ msg tr m md, Runs (unpack Toy.crypto msg {}) tr (.ok (m, md)) ∧
    md.encryptedToKids = some [b!"did:example:bob#p1"] := by
  obtain ⟨msg, tr, m, md, h, -, -, -, -, hk, -⟩ := World.fullRun
  exact ⟨msg, tr, m, md, h, hk⟩

/-! ## The outermost layer -/

theorem unpack_parses {msg : Str} {opts : UnpackOptions} {tr : List Event} {x : Message × UnpackMetadata} {j : JWE}
    (h : Runs (unpack C msg opts) tr (.ok x)) (hj : fromJson dJwe msg = .ok j) : ∃ p, j.parse C = .ok p := by
  cases hp : j.parse C with
  | ok p => exact ⟨p, rfl⟩
  | error e =>
    rw [unpack_anon_error (tryAnon_parse_error (opts := opts) hj hp)] at h
    cases (runs_ret.1 h).2

theorem outer_auth {msg : Str} {opts : UnpackOptions} {tr : List Event} {x : Message × UnpackMetadata} {j : JWE}
    {p : ParsedJWE} (h : Runs (unpack C msg opts) tr (.ok x)) (hj : fromJson dJwe msg = .ok j) (hp : j.parse C = .ok p)
    (ha : p.protected_.alg = .ecdh1pu) :
    ∃ payload md2 t2 t3, tr = t2 ++ t3 ∧ Runs (tryUnpackAuthcrypt C msg opts {}) t2 (.ok (some payload, md2)) ∧
      Runs (afterAuth C payload md2) t3 (.ok x) := by
  have hj : jweFromStr msg = .ok j := hj
  rw [unpack_skip_anon (tryAnon_other hj hp (by rw [ha]; simp)), afterAnon_eq] at h
  simp only [runs_bind_ok, Prod.exists] at h
  obtain ⟨auth, md2, t2, t3, rfl, h1, h2⟩ := h
  cases auth with
  | none =>
    rcases tryUnpackAuthcrypt_ok.1 h1 with ⟨-, -, -, h | ⟨j', p', e1, e2, h⟩⟩ | ⟨_, _, _, _, _, _, _, _, _, _, h, -⟩
    · rw [h] at hj; cases hj
    · rw [hj] at e1; cases e1
      rw [hp] at e2; cases e2
      exact absurd ha h
    · cases h
  | some payload => exact ⟨payload, md2, t2, t3, rfl, h1, h2⟩

theorem outer_anon {msg : Str} {opts : UnpackOptions} {tr : List Event} {m : Message} {md : UnpackMetadata} {j : JWE}
    {p : ParsedJWE} (h : Runs (unpack C msg opts) tr (.ok (m, md))) (hj : fromJson dJwe msg = .ok j)
    (hp : j.parse C = .ok p) (ha : p.protected_.alg = .ecdhEs) :
    ∃ payload md1 t1 t2, tr = t1 ++ t2 ∧ Runs (tryUnpackAnoncrypt C msg opts {}) t1 (.ok (some payload, md1)) ∧
      Holds C payload m := by
  have hj : jweFromStr msg = .ok j := hj
  obtain ⟨t1, t2, t3, t4, msg1, md1, msg2, md2, msg3, md3, rfl, h1, h2, h3, h4, h5, h6⟩ := unpack_parts h
  have rest : Within C msg1 msg3 := by
    rcases h2 with ⟨rfl, -, -⟩ | ⟨_, _, _, _, _, _, _, _, hs, -⟩ <;>
      rcases h3 with ⟨rfl, -, -⟩ | ⟨_, _, _, _, _, hs3, -⟩
    · exact .here _
    · exact .signed hs3 (.here _)
    · exact .auth hs.1 hs.2 (.here _)
    · exact .auth hs.1 hs.2 (.signed hs3 (.here _))
  cases h1 with
  | stop hs =>
    rcases tryUnpackAnoncrypt_ok.1 hs with ⟨-, -, -, h | ⟨j', p', e1, e2, h⟩⟩ | ⟨_, _, _, _, _, _, h, -⟩
    · rw [h] at hj; cases hj
    · rw [hj] at e1; cases e1
      rw [hp] at e2; cases e2
      exact absurd ha h
    · cases h
  | last hs _ => exact ⟨msg1, md1, _, _, by simp only [List.append_assoc]; rfl, hs, msg3, rest, h4⟩
  | again hs _ hf hu =>
    obtain ⟨m', next, v, f1, f2, rfl, -⟩ := forwarded_layer hf
    exact ⟨_, _, _, _, by simp only [List.append_assoc]; rfl, hs, msg3, .forward f1 f2 (hu.within.trans rest), h4⟩

theorem afterAuth_frame {t : Str} {md0 md : UnpackMetadata} {tr : List Event} {m : Message}
    (h : Runs (afterAuth C t md0) tr (.ok (m, md))) :
    md.encryptedFromKid = md0.encryptedFromKid ∧ md.encrypted = md0.encrypted ∧ Holds C t m ∧
      ∀ e ∈ tr, ∃ d x, e = evResolve d x := by
  rw [afterAuth_eq] at h
  simp only [runs_bind_ok, Prod.exists] at h
  obtain ⟨signed, md3, t3, t4, rfl, h3, h4⟩ := h
  simp only [afterSign, runs_ok] at h4
  obtain ⟨m', md', t5, _, rfl, h4, _, rfl, rfl, rfl, rfl⟩ := h4
  have hs : md3.encryptedFromKid = md0.encryptedFromKid ∧ md3.encrypted = md0.encrypted ∧
      Within C t (signed.getD t) ∧ ∀ e ∈ t3, ∃ d x, e = evResolve d x := by
    cases signed with
    | none =>
      rcases tryUnpackSign_ok.1 h3 with ⟨-, rfl, rfl, -⟩ | ⟨_, _, _, _, _, _, _, _, h, -⟩
      · exact ⟨rfl, rfl, .here _, by simp⟩
      · cases h
    | some p =>
      obtain ⟨kid, alg, doc, c, key, e1, e2, rfl, e4, e5, rfl⟩ := sign_layer h3
      exact ⟨rfl, rfl, .signed e1 (.here _), by simpa using ⟨_, _, rfl⟩⟩
  rcases tryUnpackPlaintext_ok.1 h4 with ⟨h, -⟩ | ⟨m', hm, e1, e2, e3⟩
  · cases h
  · cases hm
    rcases e3 with ⟨a, rfl, rfl⟩ | ⟨jwt, fp, kid, a, b, rfl⟩
    · exact ⟨hs.1, hs.2.1, ⟨_, hs.2.2.1, e1⟩, by simpa using hs.2.2.2⟩
    · obtain ⟨doc, c', key, g1, g2, rfl, g4⟩ := fromPrior_layer b
      refine ⟨hs.1, hs.2.1, ⟨_, hs.2.2.1, e1⟩, ?_⟩
      intro e he
      simp only [List.append_nil, List.mem_append, List.mem_singleton] at he
      rcases he with he | rfl
      · exact hs.2.2.2 e he
      · exact ⟨_, _, rfl⟩

/-! ## C19: the sender in the header -/

/-- A JWE header that names a sender in `skid` other than the one in `apu` (or names one although there is no
`apu`). -/
def SenderMismatch (hdr : JweHeader) : Prop := ∃ s, hdr.skid = some s ∧ hdr.apu.bind B64.decode ≠ some s

/-- C19, negative part: an envelope whose `skid` differs from its `apu` is rejected without any call. -/
theorem C19_mismatch (msg : Str) (opts : UnpackOptions) (tr : List Event) (r : Res (Message × UnpackMetadata))
    (j : JWE) (b : Bytes) (hdr : JweHeader) (hj : fromJson dJwe msg = .ok j) (hb : B64.decode j.protected_ = some b)
    (hh : fromJson (dJweHeader C.f64) b = .ok hdr) (ha : hdr.alg = .ecdhEs ∨ hdr.alg = .ecdh1pu)
    (hm : SenderMismatch hdr) (h : Runs (unpack C msg opts) tr r) : tr = [] ∧ r = .error (.kind .malformed) := by
  have hj : jweFromStr msg = .ok j := hj
  suffices hu : unpack C msg opts = .ret (.error (.kind .malformed)) by rw [hu] at h; exact runs_ret.1 h
  obtain ⟨s, hs, hne⟩ := hm
  cases hp : j.parse C with
  | error e =>
    have : e = .kind .malformed := by
      simp only [JWE.parse, res_bind_error, okOr_eq_error, hb, hh] at hp
      rcases hp with ⟨h, -⟩ | ⟨b', hb', hp⟩
      · cases h
      · cases hb'
        rw [hh] at hp
        rcases hp with h | ⟨_, h, hp⟩
        · cases h
        cases h
        rcases hp with ⟨-, h⟩ | ⟨apv, -, hp⟩
        · exact h
        cases hu : hdr.apu with
        | none => rw [hu] at hp; cases hp
        | some a =>
          rw [hu] at hp
          simp only at hp
          cases hd : B64.decode a <;> rw [hd] at hp <;> cases hp
          rfl
    subst this
    exact unpack_anon_error (tryAnon_parse_error hj hp)
  | ok p =>
    obtain ⟨rfl, hr⟩ := jwe_parse_ok hj hp
    obtain ⟨b', hb', hh'⟩ := hr.header
    rw [hb] at hb'; cases hb'
    rw [hh] at hh'; cases hh'
    have hv : p.verifyDidcomm C = .error (.kind .malformed) := by
      simp only [ParsedJWE.verifyDidcomm, fail]
      split
      · rfl
      rcases hr.apu with ⟨h1, h2⟩ | ⟨a, x, h1, h2, h3⟩
      · simp only [h2, hs]
      · simp only [h3, hs]
        split
        · rfl
        · rw [if_pos]
          intro hx
          apply hne
          rw [h1, ← hx]; exact h2
    rcases ha with ha | ha
    · exact unpack_anon_error (tryAnon_verify_error hj hp ha hv)
    · rw [unpack_skip_anon (tryAnon_other hj hp (by rw [ha]; simp)), afterAnon_eq, tryAuth_verify_error hj hp ha hv]
      rfl

/-- The toy text of an envelope with the given header. -/
def World.jweText (hdr : JweHeader) : Str :=
  (JWE.toJson ⟨B64.encode hdr.toJson.print, [⟨b!"did:a:b#c", b!""⟩], b!"", b!"", b!""⟩).print

/-- A header with `skid` but without `apu`. -/
def World.mismatched : JweHeader :=
  { typ := none, alg := .ecdhEs, enc := .a256gcm, apv := b!"", epk := .null, skid := some b!"x", apu := none }

set_option maxRecDepth 100000 in
example : ∃ j b hdr, fromJson dJwe (World.jweText World.mismatched)
      = .ok j ∧ B64.decode j.protected_ = some b ∧ fromJson (dJweHeader Toy.crypto.f64) b = .ok hdr ∧
      hdr.alg = .ecdhEs ∧ SenderMismatch hdr :=
  ⟨⟨B64.encode World.mismatched.toJson.print, [⟨b!"did:a:b#c", b!""⟩], b!"", b!"", b!""⟩, World.mismatched.toJson.print,
    World.mismatched, rfl, rfl, rfl, rfl, b!"x", rfl, by decide⟩

/-- C19, positive part: an accepted envelope at the outermost layer with sender authentication has an `apu` that
decodes to the sender key id that was used, and its `skid`, if any, equals it. -/
theorem C19_sender (msg : Str) (opts : UnpackOptions) (tr : List Event) (m : Message) (md : UnpackMetadata)
    (j : JWE) (b : Bytes) (hdr : JweHeader) (hj : fromJson dJwe msg = .ok j) (hb : B64.decode j.protected_ = some b)
    (hh : fromJson (dJweHeader C.f64) b = .ok hdr) (ha : hdr.alg = .ecdh1pu)
    (h : Runs (unpack C msg opts) tr (.ok (m, md))) :
    ∃ k a, md.encryptedFromKid = some k ∧ hdr.apu = some a ∧ B64.decode a = some k ∧
      (hdr.skid = none ∨ hdr.skid = some k) := by
  obtain ⟨p, hp⟩ := unpack_parses h hj
  obtain ⟨rfl, hr⟩ := jwe_parse_ok hj hp
  obtain ⟨b', hb', hh'⟩ := hr.header
  rw [hb] at hb'; cases hb'
  rw [hh] at hh'; cases hh'
  obtain ⟨payload, md2, t2, t3, rfl, h1, h2⟩ := outer_auth h hj hp ha
  rcases tryUnpackAuthcrypt_ok.1 h1 with ⟨h, -⟩ | ⟨jwe, p', k, doc, vm, fromKey, found, tr', alg, payload, ho, e1, e2, -, h3,
    hapu, hu1, hfr, hka, hvm, hfk, h4, rfl, hf, h5, hu, rfl⟩
  · cases h
  rw [show jweFromStr msg = .ok p.jwe from hj] at e1; cases e1
  rw [hp] at e2; cases e2
  refine ⟨k, ?_⟩
  rcases hr.apu with ⟨-, h⟩ | ⟨a, x, a1, a2, a3⟩
  · rw [h] at hapu; cases hapu
  · rw [a3] at hapu; cases hapu
    refine ⟨a, (afterAuth_frame h2).1, a1, a2, ?_⟩
    rcases (verifyDidcomm_ok h3).2 with ⟨h, -⟩ | ⟨y, h, -, h'⟩
    · rw [a3] at h; cases h
    · rw [a3] at h; cases h; exact h'

/-! ## C20: the recipients in the header -/

theorem outer_checked {msg : Str} {opts : UnpackOptions} {tr : List Event} {m : Message} {md : UnpackMetadata}
    {j : JWE} {b : Bytes} {hdr : JweHeader} (hj : fromJson dJwe msg = .ok j) (hb : B64.decode j.protected_ = some b)
    (hh : fromJson (dJweHeader C.f64) b = .ok hdr) (ha : hdr.alg = .ecdhEs ∨ hdr.alg = .ecdh1pu)
    (h : Runs (unpack C msg opts) tr (.ok (m, md))) :
    ∃ p : ParsedJWE, p.jwe = j ∧ ReadsJwe C msg j hdr p.apu p.apv ∧ p.verifyDidcomm C = .ok p ∧
      checkRecipients (j.recipients.map JweRecipient.kid) = .ok () := by
  obtain ⟨p, hp⟩ := unpack_parses h hj
  obtain ⟨rfl, hr⟩ := jwe_parse_ok hj hp
  obtain ⟨b', hb', hh'⟩ := hr.header
  rw [hb] at hb'; cases hb'
  rw [hh] at hh'; cases hh'
  refine ⟨p, rfl, hr, ?_⟩
  have hj : jweFromStr msg = .ok p.jwe := hj
  rcases ha with ha | ha
  · obtain ⟨payload, md1, t1, t2, -, h1, -⟩ := outer_anon h hj hp ha
    rcases tryUnpackAnoncrypt_ok.1 h1 with ⟨h, -⟩ | ⟨j', p', _, _, _, _, -, e1, e2, -, hv, hc, -⟩
    · cases h
    · rw [hj] at e1; cases e1
      rw [hp] at e2; cases e2; exact ⟨hv, hc⟩
  · obtain ⟨payload, md1, t1, t2, -, h1, -⟩ := outer_auth h hj hp ha
    rcases tryUnpackAuthcrypt_ok.1 h1 with ⟨h, -⟩ | ⟨j', p', _, _, _, _, _, _, _, _, -, e1, e2, -, hv, -, -, -, -, -, -, hc, -⟩
    · cases h
    · rw [hj] at e1; cases e1
      rw [hp] at e2; cases e2; exact ⟨hv, hc⟩

/-- C20: an accepted envelope names, by `apv`, the SHA-256 of the sorted recipient key ids joined with dots. -/
theorem C20_apv (msg : Str) (opts : UnpackOptions) (tr : List Event) (m : Message) (md : UnpackMetadata)
    (j : JWE) (b : Bytes) (hdr : JweHeader) (hj : fromJson dJwe msg = .ok j) (hb : B64.decode j.protected_ = some b)
    (hh : fromJson (dJweHeader C.f64) b = .ok hdr) (ha : hdr.alg = .ecdhEs ∨ hdr.alg = .ecdh1pu)
    (h : Runs (unpack C msg opts) tr (.ok (m, md))) :
    B64.decode hdr.apv = some (C.sha256 (joinedKids (j.recipients.map JweRecipient.kid))) := by
  obtain ⟨p, rfl, hr, hv, -⟩ := outer_checked hj hb hh ha h
  rw [hr.apv, (verifyDidcomm_ok hv).1, joinedKids_eq]; rfl

/-- C20: the check does not depend on the order of the recipients. -/
theorem C20_order (p : ParsedJWE) (rs : List JweRecipient) (hr : rs.Perm p.jwe.recipients) :
    (p.verifyDidcomm C = .ok p) ↔
      (ParsedJWE.verifyDidcomm C { p with jwe := { p.jwe with recipients := rs } } =
        .ok { p with jwe := { p.jwe with recipients := rs } }) := by
  have : apvOf C (rs.map JweRecipient.kid) = apvOf C (p.jwe.recipients.map JweRecipient.kid) := by
    unfold apvOf; rw [sortStrs_of_perm (hr.map _)]
  simp only [ParsedJWE.verifyDidcomm, fail, this]
  repeat' split
  all_goals simp

theorem joinWith_inj {c : UInt8} : ∀ {l l' : List Str}, l ≠ [] → l' ≠ [] → (∀ s ∈ l, c ∉ s) → (∀ s ∈ l', c ∉ s) →
    joinWith c l = joinWith c l' → l = l' := by
  have key : ∀ {l : List Str}, l ≠ [] → (∀ s ∈ l, c ∉ s) → splitOn c (joinWith c l) = l := by
    intro l
    induction l with
    | nil => intro h; exact absurd rfl h
    | cons a r ih =>
      intro _ h
      cases r with
      | nil => exact splitOn_free (h a (by simp))
      | cons a2 r =>
        simp only [joinWith]
        rw [splitOn_append (h a (by simp)), ih (by simp) (fun s hs => h s (by simp [hs]))]
  intro l l' h1 h2 h3 h4 h
  rw [← key h1 h3, ← key h2 h4, h]

/-- C20: two accepted envelopes with the same protected header have the same recipients, as multisets, if the
key ids contain no dots and SHA-256 does not collide. -/
theorem C20_binding (msg msg' : Str) (opts opts' : UnpackOptions) (tr tr' : List Event) (m m' : Message)
    (md md' : UnpackMetadata) (j j' : JWE) (b : Bytes) (hdr : JweHeader)
    (hj : fromJson dJwe msg = .ok j) (hj' : fromJson dJwe msg' = .ok j') (hjj : j.protected_ = j'.protected_)
    (hb : B64.decode j.protected_ = some b) (hh : fromJson (dJweHeader C.f64) b = .ok hdr)
    (ha : hdr.alg = .ecdhEs ∨ hdr.alg = .ecdh1pu)
    (h : Runs (unpack C msg opts) tr (.ok (m, md))) (h' : Runs (unpack C msg' opts') tr' (.ok (m', md')))
    (hd : ∀ r ∈ j.recipients, 0x2E ∉ r.kid) (hd' : ∀ r ∈ j'.recipients, 0x2E ∉ r.kid) :
    (j.recipients.map JweRecipient.kid).Perm (j'.recipients.map JweRecipient.kid) ∨
      ∃ x y, x ≠ y ∧ C.sha256 x = C.sha256 y := by
  have e1 := C20_apv msg opts tr m md j b hdr hj hb hh ha h
  have e2 := C20_apv msg' opts' tr' m' md' j' b hdr hj' (hjj ▸ hb) hh ha h'
  have hne : j.recipients ≠ [] := by
    obtain ⟨_, -, -, -, hc⟩ := outer_checked hj hb hh ha h
    simpa using (checkRecipients_ok.1 hc).1
  have hne' : j'.recipients ≠ [] := by
    obtain ⟨_, -, -, -, hc⟩ := outer_checked hj' (hjj ▸ hb) hh ha h'
    simpa using (checkRecipients_ok.1 hc).1
  rw [e1, joinedKids_eq, joinedKids_eq] at e2
  injection e2 with e2
  have hs1 := sortStrs_perm (j.recipients.map JweRecipient.kid)
  have hs2 := sortStrs_perm (j'.recipients.map JweRecipient.kid)
  by_cases hx : joinWith 0x2E (sortStrs (j.recipients.map JweRecipient.kid)) =
      joinWith 0x2E (sortStrs (j'.recipients.map JweRecipient.kid))
  · left
    have := joinWith_inj (c := 0x2E) (fun h => hne (by simpa [h] using hs1.length_eq.symm))
      (fun h => hne' (by simpa [h] using hs2.length_eq.symm))
      (fun s hs => by obtain ⟨r, hr, rfl⟩ := List.mem_map.1 (hs1.mem_iff.1 hs); exact hd r hr)
      (fun s hs => by obtain ⟨r, hr, rfl⟩ := List.mem_map.1 (hs2.mem_iff.1 hs); exact hd' r hr) hx
    exact (hs1.symm.trans (this ▸ List.Perm.refl _)).trans hs2
  · exact .inr ⟨_, _, hx, e2⟩

/-- The restriction to key ids without dots is needed: two different recipient lists of one DID with the same
`apv`, without any collision. -/
theorem C20_dots (C : Crypto) :
    let l1 := [b!"did:ex:a#1", b!"did:ex:a#2"]
    let l2 := [b!"did:ex:a#1.did:ex:a#2"]
    ¬ l1.Perm l2 ∧ checkRecipients l1 = .ok () ∧ checkRecipients l2 = .ok () ∧ apvOf C l1 = apvOf C l2 :=
  ⟨fun h => (by cases h.length_eq), by rfl, by rfl, by rfl⟩

/-! ## C21: one signature -/

/-- C21: a signed text (that is not at the same time an encrypted one) without a signature or with several ones is
rejected without any call. -/
theorem C21_one_signature (msg : Str) (opts : UnpackOptions) (tr : List Event) (r : Res (Message × UnpackMetadata))
    (j : JWS) (he : fromJson dJwe msg = .error (.kind .malformed)) (hj : fromJson dJws msg = .ok j)
    (hl : j.signatures.length ≠ 1) (h : Runs (unpack C msg opts) tr r) :
    tr = [] ∧ ∃ e, r = .error e := by
  have he : jweFromStr msg = .error (.kind .malformed) := he
  rw [unpack_not_jwe he, afterAuth_eq] at h
  suffices hu : ∃ e, tryUnpackSign C msg {} = .ret (.error e) by
    obtain ⟨e, hu⟩ := hu
    rw [hu, ret_error_bind, runs_ret] at h
    exact ⟨h.1, e, h.2⟩
  unfold tryUnpackSign
  rw [lift_ok_bind (a := some j) (by rw [show jwsFromStr msg = .ok j from hj]; rfl)]
  cases hp : j.parse with
  | error e => exact ⟨e, by simp only [lift_error_bind hp]⟩
  | ok p =>
    refine ⟨.kind .malformed, ?_⟩
    simp only [lift_ok_bind hp]
    have hlen : p.protected_.length = j.signatures.length := by
      simp only [JWS.parse, res_bind_ok] at hp
      obtain ⟨hs, h1, h2⟩ := hp
      cases h2
      clear hl
      simp only
      generalize j.signatures = l at h1
      clear hj h
      induction l generalizing hs with
      | nil => cases h1; rfl
      | cons a l ih =>
        simp only [parseJwsHeaders, res_bind_ok, Except.ok.injEq] at h1
        obtain ⟨_, _, _, _, l', h3, rfl⟩ := h1
        simp [ih l' h3]
    rw [if_pos (by rw [hlen]; exact hl)]; rfl

/-- A text with two signatures. -/
def World.twoSignatures : JWS := ⟨[⟨b!"did:a:b#c", b!"e30", b!""⟩, ⟨b!"did:a:b#c", b!"e30", b!""⟩], b!""⟩

set_option maxRecDepth 100000 in
example : fromJson dJwe World.twoSignatures.toJson.print = .error (.kind .malformed) ∧
    fromJson dJws World.twoSignatures.toJson.print = .ok World.twoSignatures ∧
    World.twoSignatures.signatures.length ≠ 1 := ⟨rfl, rfl, by decide⟩

/-! ## C22: signature algorithms -/

/-- The text is a signed message, not at the same time an encrypted one, with one signature by `kid` and the
header `hdr`. -/
structure ReadsJws (t : Str) (kid : Str) (hdr : JwsHeader) : Prop where
  notJwe : fromJson dJwe t = .error (.kind .malformed)
  jws : ∃ prot sig pl b, fromJson dJws t = .ok ⟨[⟨kid, prot, sig⟩], pl⟩ ∧ B64.decode prot = some b ∧
    fromJson dJwsHeader b = .ok hdr

/-- C22: the reported algorithm is the one in the protected header of the signed text, and the key that
verified the signature has the type belonging to it. -/
theorem C22_algorithm (msg : Str) (opts : UnpackOptions) (tr : List Event) (m : Message) (md : UnpackMetadata)
    (alg : SignAlg) (h : Runs (unpack C msg opts) tr (.ok (m, md))) (hs : md.signAlg = some alg) :
    ∃ (t k prot sig pl : Str) (b : Bytes) (hdr : JwsHeader) (doc : DIDDoc) (c : Curve) (st : SigType) (key : C.Key),
      md.signedMessage = some t ∧ md.signFrom = some k ∧ fromJson dJws t = .ok ⟨[⟨k, prot, sig⟩], pl⟩ ∧
      B64.decode prot = some b ∧ fromJson dJwsHeader b = .ok hdr ∧ Scheme hdr.alg c st alg ∧
      evResolve (didOf k) (some doc) ∈ tr ∧ KeyFrom C doc doc.authentication k c key := by
  have hc := C12_consistent msg opts tr m md h
  have hn : md.nonRepudiation = true := by
    rw [hc.nonRepudiation, ← hc.signAlg, hs]; rfl
  obtain ⟨k, t, alg', doc, c, key, payload, h1, h2, h3, h4, h5, h6, h7, h8, h9⟩ := C11_signer msg opts tr m md h hn
  rw [hs] at h3; cases h3
  obtain ⟨prot, sig, pl, b, hdr, st, raw, e1, e2, e3, e4, -⟩ := h8
  exact ⟨t, k, prot, sig, pl, b, hdr, doc, c, st, key, h2, h1, e1, e2, e3, e4, h5, h6⟩

theorem resolve_bind_inv {α : Type} {d : Str} {x : Option DIDDoc} {f : Option DIDDoc → Prog α} {tr : List Event} {r : Res α}
    (h : Runs (resolve d >>= f) (evResolve d x :: tr) r) : Runs (f x) tr r := by
  rcases runs_bind.1 h with ⟨e, hr, rfl⟩ | ⟨a, t1, t2, ht, hr, h2⟩
  · rcases runs_resolve.1 hr with ⟨y, hy, hx⟩ | ⟨k, hy, hx⟩ <;> cases hx
    cases hy
  · rcases runs_resolve.1 hr with ⟨y, rfl, hx⟩ | ⟨k, rfl, hx⟩ <;> cases hx
    simp only [List.cons_append, List.nil_append, List.cons.injEq, Event.mk.injEq, heq_eq_eq, true_and] at ht
    obtain ⟨h1, rfl⟩ := ht
    cases h1; exact h2

/-- The signature step, given the answer of the resolver. -/
theorem signed_steps {t : Str} {opts : UnpackOptions} {tr : List Event} {r : Res (Message × UnpackMetadata)} {kid : Str}
    {hdr : JwsHeader} (hj : ReadsJws t kid hdr) (hk : HasFragment kid) {doc : DIDDoc}
    (h : Runs (unpack C t opts) (evResolve (didOf kid) (some doc) :: tr) r)
    (hl : kid ∈ doc.authentication) {vm : VerificationMethod} (hvm : methodOf doc kid = some vm) {e : Err}
    (hfail : curveFor hdr.alg = .error e ∨ ∃ c, curveFor hdr.alg = .ok c ∧ vm.as C c = .error e) :
    tr = [] ∧ r = .error e := by
  obtain ⟨hn, prot, sig, pl, b, h1, h2, h3⟩ := hj
  have hparse : JWS.parse ⟨[⟨kid, prot, sig⟩], pl⟩ = .ok ⟨⟨[⟨kid, prot, sig⟩], pl⟩, [hdr]⟩ := by
    simp [JWS.parse, parseJwsHeaders, h2, okOr, h3, bind, Except.bind]
  rw [unpack_not_jwe hn, afterAuth_eq] at h
  unfold tryUnpackSign at h
  rw [lift_ok_bind (a := some ⟨[⟨kid, prot, sig⟩], pl⟩) (by rw [show jwsFromStr t = .ok _ from h1]; rfl)] at h
  simp only [lift_ok_bind hparse, List.length_singleton, ne_eq, not_true, if_false, List.head?_cons] at h
  rw [lift_okOr_some, lift_okOr_some] at h
  rw [if_neg (by rw [didOrUrl_isNone]; simpa using hk)] at h
  rw [prog_assoc, didOrUrl_fst] at h
  have h := resolve_bind_inv h
  rw [lift_okOr_some, lift_ok_bind (a := kid) (by rw [okOr_eq_ok, find?_eq_self]; exact ⟨rfl, hl⟩),
    lift_ok_bind (a := vm) (by rw [okOr_eq_ok, find_method]; exact hvm)] at h
  rcases hfail with hc | ⟨c, hc, hc'⟩
  · rw [lift_error_bind hc] at h; exact runs_ret.1 h
  · rw [lift_ok_bind hc, lift_error_bind hc'] at h; exact runs_ret.1 h

/-- C22: an unknown algorithm is rejected as unsupported, whatever the key listed in the document. -/
theorem C22_unknown (t : Str) (opts : UnpackOptions) (tr : List Event) (r : Res (Message × UnpackMetadata)) (kid : Str)
    (hdr : JwsHeader) (name : Str) (doc : DIDDoc) (vm : VerificationMethod) (hj : ReadsJws t kid hdr)
    (hk : HasFragment kid) (ha : hdr.alg = .other name) (hl : kid ∈ doc.authentication)
    (hvm : methodOf doc kid = some vm)
    (h : Runs (unpack C t opts) (evResolve (didOf kid) (some doc) :: tr) r) :
    tr = [] ∧ r = .error (.kind .unsupported) :=
  signed_steps hj hk h hl hvm (.inl (by rw [ha]; rfl))

/-- C22: a key of another type than the algorithm asks for is rejected. -/
theorem C22_mismatch (t : Str) (opts : UnpackOptions) (tr : List Event) (r : Res (Message × UnpackMetadata)) (kid : Str)
    (hdr : JwsHeader) (c : Curve) (st : SigType) (alg : SignAlg) (doc : DIDDoc) (vm : VerificationMethod)
    (hj : ReadsJws t kid hdr) (hk : HasFragment kid) (ha : Scheme hdr.alg c st alg) (hl : kid ∈ doc.authentication)
    (hvm : methodOf doc kid = some vm) (hc : vm.keyAlg ≠ some c)
    (h : Runs (unpack C t opts) (evResolve (didOf kid) (some doc) :: tr) r) :
    tr = [] ∧ r = .error (.kind .invalidState) := by
  refine signed_steps hj hk h hl hvm (.inr ⟨c, ?_, ?_⟩)
  · generalize hdr.alg = a at ha
    cases ha <;> rfl
  · simp only [VerificationMethod.as, asCurve, if_pos hc, fail]

/-- A signed text with the given algorithm. -/
def World.jwsText (alg : JwsAlg) (kid : Str) : Str :=
  (JWS.toJson ⟨[⟨kid, B64.encode (JwsHeader.toJson ⟨signedTyp, alg⟩).print, b!""⟩], b!""⟩).print

set_option maxRecDepth 100000 in
theorem World.readsJws_other : ReadsJws (World.jwsText (.other b!"none") b!"did:example:alice#ed")
    b!"did:example:alice#ed" ⟨signedTyp, .other b!"none"⟩ :=
  ⟨rfl, B64.encode (JwsHeader.toJson ⟨signedTyp, .other b!"none"⟩).print, b!"", b!"",
    (JwsHeader.toJson ⟨signedTyp, .other b!"none"⟩).print, rfl, rfl, rfl⟩

set_option maxRecDepth 100000 in
theorem World.readsJws_wrong : ReadsJws (World.jwsText .es256 b!"did:example:alice#ed")
    b!"did:example:alice#ed" ⟨signedTyp, .es256⟩ :=
  ⟨rfl, B64.encode (JwsHeader.toJson ⟨signedTyp, .es256⟩).print, b!"", b!"",
    (JwsHeader.toJson ⟨signedTyp, .es256⟩).print, rfl, rfl, rfl⟩

set_option maxRecDepth 100000 in
example : ∃ tr, Runs (unpack Toy.crypto (World.jwsText (.other b!"none") b!"did:example:alice#ed") {})
    (evResolve World.alice (some World.aliceDoc) :: tr) (.error (.kind .unsupported)) :=
  ⟨_, (Prog.run_spec World.env id (unpack Toy.crypto (World.jwsText (.other b!"none") b!"did:example:alice#ed") {})).1⟩

/-! ## C23: encryption algorithms -/

/-- C23: `enc_alg_anon` is reported only if there is an envelope, in the text, with the `alg` ECDH-ES+A256KW and
the `enc` belonging to the reported algorithm (`AnonOpens` with `EncNames`), for the
reported recipients, which opens to something containing the message. -/
theorem C23_anon (msg : Str) (opts : UnpackOptions) (tr : List Event) (m : Message) (md : UnpackMetadata)
    (alg : AnonCryptAlg) (h : Runs (unpack C msg opts) tr (.ok (m, md))) (hk : md.encAlgAnon = some alg) :
    ∃ (t : Str) (kids : List Str) (kid : Str) (secret : Secret) (key : KeyPair C) (payload : Bytes),
      md.encryptedToKids = some kids ∧ Within C msg t ∧ evGet kid (some secret) ∈ tr ∧
      secret.asKeyPair C = .ok key ∧ AnonOpens C t kids alg key.curve kid key.key payload ∧ Holds C payload m := by
  obtain ⟨t1, t2, t3, t4, msg1, md1, msg2, md2, msg3, md3, rfl, h1, h2, h3, h4, h5, h6⟩ := unpack_parts h
  have e6 : md.encAlgAnon = md3.encAlgAnon ∧ md.encryptedToKids = md3.encryptedToKids := by
    rcases h6 with ⟨-, -, rfl⟩ | ⟨_, _, _, _, _, _, -, -, -, -, -, rfl⟩ <;> exact ⟨rfl, rfl⟩
  have e3 : md3.encAlgAnon = md2.encAlgAnon ∧ md3.encryptedToKids = md2.encryptedToKids := by
    rcases h3 with ⟨-, rfl, -⟩ | ⟨_, _, _, _, _, -, -, -, -, rfl⟩ <;> exact ⟨rfl, rfl⟩
  have e2 : md2.encAlgAnon = md1.encAlgAnon ∧ ∀ l, md1.encryptedToKids = some l → md2.encryptedToKids = some l := by
    rcases h2 with ⟨-, rfl, -⟩ | ⟨_, _, _, _, _, _, _, _, -, -, -, -, -, -, -, rfl⟩
    · exact ⟨rfl, fun _ h => h⟩
    · exact ⟨rfl, fun l h => by simp [UnpackMetadata.auth, h]⟩
  have rest : Within C msg1 msg3 := by
    rcases h2 with ⟨rfl, -, -⟩ | ⟨_, _, _, _, _, _, _, _, hs, -⟩ <;>
      rcases h3 with ⟨rfl, -, -⟩ | ⟨_, _, _, _, _, hs3, -⟩
    · exact .here _
    · exact .signed hs3 (.here _)
    · exact .auth hs.1 hs.2 (.here _)
    · exact .auth hs.1 hs.2 (.signed hs3 (.here _))
  rw [e6.1, e3.1, e2.1] at hk
  rw [e6.2, e3.2]
  rcases h1.metadata with ⟨-, rfl, -⟩ | ⟨kids, alg', w, t, kid, secret, key, payload, rfl, -, -, a1, a2, a3, a4, a5⟩
  · cases hk
  · cases hk
    exact ⟨t, kids, kid, secret, key, payload, e2.2 kids rfl, a1, by simp [a4], a5, a2, msg3, a3.trans rest, h4⟩

/-- C23: `enc_alg_auth` is always the same algorithm, and reported only if there is an envelope with the `alg`
ECDH-1PU+A256KW and the `enc` A256CBC-HS512 (`AuthOpens`), which opens to something containing the message. -/
theorem C23_auth (msg : Str) (opts : UnpackOptions) (tr : List Event) (m : Message) (md : UnpackMetadata)
    (alg : AuthCryptAlg) (h : Runs (unpack C msg opts) tr (.ok (m, md))) (hk : md.encAlgAuth = some alg) :
    alg = .a256cbcHs512Ecdh1puA256kw ∧ ∃ (k : Str) (c : Curve) (skey : C.Key) (t : Str) (kids : List Str)
      (kid : Str) (rkey : C.Key) (payload : Bytes), md.encryptedFromKid = some k ∧ Within C msg t ∧
      AuthOpens C t kids k c skey kid rkey payload ∧ Holds C payload m := by
  have hc := C12_consistent msg opts tr m md h
  have hs := hc.sender
  rw [hk] at hs
  obtain ⟨k, hs⟩ := Option.isSome_iff_exists.1 hs.symm
  obtain ⟨_, c, skey, t, kids, kid, _, rkey, payload, -, -, -, a4, -, -, a7, a8⟩ := C10_sender msg opts tr m md k h hs
  exact ⟨by cases alg; rfl, k, c, skey, t, kids, kid, rkey, payload, hs, a4, a7, a8⟩

theorem decryptLoop_fail {α : Type} {all : Bool} {f : Str → KeyPair C → Res α} {P : Err → Prop}
    (hf : ∀ kid key, ∃ e, f kid key = .error e ∧ P e) {kids : List Str} {acc : Option α} (hne : kids ≠ []) {tr : List Event}
    {r : Res (Option α)} (h : Runs (decryptLoop C all f kids acc) tr r) :
    ∃ e, r = .error e ∧ ∀ kid s key, evGet kid (some s) ∈ tr → s.asKeyPair C = .ok key → P e := by
  cases kids with
  | nil => exact absurd rfl hne
  | cons k rest =>
    simp only [decryptLoop] at h
    rcases runs_bind.1 h with ⟨e, hr, rfl⟩ | ⟨a, t1, t2, rfl, hr, h2⟩
    · refine ⟨e, rfl, ?_⟩
      intro kid s key hs
      rcases runs_getSecret.1 hr with ⟨x, rfl, hx⟩ | ⟨x, rfl, hx⟩
      · cases hx
      · simp only [List.mem_singleton] at hs; cases hs
    · rcases runs_getSecret.1 hr with ⟨x, rfl, hx⟩ | ⟨x, rfl, hx⟩
      · cases hx
        rcases runs_lift_bind.1 h2 with ⟨e, he, rfl, rfl⟩ | ⟨s, hs, h3⟩
        · obtain ⟨rfl, rfl⟩ := okOr_eq_error.1 he
          refine ⟨_, rfl, ?_⟩
          intro kid s key hs
          simp only [List.append_nil, List.mem_singleton] at hs; cases hs
        · rw [okOr_eq_ok] at hs; subst hs
          rcases runs_lift_bind.1 h3 with ⟨e, he, rfl, rfl⟩ | ⟨key, hk, h4⟩
          · refine ⟨_, rfl, ?_⟩
            intro kid s key hs hk
            simp only [List.append_nil, List.mem_singleton] at hs; cases hs
            rw [he] at hk; cases hk
          · obtain ⟨e, he, hp⟩ := hf k key
            rcases runs_lift_bind.1 h4 with ⟨e', he', rfl, rfl⟩ | ⟨x, hx, -⟩
            · rw [he] at he'; cases he'
              exact ⟨e, rfl, fun _ _ _ _ _ => hp⟩
            · rw [he] at hx; cases hx
      · cases hx

theorem runs_error_bind {α β : Type} {p : Prog α} {f : α → Prog β} {tr : List Event} {r : Res β}
    (h : Runs (p >>= f) tr r) (hp : ∀ t x, ¬ Runs p t (.ok x)) : ∃ e, Runs p tr (.error e) ∧ r = .error e := by
  rcases runs_bind.1 h with ⟨e, hr, rfl⟩ | ⟨a, t1, t2, rfl, hr, h2⟩
  · exact ⟨e, hr, rfl⟩
  · exact absurd hr (hp _ _)

/-- The end of both decryption steps when no key works. -/
theorem tail_fail {α β : Type} {all : Bool} {f : Str → KeyPair C → Res α} {P : Err → Prop} {kids : List Str}
    (hf : ∀ kid key, ∃ e, f kid key = .error e ∧ P e) {g : Option α → Prog β} {tr : List Event} {e : Err}
    (h : Runs (do
      let found ← findSecrets kids
      if found.isEmpty then Prog.fail .secretNotFound else
      let r ← decryptLoop C all f found none
      g r : Prog β) tr (.error e)) :
    ∀ kid s key, evGet kid (some s) ∈ tr → s.asKeyPair C = .ok key → P e := by
  intro kid s key hs hk
  rcases runs_bind.1 h with ⟨e', hr, -⟩ | ⟨found, t1, t2, rfl, hr, h2⟩
  · rcases runs_findSecrets.1 hr with ⟨x, rfl, hx⟩ | ⟨x, rfl, hx⟩ <;>
    · simp only [List.mem_singleton] at hs; cases hs
  · have hs : evGet kid (some s) ∈ t2 := by
      rcases runs_findSecrets.1 hr with ⟨x, rfl, hx⟩ | ⟨x, rfl, hx⟩ <;>
      · simp only [List.cons_append, List.nil_append, List.mem_cons] at hs
        rcases hs with hs | hs
        · cases hs
        · exact hs
    split at h2
    · rw [(runs_fail.1 h2).1] at hs; cases hs
    · rename_i hne
      have hne : found ≠ [] := by simpa using hne
      obtain ⟨e', h3, he⟩ := runs_error_bind h2 (fun t x hx => by
        obtain ⟨_, he, -⟩ := decryptLoop_fail hf hne hx; cases he)
      cases he
      obtain ⟨e'', he, hp⟩ := decryptLoop_fail hf hne h3
      cases he
      exact hp kid s key hs hk

/-- C23: an anonymous envelope with an unknown content cipher is never accepted; if a secret was obtained for
it, the error is `Unsupported`. -/
theorem C23_unknown_enc (msg : Str) (opts : UnpackOptions) (tr : List Event) (r : Res (Message × UnpackMetadata))
    (j : JWE) (b : Bytes) (hdr : JweHeader) (name : Str) (hj : fromJson dJwe msg = .ok j)
    (hb : B64.decode j.protected_ = some b) (hh : fromJson (dJweHeader C.f64) b = .ok hdr) (ha : hdr.alg = .ecdhEs)
    (he : hdr.enc = .other name) (h : Runs (unpack C msg opts) tr r) :
    ∃ e, r = .error e ∧
      ∀ kid s key, evGet kid (some s) ∈ tr → s.asKeyPair C = .ok key → e = .kind .unsupported := by
  have hj : jweFromStr msg = .ok j := hj
  cases hp : j.parse C with
  | error e =>
    rw [unpack_anon_error (tryAnon_parse_error hj hp), runs_ret] at h
    exact ⟨e, h.2, by simp [h.1]⟩
  | ok p =>
    obtain ⟨rfl, hr⟩ := jwe_parse_ok hj hp
    obtain ⟨b', hb', hh'⟩ := hr.header
    rw [hb] at hb'; cases hb'
    rw [hh] at hh'; cases hh'
    have hf : ∀ kid key, ∃ e, anonDecryptWith C p kid key = .error e ∧ e = .kind .unsupported := by
      intro kid key
      refine ⟨_, ?_, rfl⟩
      simp only [anonDecryptWith, he, anonEnc, fail, ite_self]
    have noOk : ∀ t x, ¬ Runs (tryUnpackAnoncrypt C msg opts {}) t (.ok x) := by
      rintro t ⟨o, md⟩ h
      rcases tryUnpackAnoncrypt_ok.1 h with ⟨-, -, -, h | ⟨j', p', e1, e2, h⟩⟩ | ⟨j', p', found, t', alg, payload, -, e1, e2, -, -, -, -, hne, h, -⟩
      · rw [h] at hj; cases hj
      · rw [hj] at e1; cases e1
        rw [hp] at e2; cases e2
        exact absurd ha h
      · rw [hj] at e1; cases e1
        rw [hp] at e2; cases e2
        obtain ⟨e, he, -⟩ := decryptLoop_fail hf hne h
        cases he
    rw [unpack_eq] at h
    simp only [unwrapLoop] at h
    rw [prog_assoc] at h
    obtain ⟨e, h0, rfl⟩ := runs_error_bind h noOk
    refine ⟨e, rfl, ?_⟩
    unfold tryUnpackAnoncrypt at h0
    rw [lift_ok_bind (a := some p.jwe) (by rw [hj]; rfl)] at h0
    simp only [lift_ok_bind hp, ha, ne_eq, not_true, if_false] at h0
    rcases runs_lift_bind.1 h0 with ⟨e', -, rfl, hx⟩ | ⟨q, hq, h1⟩
    · simp
    cases verifyDidcomm_eq hq
    rcases runs_lift_bind.1 h1 with ⟨e', -, rfl, hx⟩ | ⟨_, -, h2⟩
    · simp
    exact tail_fail hf h2

/-- C23: an authenticated envelope with another content cipher than A256CBC-HS512 is never accepted; if a secret
was obtained for it, the error is `Unsupported`, or `Malformed` if the key types do not fit either. -/
theorem C23_auth_enc (msg : Str) (opts : UnpackOptions) (tr : List Event) (r : Res (Message × UnpackMetadata))
    (j : JWE) (b : Bytes) (hdr : JweHeader) (hj : fromJson dJwe msg = .ok j)
    (hb : B64.decode j.protected_ = some b) (hh : fromJson (dJweHeader C.f64) b = .ok hdr) (ha : hdr.alg = .ecdh1pu)
    (he : hdr.enc ≠ .a256cbcHs512) (h : Runs (unpack C msg opts) tr r) :
    ∃ e, r = .error e ∧ ∀ kid s key, evGet kid (some s) ∈ tr → s.asKeyPair C = .ok key →
      e = .kind .unsupported ∨ e = .kind .malformed := by
  have hj : jweFromStr msg = .ok j := hj
  cases hp : j.parse C with
  | error e =>
    rw [unpack_anon_error (tryAnon_parse_error hj hp), runs_ret] at h
    exact ⟨e, h.2, by simp [h.1]⟩
  | ok p =>
    obtain ⟨rfl, hr⟩ := jwe_parse_ok hj hp
    obtain ⟨b', hb', hh'⟩ := hr.header
    rw [hb] at hb'; cases hb'
    rw [hh] at hh'; cases hh'
    have hf : ∀ fk fkey kid key, ∃ e, authDecryptWith C p fk fkey kid key = .error e ∧
        (e = .kind .unsupported ∨ e = .kind .malformed) := by
      intro fk fkey kid key
      unfold authDecryptWith
      rw [if_neg (fun h => he h.2.2)]
      split
      · exact ⟨_, rfl, .inr rfl⟩
      · split
        · exact ⟨_, rfl, .inr rfl⟩
        · exact ⟨_, rfl, .inl rfl⟩
    rw [unpack_skip_anon (tryAnon_other hj hp (by rw [ha]; simp)), afterAnon_eq] at h
    have noOk : ∀ t x, ¬ Runs (tryUnpackAuthcrypt C msg opts {}) t (.ok x) := by
      rintro t ⟨o, md⟩ h
      rcases tryUnpackAuthcrypt_ok.1 h with ⟨-, -, -, h | ⟨j', p', e1, e2, h⟩⟩ | ⟨j', p', fk, doc, vm, fkey, found, t', alg,
        payload, -, e1, e2, -, -, -, -, -, -, -, -, -, -, hne, h, -⟩
      · rw [h] at hj; cases hj
      · rw [hj] at e1; cases e1
        rw [hp] at e2; cases e2
        exact absurd ha h
      · rw [hj] at e1; cases e1
        rw [hp] at e2; cases e2
        obtain ⟨e, he, -⟩ := decryptLoop_fail (hf fk fkey) hne h
        cases he
    obtain ⟨e, h0, rfl⟩ := runs_error_bind h noOk
    refine ⟨e, rfl, ?_⟩
    unfold tryUnpackAuthcrypt at h0
    rw [lift_ok_bind (a := some p.jwe) (by rw [hj]; rfl)] at h0
    simp only [lift_ok_bind hp, ha, ne_eq, not_true, if_false] at h0
    rcases runs_lift_bind.1 h0 with ⟨e', -, rfl, hx⟩ | ⟨q, hq, h1⟩
    · simp
    cases verifyDidcomm_eq hq
    rcases runs_lift_bind.1 h1 with ⟨e', -, rfl, hx⟩ | ⟨fk, -, h2⟩
    · simp
    split at h2
    · rw [(runs_fail.1 h2).1]; simp
    split at h2
    · rw [(runs_fail.1 h2).1]; simp
    rcases runs_bind.1 h2 with ⟨e', h3, -⟩ | ⟨d, t1, t2, rfl, h3, h4⟩
    · obtain ⟨r', h3, -⟩ := runs_withKind.1 h3
      intro kid s key hs
      rcases runs_resolve.1 h3 with ⟨x, rfl, hx⟩ | ⟨x, rfl, hx⟩ <;>
      · simp only [List.mem_singleton] at hs; cases hs
    · intro kid s key hs
      have hs : evGet kid (some s) ∈ t2 := by
        obtain ⟨r', h3, -⟩ := runs_withKind.1 h3
        rcases runs_resolve.1 h3 with ⟨x, rfl, hx⟩ | ⟨x, rfl, hx⟩ <;>
        · simp only [List.cons_append, List.nil_append, List.mem_cons] at hs
          rcases hs with hs | hs
          · cases hs
          · exact hs
      rcases runs_lift_bind.1 h4 with ⟨e', -, rfl, hx⟩ | ⟨doc, -, h5⟩
      · cases hs
      rcases runs_lift_bind.1 h5 with ⟨e', -, rfl, hx⟩ | ⟨fk', -, h6⟩
      · cases hs
      rcases runs_lift_bind.1 h6 with ⟨e', -, rfl, hx⟩ | ⟨vm, -, h7⟩
      · cases hs
      rcases runs_lift_bind.1 h7 with ⟨e', -, rfl, hx⟩ | ⟨fkey, -, h8⟩
      · cases hs
      rcases runs_lift_bind.1 h8 with ⟨e', -, rfl, hx⟩ | ⟨_, -, h9⟩
      · cases hs
      exact tail_fail (hf fk' fkey) h9 kid s key hs

/-- A header with an unknown content cipher, and one with a cipher not allowed for authenticated encryption. -/
def World.unknownEnc : JweHeader :=
  { typ := none, alg := .ecdhEs, enc := .other b!"none", apv := b!"", epk := .null, skid := none, apu := none }

def World.wrongEnc : JweHeader := { World.unknownEnc with alg := .ecdh1pu, enc := .a256gcm }

set_option maxRecDepth 100000 in
example : ∃ j b hdr, fromJson dJwe (World.jweText World.unknownEnc) = .ok j ∧ B64.decode j.protected_ = some b ∧
    fromJson (dJweHeader Toy.crypto.f64) b = .ok hdr ∧ hdr.alg = .ecdhEs ∧ hdr.enc = .other b!"none" :=
  ⟨⟨B64.encode World.unknownEnc.toJson.print, [⟨b!"did:a:b#c", b!""⟩], b!"", b!"", b!""⟩, World.unknownEnc.toJson.print,
    World.unknownEnc, rfl, rfl, rfl, rfl, rfl⟩

set_option maxRecDepth 100000 in
example : ∃ j b hdr, fromJson dJwe (World.jweText World.wrongEnc) = .ok j ∧ B64.decode j.protected_ = some b ∧
    fromJson (dJweHeader Toy.crypto.f64) b = .ok hdr ∧ hdr.alg = .ecdh1pu ∧ hdr.enc ≠ .a256cbcHs512 :=
  ⟨⟨B64.encode World.wrongEnc.toJson.print, [⟨b!"did:a:b#c", b!""⟩], b!"", b!"", b!""⟩, World.wrongEnc.toJson.print,
    World.wrongEnc, rfl, rfl, rfl, rfl, by decide⟩

/-- C23: an envelope with another `alg` is not treated as encrypted: no secret is asked for, and should the
text be readable as a signed or plaintext message, it is not reported as encrypted. -/
theorem C23_unknown_alg (msg : Str) (opts : UnpackOptions) (tr : List Event) (m : Message) (md : UnpackMetadata)
    (j : JWE) (b : Bytes) (hdr : JweHeader) (name : Str) (hj : fromJson dJwe msg = .ok j)
    (hb : B64.decode j.protected_ = some b) (hh : fromJson (dJweHeader C.f64) b = .ok hdr) (ha : hdr.alg = .other name)
    (h : Runs (unpack C msg opts) tr (.ok (m, md))) :
    md.encrypted = false ∧ ∀ e ∈ tr, ∃ d x, e = evResolve d x := by
  obtain ⟨p, hp⟩ := unpack_parses h hj
  obtain ⟨rfl, hr⟩ := jwe_parse_ok hj hp
  obtain ⟨b', hb', hh'⟩ := hr.header
  rw [hb] at hb'; cases hb'
  rw [hh] at hh'; cases hh'
  have hj : jweFromStr msg = .ok p.jwe := hj
  rw [unpack_skip_anon (tryAnon_other hj hp (by rw [ha]; simp)), afterAnon_eq,
    tryAuth_other hj hp (by rw [ha]; simp)] at h
  obtain ⟨-, h2, -, h4⟩ := afterAuth_frame (md0 := {}) h
  exact ⟨h2, h4⟩

/-! ## C24: one key or all keys -/

/-- C24, all keys: with `expect_decrypt_by_all_keys` every key id for which the resolver reported a secret opens
the envelope, and the message comes from what the last one opened. -/
theorem C24_all_anon (msg : Str) (opts : UnpackOptions) (tr : List Event) (m : Message) (md : UnpackMetadata)
    (j : JWE) (b : Bytes) (hdr : JweHeader) (hj : fromJson dJwe msg = .ok j) (hb : B64.decode j.protected_ = some b)
    (hh : fromJson (dJweHeader C.f64) b = .ok hdr) (ha : hdr.alg = .ecdhEs) (ho : opts.expectDecryptByAllKeys = true)
    (h : Runs (unpack C msg opts) tr (.ok (m, md))) :
    ∃ (found : List Str) (tr' : List Event), tr = evFind (j.recipients.map JweRecipient.kid) found :: tr' ∧ found ≠ [] ∧
      (∀ kid ∈ found, ∃ secret key alg payload, evGet kid (some secret) ∈ tr' ∧ secret.asKeyPair C = .ok key ∧
        AnonOpens C msg (j.recipients.map JweRecipient.kid) alg key.curve kid key.key payload) ∧
      ∃ last secret key alg payload, found.getLast? = some last ∧ evGet last (some secret) ∈ tr' ∧
        secret.asKeyPair C = .ok key ∧
        AnonOpens C msg (j.recipients.map JweRecipient.kid) alg key.curve last key.key payload ∧ Holds C payload m := by
  obtain ⟨p, hp⟩ := unpack_parses h hj
  obtain ⟨rfl, hr⟩ := jwe_parse_ok hj hp
  obtain ⟨b', hb', hh'⟩ := hr.header
  rw [hb] at hb'; cases hb'
  rw [hh] at hh'; cases hh'
  obtain ⟨payload, md1, t1, t2, rfl, h1, hholds⟩ := outer_anon h hj hp ha
  have hj : jweFromStr msg = .ok p.jwe := hj
  rcases tryUnpackAnoncrypt_ok.1 h1 with ⟨h, -⟩ | ⟨j', p', found, t', alg, payload', hpl, e1, e2, -, hv, hc, rfl, hne, hl, -, -⟩
  · cases h
  cases hpl
  rw [hj] at e1; cases e1
  rw [hp] at e2; cases e2
  refine ⟨found, t' ++ t2, rfl, hne, ?_⟩
  rcases decryptLoop_ok hl with ⟨rfl, -⟩ | ⟨k, rest, x, rfl, hx, -, h3⟩
  · exact absurd rfl hne
  cases hx
  obtain ⟨⟨ss, hlen, rfl, hall⟩, last, secret, key, g1, g2, g3, g4⟩ := h3 ho
  refine ⟨?_, last, secret, key, alg, payload, g1, List.mem_append_left _ g2, g3, anonDecryptWith_ok hj hp ha hv g4, hholds⟩
  intro kid hkid
  obtain ⟨i, hi, rfl⟩ := List.mem_iff_getElem.1 hkid
  have hi2 : i < ss.length := hlen ▸ hi
  have hz : ((k :: rest)[i], ss[i]) ∈ (k :: rest).zip ss :=
    List.mem_iff_getElem.2 ⟨i, by simp only [List.length_zip, hlen]; omega, by rw [List.getElem_zip]⟩
  obtain ⟨key', ⟨alg', y⟩, a1, a2⟩ := hall _ hz
  exact ⟨ss[i], key', alg', y, List.mem_append_left _ (List.mem_map.2 ⟨_, hz, rfl⟩), a1, anonDecryptWith_ok hj hp ha hv a2⟩

/-- C24, first key: without the option only the first reported key id is used. -/
theorem C24_first_anon (msg : Str) (opts : UnpackOptions) (tr : List Event) (m : Message) (md : UnpackMetadata)
    (j : JWE) (b : Bytes) (hdr : JweHeader) (hj : fromJson dJwe msg = .ok j) (hb : B64.decode j.protected_ = some b)
    (hh : fromJson (dJweHeader C.f64) b = .ok hdr) (ha : hdr.alg = .ecdhEs) (ho : opts.expectDecryptByAllKeys = false)
    (h : Runs (unpack C msg opts) tr (.ok (m, md))) :
    ∃ (kid : Str) (rest : List Str) (secret : Secret) (key : KeyPair C) (alg : AnonCryptAlg) (payload : Bytes)
      (tr' : List Event),
      tr = evFind (j.recipients.map JweRecipient.kid) (kid :: rest) :: evGet kid (some secret) :: tr' ∧
      secret.asKeyPair C = .ok key ∧
      AnonOpens C msg (j.recipients.map JweRecipient.kid) alg key.curve kid key.key payload ∧ Holds C payload m := by
  obtain ⟨p, hp⟩ := unpack_parses h hj
  obtain ⟨rfl, hr⟩ := jwe_parse_ok hj hp
  obtain ⟨b', hb', hh'⟩ := hr.header
  rw [hb] at hb'; cases hb'
  rw [hh] at hh'; cases hh'
  obtain ⟨payload, md1, t1, t2, rfl, h1, hholds⟩ := outer_anon h hj hp ha
  have hj : jweFromStr msg = .ok p.jwe := hj
  rcases tryUnpackAnoncrypt_ok.1 h1 with ⟨h, -⟩ | ⟨j', p', found, t', alg, payload', hpl, e1, e2, -, hv, hc, rfl, hne, hl, -, -⟩
  · cases h
  cases hpl
  rw [hj] at e1; cases e1
  rw [hp] at e2; cases e2
  rcases decryptLoop_ok hl with ⟨rfl, -⟩ | ⟨k, rest, x, rfl, hx, h3, -⟩
  · exact absurd rfl hne
  cases hx
  obtain ⟨secret, key, rfl, g3, g4⟩ := h3 ho
  exact ⟨k, rest, secret, key, alg, payload, t2, rfl, g3, anonDecryptWith_ok hj hp ha hv g4, hholds⟩

/-- C19, the anonymous case: an accepted envelope at the outermost layer without sender authentication has neither an
`apu` nor a `skid`. -/
theorem C19_anonymous (msg : Str) (opts : UnpackOptions) (tr : List Event) (m : Message) (md : UnpackMetadata)
    (j : JWE) (b : Bytes) (hdr : JweHeader) (hj : fromJson dJwe msg = .ok j) (hb : B64.decode j.protected_ = some b)
    (hh : fromJson (dJweHeader C.f64) b = .ok hdr) (ha : hdr.alg = .ecdhEs)
    (h : Runs (unpack C msg opts) tr (.ok (m, md))) : hdr.apu = none ∧ hdr.skid = none := by
  have key : ∃ kids alg c kid rkey payload, AnonOpens C msg kids alg c kid rkey payload := by
    cases ho : opts.expectDecryptByAllKeys with
    | true =>
      obtain ⟨_, _, -, -, -, _, _, _, _, _, -, -, -, g, -⟩ := C24_all_anon msg opts tr m md j b hdr hj hb hh ha ho h
      exact ⟨_, _, _, _, _, _, g⟩
    | false =>
      obtain ⟨_, _, _, _, _, _, _, -, -, g, -⟩ := C24_first_anon msg opts tr m md j b hdr hj hb hh ha ho h
      exact ⟨_, _, _, _, _, _, g⟩
  obtain ⟨_, _, _, _, _, _, j', hdr', _, _, _, _, _, hr, -, hs, -⟩ := key
  rw [hr.text] at hj; cases hj
  obtain ⟨b', hb', hh'⟩ := hr.header
  rw [hb] at hb'; cases hb'
  rw [hh] at hh'; cases hh'
  rcases hr.apu with ⟨h1, -⟩ | ⟨_, _, -, -, h1⟩
  · exact ⟨h1, hs⟩
  · cases h1

/-- In the concrete world two keys open an envelope. -/
example : ∃ msg tr m md j b hdr, Runs (unpack Toy.crypto msg { expectDecryptByAllKeys := true }) tr (.ok (m, md)) ∧
    fromJson dJwe msg = .ok j ∧ B64.decode j.protected_ = some b ∧ fromJson (dJweHeader Toy.crypto.f64) b = .ok hdr ∧
    hdr.alg = .ecdhEs ∧ (j.recipients.map JweRecipient.kid).length = 2 := by
  obtain ⟨msg, tr, m, md, j, b, hdr, h, -, h1, h2, h3, h4, h5⟩ := World.anonRun
  exact ⟨msg, tr, m, md, j, b, hdr, h, h1, h2, h3, h4, by simp [h5]⟩

/-- C24 for authenticated encryption, also inside an anonymous envelope: the history contains the request for
the secrets of the recipients, and, with the option, every reported key id opens the envelope and
the last one gave the message; without it only the first reported one is used. -/
theorem C24_auth (msg : Str) (opts : UnpackOptions) (tr : List Event) (m : Message) (md : UnpackMetadata) (k : Str)
    (h : Runs (unpack C msg opts) tr (.ok (m, md))) (hk : md.encryptedFromKid = some k) :
    ∃ (t : Str) (kids found : List Str) (pre post : List Event) (c : Curve) (skey : C.Key),
      Within C msg t ∧ tr = pre ++ evFind kids found :: post ∧
      (opts.expectDecryptByAllKeys = true →
        (∀ kid ∈ found, ∃ secret rkey payload, evGet kid (some secret) ∈ post ∧
          secret.asKeyPair C = .ok ⟨c, rkey⟩ ∧ AuthOpens C t kids k c skey kid rkey payload) ∧
        ∃ last secret rkey payload, found.getLast? = some last ∧ evGet last (some secret) ∈ post ∧
          secret.asKeyPair C = .ok ⟨c, rkey⟩ ∧ AuthOpens C t kids k c skey last rkey payload ∧ Holds C payload m) ∧
      (opts.expectDecryptByAllKeys = false →
        ∃ kid rest secret rkey payload post', found = kid :: rest ∧ post = evGet kid (some secret) :: post' ∧
          secret.asKeyPair C = .ok ⟨c, rkey⟩ ∧ AuthOpens C t kids k c skey kid rkey payload ∧ Holds C payload m ∧
          ∀ e ∈ post', ∃ d x, e = evResolve d x) := by
  obtain ⟨t1, t2, t3, t4, msg1, md1, auth, md2, signed, md3, rfl, h1, h2, h3, h4⟩ := unpack_ok.1 h
  have hrest : Runs (afterAuth C (auth.getD msg1) md2) (t3 ++ t4) (.ok (m, md)) := by
    rw [afterAuth_eq]
    simp only [runs_bind_ok, Prod.exists]
    refine ⟨signed, md3, t3, t4, rfl, h3, ?_⟩
    simp only [afterSign, runs_ok]
    exact ⟨some m, md, t4, [], by simp, h4, m, rfl, rfl, rfl, rfl⟩
  obtain ⟨hfk, -, hholds, hres⟩ := afterAuth_frame hrest
  have hw := (unwrapLoop_ok h1).within
  have e1 : md1.encryptedFromKid = none := by
    rcases (unwrapLoop_ok h1).metadata with ⟨-, rfl, -⟩ | ⟨_, _, _, _, _, _, _, _, rfl, -⟩ <;> rfl
  rw [hfk] at hk
  rcases tryUnpackAuthcrypt_ok.1 h2 with ⟨-, rfl, -, -⟩ | ⟨jwe, p, fromKid, doc, vm, fromKey, found, tr', alg, payload, ho, g1, g2, ha, g3,
    hapu, hu1, hfr, hka, hvm, hfk', g4, rfl, hne, hl, hu, rfl⟩
  · rw [e1] at hk; cases hk
  subst ho
  cases hk
  refine ⟨msg1, p.jwe.recipients.map JweRecipient.kid, found, t1 ++ [evResolve (didOrUrl k).1 (some doc)], tr' ++ (t3 ++ t4),
    fromKey.curve, fromKey.key, hw, by simp, ?_⟩
  rcases decryptLoop_ok hl with ⟨rfl, -⟩ | ⟨k', rest, x, rfl, hx, h3', h4'⟩
  · exact absurd rfl hne
  cases hx
  refine ⟨fun hall => ?_, fun hfirst => ?_⟩
  · obtain ⟨⟨ss, hlen, rfl, hevery⟩, last, secret, key, a1, a2, a3, a4⟩ := h4' hall
    refine ⟨?_, ?_⟩
    · intro kid hkid
      obtain ⟨i, hi, rfl⟩ := List.mem_iff_getElem.1 hkid
      have hi2 : i < ss.length := hlen ▸ hi
      have hz : ((k' :: rest)[i], ss[i]) ∈ (k' :: rest).zip ss :=
        List.mem_iff_getElem.2 ⟨i, by simp only [List.length_zip, hlen]; omega, by rw [List.getElem_zip]⟩
      obtain ⟨key', ⟨alg', y⟩, b1, b2⟩ := hevery _ hz
      obtain ⟨hc, b3⟩ := authDecryptWith_ok g1 g2 ha g3 b2
      obtain ⟨c, rkey⟩ := key'
      simp only at hc b3
      exact ⟨ss[i], rkey, y, List.mem_append_left _ (List.mem_map.2 ⟨_, hz, rfl⟩), hc ▸ b1, hc ▸ b3⟩
    · obtain ⟨hc, b3⟩ := authDecryptWith_ok g1 g2 ha g3 a4
      obtain ⟨c, rkey⟩ := key
      simp only at hc b3
      exact ⟨last, secret, rkey, payload, a1, List.mem_append_left _ a2, hc ▸ a3, hc ▸ b3, hholds⟩
  · obtain ⟨secret, key, rfl, a3, a4⟩ := h3' hfirst
    obtain ⟨hc, b3⟩ := authDecryptWith_ok g1 g2 ha g3 a4
    obtain ⟨c, rkey⟩ := key
    simp only at hc b3
    exact ⟨k', rest, secret, rkey, payload, t3 ++ t4, rfl, rfl, hc ▸ a3, hc ▸ b3, hholds, hres⟩

/-- An authenticated message inside an anonymous envelope. -/
example : ∃ msg tr m md, Runs (unpack Toy.crypto msg {}) tr (.ok (m, md)) ∧ md.encryptedFromKid = some b!"did:example:alice#p1" ∧
    md.encAlgAnon = some .xc20pEcdhEsA256kw := by
  obtain ⟨msg, tr, m, md, h, -, h1, -, h2, -⟩ := World.fullRun
  exact ⟨msg, tr, m, md, h, h1, h2⟩

end DIDComm
