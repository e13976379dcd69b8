import Verif.Proofs.Select
import Verif.Spec.World
import Verif.Spec.Wire

/-! # Arguments, key selection and metadata of packing: C15, C30, C31, C33–C36, C40 -/

set_option autoImplicit false

namespace DIDComm

variable {C : Crypto}

/-! ## C30, C31: arguments -/

theorem illegalArguments_iff {m : Message} {to : Str} {from_ signBy : Option Str} :
    m.validatePackEncrypted to from_ signBy ≠ .ok () ↔ IllegalArguments m to from_ signBy := by
  rw [ne_eq, validatePackEncrypted_ok]
  unfold IllegalArguments
  constructor
  · intro h
    by_cases h1 : LooksLikeDid to
    · by_cases h2 : ∀ f, from_ = some f → LooksLikeDid f
      · by_cases h3 : ∀ s, signBy = some s → LooksLikeDid s
        · by_cases h4 : ∀ l, m.to = some l → didOf to ∈ l
          · have h5 : ¬ ∀ f sf, from_ = some f → m.from_ = some sf → didOf f = sf := fun h5 => h ⟨h1, h2, h3, h4, h5⟩
            simp only [Classical.not_forall] at h5
            obtain ⟨f, sf, a, b, c⟩ := h5
            exact .inr (.inr (.inr (.inr ⟨f, sf, a, b, c⟩)))
          · simp only [Classical.not_forall] at h4
            obtain ⟨l, a, b⟩ := h4
            exact .inr (.inr (.inr (.inl ⟨l, a, b⟩)))
        · simp only [Classical.not_forall] at h3
          obtain ⟨l, a, b⟩ := h3
          exact .inr (.inr (.inl ⟨l, a, b⟩))
      · simp only [Classical.not_forall] at h2
        obtain ⟨l, a, b⟩ := h2
        exact .inr (.inl ⟨l, a, b⟩)
    · exact .inl h1
  · rintro (h | ⟨f, a, h⟩ | ⟨f, a, h⟩ | ⟨l, a, h⟩ | ⟨f, sf, a, b, h⟩) ⟨h1, h2, h3, h4, h5⟩
    · exact h h1
    · exact h (h2 f a)
    · exact h (h3 f a)
    · exact h (h4 l a)
    · exact h (h5 f sf a b)

/-- C30: illegal arguments of `pack_encrypted` are refused before any resolver is called and
any randomness is drawn. -/
theorem C30_pack_encrypted (m : Message) (to : Str) (from_ signBy : Option Str) (opts : PackEncryptedOptions)
    (h : IllegalArguments m to from_ signBy) (tr : List Event) (r : Res (Str × PackEncryptedMetadata))
    (hr : Runs (packEncrypted C m to from_ signBy opts) tr r) :
    tr = [] ∧ r = .error (.kind .illegalArgument) := by
  have := validatePackEncrypted_error (illegalArguments_iff.2 h)
  unfold packEncrypted at hr
  rw [runs_lift_bind] at hr
  rw [this] at hr
  rcases hr with ⟨e, he, rfl, rfl⟩ | ⟨a, ha, _⟩
  · cases he; exact ⟨rfl, rfl⟩
  · cases ha

/-- C30: the same for a `sign_by` of `pack_signed` that is not a DID. -/
theorem C30_pack_signed (m : Message) (signBy : Str) (h : ¬ LooksLikeDid signBy) (tr : List Event)
    (r : Res (Str × Str)) (hr : Runs (packSigned C m signBy) tr r) :
    tr = [] ∧ r = .error (.kind .illegalArgument) := by
  rw [← C46_is_did] at h
  unfold packSigned at hr
  rw [if_pos (by simpa using h)] at hr
  exact runs_fail.1 hr

/-- C31: a message that was packed is addressed to `to` and comes from `from`, as far as its
headers say anything. -/
theorem C31_addressing (m : Message) (to : Str) (from_ signBy : Option Str) (opts : PackEncryptedOptions)
    (tr : List Event) (out : Str) (md : PackEncryptedMetadata)
    (hr : Runs (packEncrypted C m to from_ signBy opts) tr (.ok (out, md))) :
    (∀ l, m.to = some l → didOf to ∈ l) ∧ (∀ f sf, from_ = some f → m.from_ = some sf → sf = didOf f) ∧
    LooksLikeDid to ∧ (∀ f, from_ = some f → LooksLikeDid f) ∧ (∀ s, signBy = some s → LooksLikeDid s) := by
  obtain ⟨_, _, _, _, _, _, _, _, _, _, h, _⟩ := packEncrypted_ok.1 hr
  obtain ⟨h1, h2, h3, h4, h5⟩ := validatePackEncrypted_ok.1 h
  exact ⟨h4, fun f sf a b => (h5 f sf a b).symm, h1, h2, h3⟩

/-- Each way of being illegal occurs. -/
example : IllegalArguments World.msg b!"bob" none none ∧
    IllegalArguments World.msg World.bob (some b!"x") none ∧ IllegalArguments World.msg World.bob none (some b!"did:x") ∧
    IllegalArguments World.msg World.mediator none none ∧
    IllegalArguments World.msg World.bob (some World.mediator) none ∧
    ¬ IllegalArguments World.msg b!"did:example:bob#x1" (some b!"did:example:alice#x1") (some World.alice) := by
  have key : ∀ m to f s, IllegalArguments m to f s ↔
      (match m.validatePackEncrypted to f s with | .ok () => false | .error _ => true) = true := by
    intro m to f s
    rw [← illegalArguments_iff]
    cases m.validatePackEncrypted to f s <;> simp
  simp only [key]
  decide +kernel

/-- A message that meets the hypothesis of `C31_addressing`. -/
example : ∃ tr out md, Runs (packEncrypted Toy.crypto World.msg World.bob (some World.alice) none
    { forward := false }) tr (.ok (out, md)) := by
  obtain ⟨tr, ⟨out, md⟩, h, _⟩ := World.of_test (E := World.env) (p := packEncrypted Toy.crypto World.msg World.bob
    (some World.alice) none { forward := false }) (P := fun _ => true) (by decide +kernel)
  exact ⟨tr, out, md, h⟩

/-! ## C33: the signing key -/

/-- The secrets resolver only reports ids it was asked for. -/
def HonestFind (tr : List Event) : Prop := ∀ ks found, evFind ks found ∈ tr → ∀ k ∈ found, k ∈ ks

theorem signKids_ok {signBy : Str} {doc : DIDDoc} {kids : List Str} :
    signKids signBy doc = .ok kids ↔
      kids = signersMeant signBy doc ∧ (HasFragment signBy → signBy ∈ doc.authentication) := by
  unfold signKids signersMeant
  rw [didOrUrl_snd]
  by_cases h : HasFragment signBy
  · simp only [if_pos h, res_bind_ok, okOr_eq_ok, Except.ok.injEq]
    constructor
    · rintro ⟨a, h1, rfl⟩
      have := List.find?_some h1
      have h2 := List.mem_of_find?_eq_some h1
      simp at this; subst this
      exact ⟨rfl, fun _ => h2⟩
    · rintro ⟨rfl, h1⟩
      refine ⟨signBy, ?_, rfl⟩
      cases hf : doc.authentication.find? (fun a => a == signBy) with
      | none => exact absurd (List.find?_eq_none.1 hf _ (h1 h)) (by simp)
      | some k => have := List.find?_some hf; simp at this; rw [this]
  · simp [h, eq_comm]

/-- C33: the signing key is the first one the secrets resolver reports among those meant
by `sign_by`; a key id must be listed under authentication; the metadata and the JWS name
that key.  If the resolver is honest, the key is one of those meant. -/
theorem C33_signing_key (m : Message) (signBy : Str) (tr : List Event) (out kid : Str)
    (hr : Runs (packSigned C m signBy) tr (.ok (out, kid))) :
    ∃ doc found secret tr', tr = evResolve (didOf signBy) (some doc) :: evFind (signersMeant signBy doc) found ::
        evGet kid (some secret) :: tr' ∧
      found.head? = some kid ∧
      (HasFragment signBy → signBy ∈ doc.authentication) ∧
      (HonestFind tr → kid ∈ doc.authentication ∧ (HasFragment signBy → kid = signBy)) ∧
      (∃ hdr, IsJws out hdr kid m.toJson.print) := by
  obtain ⟨doc, kids, found, secret, pair, tr', payload, alg, -, ht, h1, h2, h3, h4, h5, h6⟩ := packSigned_ok.1 hr
  rw [didOrUrl_fst] at ht
  subst ht
  obtain ⟨rfl, h7⟩ := signKids_ok.1 h1
  obtain ⟨st, sig, -, -, rfl⟩ := jwsSign_ok.1 h6
  obtain ⟨fp, -, -, rfl⟩ := packPlaintext_ok.1 h4
  refine ⟨doc, found, secret, tr', rfl, h2, h7, ?_, ⟨⟨signedTyp, alg⟩, sig, rfl⟩⟩
  intro hh
  have := hh (signersMeant signBy doc) found (by simp) kid (List.mem_of_mem_head? h2)
  unfold signersMeant at this
  split at this
  · rename_i hf
    simp only [List.mem_singleton] at this
    exact ⟨this ▸ h7 hf, fun _ => this⟩
  · rename_i hf
    exact ⟨this, fun h => absurd h hf⟩

/-- Both forms of `sign_by` occur. -/
example : (∃ tr out, Runs (packSigned Toy.crypto World.msg World.alice) tr (.ok (out, b!"did:example:alice#ed"))) ∧
    (∃ tr out, Runs (packSigned Toy.crypto World.msg b!"did:example:alice#es") tr (.ok (out, b!"did:example:alice#es"))) := by
  constructor
  · obtain ⟨tr, ⟨out, kid⟩, h, _, hk⟩ := World.of_test (E := World.env)
      (p := packSigned Toy.crypto World.msg World.alice) (P := fun x => x.2 == b!"did:example:alice#ed") (by decide +kernel)
    simp at hk; exact ⟨tr, out, hk ▸ h⟩
  · obtain ⟨tr, ⟨out, kid⟩, h, _, hk⟩ := World.of_test (E := World.env)
      (p := packSigned Toy.crypto World.msg b!"did:example:alice#es") (P := fun x => x.2 == b!"did:example:alice#es")
      (by decide +kernel)
    simp at hk; exact ⟨tr, out, hk ▸ h⟩

/-! ## C34: recipients of anonymous encryption -/

/-- What `anoncrypt` chose. -/
theorem anoncrypt_selection {to : Str} {msg : Bytes} {alg : AnonCryptAlg} {tr : List Event} {out : Str}
    {toKids : List Str} (h : Runs (anoncrypt C to msg alg) tr (.ok (out, toKids))) :
    ∃ doc curve tr', tr = evResolve (didOf to) (some doc) :: tr' ∧
      (meantBy to doc.keyAgreement).findSome? (keyTypeOf doc) = some curve ∧ ForAgreement curve ∧
      toKids = (meantBy to doc.keyAgreement).filter (fun k => keyTypeOf doc k = some curve) := by
  obtain ⟨doc, kids, vms, curve, toKeys, tr', ht, h1, h2, h3, h4, h5, rfl, -⟩ := anoncrypt_ok.1 h
  rw [didOrUrl_fst] at ht
  subst ht
  obtain ⟨rfl, -⟩ := agreementKids_ok.1 h1
  rw [methodsOf_ok] at h2
  refine ⟨doc, curve, tr', rfl, ?_, h4, methods_ids h2 _⟩
  rw [← methods_findSome h2]; exact h3

/-- C34: the recipients of an anonymous message are the meant key-agreement keys, in document
order, that have the type of the first supported one. -/
theorem C34_recipients (m : Message) (to : Str) (signBy : Option Str) (opts : PackEncryptedOptions)
    (tr : List Event) (out : Str) (md : PackEncryptedMetadata)
    (hr : Runs (packEncrypted C m to none signBy opts) tr (.ok (out, md))) :
    ∃ doc curve, evResolve (didOf to) (some doc) ∈ tr ∧
      (meantBy to doc.keyAgreement).findSome? (keyTypeOf doc) = some curve ∧ ForAgreement curve ∧
      md.toKids = (meantBy to doc.keyAgreement).filter (fun k => keyTypeOf doc k = some curve) ∧
      md.toKids ≠ [] ∧ (HasFragment to → ∀ k ∈ md.toKids, k = to) := by
  obtain ⟨t1, t2, t3, inner, sk, env, fk, tk, w, rfl, -, -, h, -, hw⟩ := packEncrypted_ok.1 hr
  rcases packCrypt_ok.1 h with ⟨-, rfl, ha⟩ | ⟨_, _, h, _⟩
  · obtain ⟨doc, curve, tr', rfl, h1, h2, h3⟩ := anoncrypt_selection ha
    have hmd : md.toKids = tk := by
      rcases hw with ⟨_, _, rfl⟩ | ⟨svc, _, rfl⟩ <;> rfl
    rw [hmd]
    refine ⟨doc, curve, by simp, h1, h2, h3, ?_, ?_⟩
    · obtain ⟨k, hk, hk'⟩ := List.exists_of_findSome?_eq_some h1
      intro h0
      rw [h3] at h0
      have : k ∈ (meantBy to doc.keyAgreement).filter (fun k => keyTypeOf doc k = some curve) :=
        List.mem_filter.2 ⟨hk, by simpa using hk'⟩
      rw [h0] at this; cases this
    · intro hf k hk
      rw [h3] at hk
      have := (List.mem_filter.1 hk).1
      unfold meantBy at this
      rw [if_pos hf] at this
      simpa using (List.mem_filter.1 this).2
  · cases h

/-- How `anoncrypt` fails once the recipient's document is known, before any encryption. -/
theorem anoncrypt_fails {to : Str} {msg : Bytes} {alg : AnonCryptAlg} {doc : DIDDoc} {tr : List Event}
    {r : Res (Str × List Str)} (h : Runs (anoncrypt C to msg alg) (evResolve (didOf to) (some doc) :: tr) r) :
    (meantBy to doc.keyAgreement = [] → r = .error (.kind .didUrlNotFound)) ∧
    (meantBy to doc.keyAgreement ≠ [] →
      ((∃ k ∈ meantBy to doc.keyAgreement, methodOf doc k = none) → r = .error (.kind .unsupported)) ∧
      ((∀ k ∈ meantBy to doc.keyAgreement, methodOf doc k ≠ none) →
        (∀ c, (meantBy to doc.keyAgreement).findSome? (keyTypeOf doc) = some c → ¬ ForAgreement c) →
        r = .error (.kind .invalidState))) := by
  unfold anoncrypt at h
  rw [didOrUrl_fst, runs_bind] at h
  have h : Runs (do
      let kids ← Prog.lift (agreementKids (didOrUrl to).2 doc)
      let keys ← Prog.lift (methodsOf .unsupported doc kids)
      let curve ← Prog.lift (okOr .invalidState (keys.findSome? VerificationMethod.keyAlg))
      if curve = .x25519 ∨ curve = .p256 then
        let toKeys ← Prog.lift (keysOf C curve (keys.filter (fun vm => decide (vm.keyAlg = some curve))))
        let out ← jweEncrypt C alg.ce .ecdhEs curve msg .ecdhEs alg.enc none toKeys
        Prog.lift (.ok (out, (keys.filter (fun vm => decide (vm.keyAlg = some curve))).map VerificationMethod.id))
      else Prog.fail .invalidState : Prog (Str × List Str)) tr r := by
    rcases h with ⟨e, h, rfl⟩ | ⟨a, t1, t2, ht, h, h'⟩
    · rcases runs_resolve.1 h with ⟨x, _, h⟩ | ⟨k, h, _⟩ <;> cases h
    · rcases runs_resolve.1 h with ⟨x, rfl, hx⟩ | ⟨k, _, hx⟩
      · cases hx
        simp only [List.cons_append, List.nil_append, List.cons.injEq] at ht
        obtain ⟨h1, rfl⟩ := ht
        cases h1
        exact h'
      · cases hx
  refine ⟨fun h0 => ?_, fun hne => ⟨fun hm => ?_, fun hm hc => ?_⟩⟩
  · rw [agreementKids_error h0] at h
    exact (runs_lift_bind.1 h).elim (fun ⟨e, h1, _, h2⟩ => by cases h1; exact h2) (fun ⟨a, h1, _⟩ => by cases h1)
  · rw [agreementKids_ok.2 ⟨rfl, hne⟩] at h
    rcases runs_lift_bind.1 h with ⟨e, h1, _⟩ | ⟨a, h1, h⟩
    · cases h1
    · cases h1
      rw [methodsOf_error hm] at h
      exact (runs_lift_bind.1 h).elim (fun ⟨e, h1, _, h2⟩ => by cases h1; exact h2) (fun ⟨a, h1, _⟩ => by cases h1)
  · rw [agreementKids_ok.2 ⟨rfl, hne⟩] at h
    rcases runs_lift_bind.1 h with ⟨e, h1, _⟩ | ⟨a, h1, h⟩
    · cases h1
    · cases h1
      rcases runs_lift_bind.1 h with ⟨e, h1, _, rfl⟩ | ⟨vms, h1, h⟩
      · exfalso
        have : ∀ l : List Str, (∀ k ∈ l, methodOf doc k ≠ none) → ∃ v, methodsOf .unsupported doc l = .ok v := by
          intro l hl
          induction l with
          | nil => exact ⟨[], rfl⟩
          | cons k l ih =>
            obtain ⟨v, hv⟩ := ih (fun k' hk' => hl k' (by simp [hk']))
            obtain ⟨vm, hvm⟩ := Option.ne_none_iff_exists'.1 (hl k (by simp))
            exact ⟨vm :: v, by simp [methodsOf, find_method, hvm, hv, okOr, bind, Except.bind]⟩
        obtain ⟨v, hv⟩ := this _ hm
        rw [hv] at h1; cases h1
      · rw [methodsOf_ok] at h1
        rw [methods_findSome h1] at h
        rcases runs_lift_bind.1 h with ⟨e, h2, _, rfl⟩ | ⟨c, h2, h⟩
        · rw [okOr_eq_error] at h2; rw [h2.2]
        · rw [okOr_eq_ok] at h2
          rw [if_neg (hc c h2)] at h
          exact (runs_fail.1 h).2

/-- C34: why anonymous packing of an unsigned message fails once the recipient's document is known:
no key meant, a listed key without a verification method, or no supported key (`InvalidState`). -/
theorem C34_failures (m : Message) (to : Str) (opts : PackEncryptedOptions) (doc : DIDDoc) (tr : List Event)
    (r : Res (Str × PackEncryptedMetadata)) (hfp : m.fromPrior = none) (hargs : ¬ IllegalArguments m to none none)
    (hr : Runs (packEncrypted C m to none none opts) (evResolve (didOf to) (some doc) :: tr) r) :
    (meantBy to doc.keyAgreement = [] → r = .error (.kind .didUrlNotFound)) ∧
    (meantBy to doc.keyAgreement ≠ [] →
      ((∃ k ∈ meantBy to doc.keyAgreement, methodOf doc k = none) → r = .error (.kind .unsupported)) ∧
      ((∀ k ∈ meantBy to doc.keyAgreement, methodOf doc k ≠ none) →
        (∀ c, (meantBy to doc.keyAgreement).findSome? (keyTypeOf doc) = some c → ¬ ForAgreement c) →
        r = .error (.kind .invalidState))) := by
  have hv : m.validatePackEncrypted to none none = .ok () := by
    apply Classical.byContradiction; intro h; exact hargs (illegalArguments_iff.1 h)
  have hp : packInner C m none = pure (m.toJson.print, none) := by
    simp only [packInner, packPlaintext, hfp, unpackFromPrior, Message.validatePackPlaintext]; rfl
  unfold packEncrypted at hr
  rw [hv, hp] at hr
  -- only the encryption step can have produced the first event and the result, unless it succeeded
  have hr : ∃ tr' r', Runs (anoncrypt C to m.toJson.print opts.encAlgAnon) (evResolve (didOf to) (some doc) :: tr') r' ∧
      (∀ e, r' = .error e → r = .error e) := by
    rw [runs_lift_bind] at hr
    rcases hr with ⟨e, h, _⟩ | ⟨a, _, hr⟩
    · cases h
    · rw [runs_pure_bind, runs_bind] at hr
      rcases hr with ⟨e, h, rfl⟩ | ⟨⟨out, fk, tk⟩, t1, t2, ht, h, _⟩
      · unfold packCrypt at h
        rw [runs_bind_error] at h
        rcases h with h | ⟨⟨o, tk⟩, t1, t2, _, _, h⟩
        · exact ⟨tr, _, h, fun e' h => by cases h; rfl⟩
        · cases (runs_pure.1 h).2
      · rcases packCrypt_ok.1 h with ⟨-, -, h⟩ | ⟨_, _, h, _⟩
        · have h' := h
          obtain ⟨doc', c, tr', rfl, _⟩ := anoncrypt_selection h
          simp only [List.cons_append, List.cons.injEq] at ht
          refine ⟨tr', _, ht.1 ▸ h', ?_⟩
          intro e he; cases he
        · cases h
  obtain ⟨tr', r', h, he⟩ := hr
  obtain ⟨h1, h2⟩ := anoncrypt_fails h
  exact ⟨fun a => he _ (h1 a), fun a => ⟨fun b => he _ ((h2 a).1 b), fun b c => he _ ((h2 a).2 b c)⟩⟩

/-- Bob's document has two X25519 keys and a P-256 one: addressed by DID the recipients are
the two X25519 keys; addressed by key id, that key. -/
example : (∃ tr out md, Runs (packEncrypted Toy.crypto World.msg World.bob none none { forward := false }) tr
      (.ok (out, md)) ∧ md.toKids = [b!"did:example:bob#x1", b!"did:example:bob#x2"]) ∧
    (∃ tr out md, Runs (packEncrypted Toy.crypto World.msg b!"did:example:bob#p1" none none { forward := false }) tr
      (.ok (out, md)) ∧ md.toKids = [b!"did:example:bob#p1"]) := by
  constructor
  · obtain ⟨tr, ⟨out, md⟩, h, _, hk⟩ := World.of_test (E := World.env)
      (p := packEncrypted Toy.crypto World.msg World.bob none none { forward := false })
      (P := fun x => decide (x.2.toKids = [b!"did:example:bob#x1", b!"did:example:bob#x2"])) (by decide +kernel)
    exact ⟨tr, out, md, h, of_decide_eq_true hk⟩
  · obtain ⟨tr, ⟨out, md⟩, h, _, hk⟩ := World.of_test (E := World.env)
      (p := packEncrypted Toy.crypto World.msg b!"did:example:bob#p1" none none { forward := false })
      (P := fun x => decide (x.2.toKids = [b!"did:example:bob#p1"])) (by decide +kernel)
    exact ⟨tr, out, md, h, of_decide_eq_true hk⟩

/-- A document without supported keys: the failure is `InvalidState`, not `NoCompatibleCrypto`. -/
example : ∃ tr, Runs (packEncrypted Toy.crypto { World.msg with to := none } World.alice none none { forward := false }) tr
    (.error (.kind .invalidState)) := by
  obtain ⟨tr, h, _⟩ := World.of_testError (p := packEncrypted Toy.crypto { World.msg with to := none } World.alice none none
      { forward := false }) (e := .kind .invalidState)
    (E := World.envOf [{ World.aliceDoc with keyAgreement := [b!"did:example:alice#ed"] }] []) (by decide +kernel)
  exact ⟨tr, h⟩

end DIDComm
