import Verif.Props.Validation
import Verif.Proofs.InvUnpack
import Verif.Proofs.Wire

/-! # Key negotiation and metadata of packing: C35, C36, C40, C15 -/

set_option autoImplicit false

namespace DIDComm

variable {C : Crypto}

/-! ## C35: sender and recipient keys of authenticated encryption -/

theorem chooseSender_eq {fromDoc toDoc : DIDDoc} {to : Str} {found : List Str}
    {fromVms toVms : List VerificationMethod} (h1 : found.map (methodOf fromDoc) = fromVms.map some)
    (h2 : (meantBy to toDoc.keyAgreement).map (methodOf toDoc) = toVms.map some) :
    (chooseSender fromVms toVms).map VerificationMethod.id
      = okOr .noCompatibleCrypto (found.find? (fun s => Compatible fromDoc toDoc to s)) := by
  have hany : ∀ c : Curve, toVms.any (fun t => decide (t.keyAlg = some c)) = true ↔
      ∃ t ∈ meantBy to toDoc.keyAgreement, keyTypeOf toDoc t = some c := by
    intro c
    rw [List.any_eq_true]
    constructor
    · rintro ⟨vm, hvm, hk⟩
      obtain ⟨a, b⟩ := methods_mem h2 hvm
      exact ⟨vm.id, a, by simpa [keyTypeOf, b] using hk⟩
    · rintro ⟨t, ht, hk⟩
      have : methodOf toDoc t ∈ toVms.map some := by rw [← h2]; exact List.mem_map.2 ⟨t, ht, rfl⟩
      obtain ⟨vm, hvm, hm⟩ := List.mem_map.1 this
      exact ⟨vm, hvm, by simpa [keyTypeOf, ← hm] using hk⟩
  unfold chooseSender
  induction found generalizing fromVms with
  | nil => cases fromVms <;> simp_all [okOr, Except.map]
  | cons s r ih =>
    cases fromVms with
    | nil => simp at h1
    | cons vm l =>
      simp only [List.map_cons, List.cons.injEq] at h1
      have hid := methodOf_id h1.1
      rw [List.find?_cons]
      cases hk : vm.keyAlg with
      | none =>
        have hc : ¬ Compatible fromDoc toDoc to s := by
          rintro ⟨c, hc, _⟩; simp [keyTypeOf, h1.1, hk] at hc
        simp only [List.filter_cons, hk, Option.isSome_none, Bool.false_eq_true, if_false, hc, decide_false]
        exact ih h1.2
      | some c =>
        simp only [List.filter_cons, hk, Option.isSome_some, if_true, List.find?_cons]
        by_cases hc : Compatible fromDoc toDoc to s
        · have : toVms.any (fun t => decide (t.keyAlg = some c)) = true := by
            obtain ⟨c', hc', hx⟩ := hc
            simp [keyTypeOf, h1.1, hk] at hc'
            subst hc'
            exact (hany c).2 hx
          simp [this, hc, okOr, Except.map, hid]
        · have : toVms.any (fun t => decide (t.keyAlg = some c)) = false := by
            cases hx : toVms.any (fun t => decide (t.keyAlg = some c)) with
            | false => rfl
            | true => exact absurd ⟨c, by simp [keyTypeOf, h1.1, hk], (hany c).1 hx⟩ hc
          simp only [this, hc, decide_false]
          exact ih h1.2

theorem authcrypt_selection {to from_ : Str} {msg : Bytes} {encAuth : AuthCryptAlg} {encAnon : AnonCryptAlg} {ps : Bool}
    {tr : List Event} {out fromKid : Str} {toKids : List Str}
    (h : Runs (authcrypt C to from_ msg encAuth encAnon ps) tr (.ok (out, fromKid, toKids))) :
    ∃ toDoc fromDoc found secret curve tr',
      tr = evResolve (didOf to) (some toDoc) :: evResolve (didOf from_) (some fromDoc) ::
        evFind (meantBy from_ fromDoc.keyAgreement) found :: evGet fromKid (some secret) :: tr' ∧
      found.find? (fun s => Compatible fromDoc toDoc to s) = some fromKid ∧
      keyTypeOf fromDoc fromKid = some curve ∧ ForAgreement curve ∧
      toKids = (meantBy to toDoc.keyAgreement).filter (fun k => keyTypeOf toDoc k = some curve) := by
  obtain ⟨toDoc, fromDoc, fromKids, found, fromVms, kids, vms, fromVm, secret, curve, toKeys, sk, tr', ht, h1, _, h2,
    h3, h4, h5, rfl, h6, h7, h8, rfl, _, _⟩ := authcrypt_ok.1 h
  obtain ⟨rfl, -⟩ := agreementKids_ok.1 h1
  obtain ⟨rfl, -⟩ := agreementKids_ok.1 h3
  rw [methodsOf_ok] at h2 h4
  rw [didOrUrl_fst, didOrUrl_fst] at ht
  have hc := chooseSender_eq (to := to) h2 h4
  rw [h5] at hc
  have hc : some fromVm.id = _ := (okOr_eq_ok.1 hc.symm).symm
  refine ⟨toDoc, fromDoc, found, secret, curve, tr', ht, hc.symm, ?_, h7, methods_ids h4 _⟩
  have hmem : fromVm ∈ fromVms := by
    unfold chooseSender at h5
    rw [okOr_eq_ok] at h5
    exact (List.mem_filter.1 (List.mem_of_find?_eq_some h5)).1
  rw [keyTypeOf, (methods_mem h2 hmem).2]; exact h6

/-- C35: the sender key is the first one the secrets resolver reports that is compatible with a
recipient key; the recipients are all meant recipient keys of that type, in document order. -/
theorem C35_negotiation (m : Message) (to from_ : Str) (signBy : Option Str) (opts : PackEncryptedOptions)
    (tr : List Event) (out : Str) (md : PackEncryptedMetadata)
    (hr : Runs (packEncrypted C m to (some from_) signBy opts) tr (.ok (out, md))) :
    ∃ toDoc fromDoc found curve fromKid,
      evResolve (didOf to) (some toDoc) ∈ tr ∧ evResolve (didOf from_) (some fromDoc) ∈ tr ∧
      evFind (meantBy from_ fromDoc.keyAgreement) found ∈ tr ∧
      found.find? (fun s => Compatible fromDoc toDoc to s) = some fromKid ∧ md.fromKid = some fromKid ∧
      keyTypeOf fromDoc fromKid = some curve ∧ ForAgreement curve ∧
      md.toKids = (meantBy to toDoc.keyAgreement).filter (fun k => keyTypeOf toDoc k = some curve) ∧ md.toKids ≠ [] := by
  obtain ⟨t1, t2, t3, inner, sk, env, fk, tk, w, rfl, -, -, h, -, hw⟩ := packEncrypted_ok.1 hr
  rcases packCrypt_ok.1 h with ⟨h, _⟩ | ⟨f, k, hf, rfl, ha⟩
  · cases h
  cases hf
  obtain ⟨toDoc, fromDoc, found, secret, curve, tr', rfl, h1, h2, h3, h4⟩ := authcrypt_selection ha
  have hmd : md.toKids = tk ∧ md.fromKid = some k := by
    rcases hw with ⟨_, _, rfl⟩ | ⟨svc, _, rfl⟩ <;> exact ⟨rfl, rfl⟩
  rw [hmd.1, hmd.2]
  refine ⟨toDoc, fromDoc, found, curve, k, by simp, by simp, by simp, h1, rfl, h2, h3, h4, ?_⟩
  obtain ⟨c, hc, t, ht, hk⟩ := (of_decide_eq_true (List.find?_some (p := fun s => decide (Compatible fromDoc toDoc to s)) h1) : Compatible fromDoc toDoc to k)
  rw [h2] at hc; cases hc
  intro h0
  have : t ∈ tk := by rw [h4]; exact List.mem_filter.2 ⟨ht, by simpa using hk⟩
  rw [h0] at this; cases this

/-- C35: if no reported sender key is compatible with a recipient key, the result is
`NoCompatibleCrypto` (for an unsigned message; all keys must have verification methods). -/
theorem C35_incompatible (m : Message) (to from_ : Str) (opts : PackEncryptedOptions) (toDoc fromDoc : DIDDoc)
    (found : List Str) (tr : List Event) (r : Res (Str × PackEncryptedMetadata))
    (hfp : m.fromPrior = none) (hargs : ¬ IllegalArguments m to (some from_) none)
    (hfound : found ≠ []) (hto : meantBy to toDoc.keyAgreement ≠ [])
    (hfm : ∀ k ∈ found, methodOf fromDoc k ≠ none) (htm : ∀ k ∈ meantBy to toDoc.keyAgreement, methodOf toDoc k ≠ none)
    (hinc : ∀ s ∈ found, ¬ Compatible fromDoc toDoc to s)
    (hr : Runs (packEncrypted C m to (some from_) none opts)
      (evResolve (didOf to) (some toDoc) :: evResolve (didOf from_) (some fromDoc) ::
        evFind (meantBy from_ fromDoc.keyAgreement) found :: tr) r) :
    r = .error (.kind .noCompatibleCrypto) := by
  have hv : m.validatePackEncrypted to (some from_) none = .ok () := by
    apply Classical.byContradiction; intro h; exact hargs (illegalArguments_iff.1 h)
  have hp : packInner C m none = pure (m.toJson.print, none) := by
    simp only [packInner, packPlaintext, hfp, unpackFromPrior, Message.validatePackPlaintext]; rfl
  have hms : ∀ (k : ErrorKind) (doc : DIDDoc) (l : List Str), (∀ k ∈ l, methodOf doc k ≠ none) →
      ∃ v, methodsOf k doc l = .ok v := by
    intro e doc l hl
    induction l with
    | nil => exact ⟨[], rfl⟩
    | cons k l ih =>
      obtain ⟨v, hv⟩ := ih (fun k' hk' => hl k' (by simp [hk']))
      obtain ⟨vm, hvm⟩ := Option.ne_none_iff_exists'.1 (hl k (by simp))
      exact ⟨vm :: v, by simp [methodsOf, find_method, hvm, hv, okOr, bind, Except.bind]⟩
  obtain ⟨fv, hfv⟩ := hms .malformed fromDoc found hfm
  obtain ⟨tv, htv⟩ := hms .malformed toDoc _ htm
  have hch : chooseSender fv tv = .error (.kind .noCompatibleCrypto) := by
    have := chooseSender_eq (to := to) (methodsOf_ok.1 hfv) (methodsOf_ok.1 htv)
    rw [List.find?_eq_none.2 (fun s hs => by simpa using hinc s hs)] at this
    cases hc : chooseSender fv tv with
    | ok v => rw [hc] at this; cases this
    | error e => rw [hc] at this; simpa [Except.map, okOr] using this
  unfold packEncrypted at hr
  rw [hv, hp, runs_lift_bind] at hr
  rcases hr with ⟨e, h, _⟩ | ⟨a, _, hr⟩
  · cases h
  rw [runs_pure_bind] at hr
  unfold packCrypt authcrypt at hr
  simp only [didOrUrl_fst] at hr
  -- peel the answers
  have peelR : ∀ {β : Type} {d : Str} {doc : Option DIDDoc} {f : Option DIDDoc → Prog β} {tr r},
      Runs (resolve d >>= f) (evResolve d doc :: tr) r → Runs (f doc) tr r := by
    intro β d doc f tr r h
    rcases runs_bind.1 h with ⟨e, hq, rfl⟩ | ⟨a, t1, t2, ht, hq, h'⟩
    · rcases runs_resolve.1 hq with ⟨x, _, h⟩ | ⟨k, h, _⟩ <;> cases h
    · rcases runs_resolve.1 hq with ⟨x, rfl, hx⟩ | ⟨k, _, hx⟩
      · cases hx
        simp only [List.cons_append, List.nil_append, List.cons.injEq] at ht
        obtain ⟨h1, rfl⟩ := ht
        cases h1
        exact h'
      · cases hx
  have peelF : ∀ {β : Type} {d fs : List Str} {f : List Str → Prog β} {tr r},
      Runs (findSecrets d >>= f) (evFind d fs :: tr) r → Runs (f fs) tr r := by
    intro β d doc f tr r h
    rcases runs_bind.1 h with ⟨e, hq, rfl⟩ | ⟨a, t1, t2, ht, hq, h'⟩
    · rcases runs_findSecrets.1 hq with ⟨x, _, h⟩ | ⟨k, h, _⟩ <;> cases h
    · rcases runs_findSecrets.1 hq with ⟨x, rfl, hx⟩ | ⟨k, _, hx⟩
      · cases hx
        simp only [List.cons_append, List.nil_append, List.cons.injEq] at ht
        obtain ⟨h1, rfl⟩ := ht
        cases h1
        exact h'
      · cases hx
  have hassoc : ∀ {α β γ : Type} (p : Prog α) (f : α → Prog β) (g : β → Prog γ),
      ((p >>= f) >>= g) = (p >>= fun x => f x >>= g) := by
    intro α β γ p f g
    change (p.bind f).bind g = p.bind (fun x => (f x).bind g)
    induction p with
    | ret x => cases x <;> rfl
    | ask q k ih => simp only [Prog.bind, ih]
  simp only [hassoc] at hr
  have hr := peelR hr
  rw [runs_lift_bind] at hr
  rcases hr with ⟨e, h, _⟩ | ⟨a, ha, hr⟩
  · cases h
  cases ha
  have hr := peelR hr
  rw [runs_lift_bind] at hr
  rcases hr with ⟨e, h, _⟩ | ⟨a, ha, hr⟩
  · cases h
  cases ha
  rw [runs_lift_bind] at hr
  rcases hr with ⟨e, h, ht, _⟩ | ⟨a, ha, hr⟩
  · cases ht
  obtain ⟨rfl, hne⟩ := agreementKids_ok.1 ha
  have hr := peelF hr
  rw [if_neg (by simpa using hfound)] at hr
  simp only [hassoc, hfv, agreementKids_ok.2 ⟨rfl, hto⟩] at hr
  rw [runs_lift_bind] at hr
  rcases hr with ⟨e, h, _⟩ | ⟨a, ha, hr⟩
  · cases h
  cases ha
  rw [runs_lift_bind] at hr
  rcases hr with ⟨e, h, _⟩ | ⟨a, ha, hr⟩
  · cases h
  cases ha
  rw [htv, runs_lift_bind] at hr
  rcases hr with ⟨e, h, _⟩ | ⟨a, ha, hr⟩
  · cases h
  cases ha
  rw [hch, runs_lift_bind] at hr
  rcases hr with ⟨e, h, _, rfl⟩ | ⟨a, ha, hr⟩
  · cases h; rfl
  · cases ha

/-- Alice has a P-256 and an X25519 key, Bob both types: the P-256 pair is used because Alice's
document lists that key first.  With an X25519-only recipient the other key is chosen. -/
example : (∃ tr out md, Runs (packEncrypted Toy.crypto World.msg World.bob (some World.alice) none { forward := false })
      tr (.ok (out, md)) ∧ md.fromKid = some b!"did:example:alice#p1" ∧ md.toKids = [b!"did:example:bob#p1"]) ∧
    (∃ tr out md, Runs (packEncrypted Toy.crypto World.msg b!"did:example:bob#x2" (some World.alice) none
      { forward := false }) tr (.ok (out, md)) ∧
      md.fromKid = some b!"did:example:alice#x1" ∧ md.toKids = [b!"did:example:bob#x2"]) := by
  constructor
  · obtain ⟨tr, ⟨out, md⟩, h, _, hk⟩ := World.of_test (E := World.env)
      (p := packEncrypted Toy.crypto World.msg World.bob (some World.alice) none { forward := false })
      (P := fun x => decide (x.2.fromKid = some b!"did:example:alice#p1" ∧ x.2.toKids = [b!"did:example:bob#p1"]))
      (by decide +kernel)
    exact ⟨tr, out, md, h, of_decide_eq_true hk⟩
  · obtain ⟨tr, ⟨out, md⟩, h, _, hk⟩ := World.of_test (E := World.env)
      (p := packEncrypted Toy.crypto World.msg b!"did:example:bob#x2" (some World.alice) none { forward := false })
      (P := fun x => decide (x.2.fromKid = some b!"did:example:alice#x1" ∧ x.2.toKids = [b!"did:example:bob#x2"]))
      (by decide +kernel)
    exact ⟨tr, out, md, h, of_decide_eq_true hk⟩

/-- The hypotheses of `C35_incompatible` are met by an X25519 sender key and a P-256 recipient key. -/
example : (¬ IllegalArguments World.msg b!"did:example:bob#p1" (some b!"did:example:alice#x1") none) ∧
    meantBy b!"did:example:bob#p1" World.bobDoc.keyAgreement = [b!"did:example:bob#p1"] ∧
    methodOf World.bobDoc b!"did:example:bob#p1" ≠ none ∧ methodOf World.aliceDoc b!"did:example:alice#x1" ≠ none ∧
    ¬ Compatible World.aliceDoc World.bobDoc b!"did:example:bob#p1" b!"did:example:alice#x1" ∧
    (∃ tr, Runs (packEncrypted Toy.crypto World.msg b!"did:example:bob#p1" (some b!"did:example:alice#x1") none {})
      (evResolve World.bob (some World.bobDoc) :: evResolve World.alice (some World.aliceDoc) ::
        evFind [b!"did:example:alice#x1"] [b!"did:example:alice#x1"] :: tr)
      (.error (.kind .noCompatibleCrypto))) := by
  refine ⟨?_, by decide +kernel, ?_, ?_, by decide +kernel, [], ?_⟩
  · rw [← illegalArguments_iff, Classical.not_not]; rfl
  · intro h; cases h
  · intro h; cases h
  · have h := (Prog.run_spec World.env id (packEncrypted Toy.crypto World.msg b!"did:example:bob#p1"
      (some b!"did:example:alice#x1") none {})).1
    exact h

/-! ## C36: metadata and wire -/

theorem wrapAll_kids {kdf : Kdf} {curve : Curve} {epk : C.Key} {skey : Option C.Key} {alg apu apv tag cek : Bytes}
    {l : List (Str × C.Key)} {rs : List JweRecipient}
    (h : wrapAll C kdf curve epk skey alg apu apv tag cek l = .ok rs) :
    rs.map JweRecipient.kid = l.map Prod.fst := by
  induction l generalizing rs with
  | nil => cases h; rfl
  | cons p r ih =>
    obtain ⟨kid, key⟩ := p
    simp only [wrapAll, res_bind_ok, Except.ok.injEq] at h
    obtain ⟨_, _, _, _, l, hl, rfl⟩ := h
    simp [ih hl]

/-- What an encrypted text looks like from outside. -/
theorem jweEncrypt_wire {ce : ContentEnc} {kdf : Kdf} {curve : Curve} {pt : Bytes} {alg : JweAlg} {enc : EncAlg}
    {sender : Option (Str × C.Key)} {rcps : List (Str × C.Key)} {tr : List Event} {out : Str}
    (h : Runs (jweEncrypt C ce kdf curve pt alg enc sender rcps) tr (.ok out)) :
    ∃ epk, IsJwe out ⟨some b!"application/didcomm-encrypted+json", alg, enc, sender.map Prod.fst,
      (sender.map Prod.fst).map B64.encode, B64.encode (apvOf C (rcps.map Prod.fst)), epk⟩ (rcps.map Prod.fst) := by
  obtain ⟨r1, r2, r3, cek, epk, j, ct, tag, rs, -, -, -, -, -, h5, rfl⟩ := jweEncrypt_ok.1 h
  exact ⟨j, _, rfl, by rw [JweHeader.onWire_eq]; rfl, wrapAll_kids h5⟩

/-- C36: without forwarding the text returned is a JWE whose recipients are exactly the reported
`to_kids`; without `from` it names no sender; with `from` it names exactly `from_kid`, in `skid` and
in `apu`; with `protect_sender` the outermost JWE names no sender and has the same recipients. -/
theorem C36_wire (m : Message) (to : Str) (from_ signBy : Option Str) (opts : PackEncryptedOptions)
    (tr : List Event) (out : Str) (md : PackEncryptedMetadata)
    (hr : Runs (packEncrypted C m to from_ signBy opts) tr (.ok (out, md))) (hw : md.messagingService = none) :
    ∃ hdr, IsJwe out hdr md.toKids ∧ (md.fromKid.isSome ↔ from_.isSome) ∧
      (from_ = none ∨ opts.protectSender = true → hdr.skid = none ∧ hdr.apu = none) ∧
      (from_.isSome → opts.protectSender = false → hdr.skid = md.fromKid ∧ hdr.apu = md.fromKid.map B64.encode) := by
  obtain ⟨t1, t2, t3, inner, sk, env, fk, tk, w, rfl, -, -, h, -, hmd⟩ := packEncrypted_ok.1 hr
  rcases hmd with ⟨-, rfl, rfl⟩ | ⟨svc, -, rfl⟩
  rotate_left
  · cases hw
  rcases packCrypt_ok.1 h with ⟨rfl, rfl, ha⟩ | ⟨f, k, rfl, rfl, ha⟩
  · obtain ⟨doc, kids, vms, curve, toKeys, tr', -, -, -, -, -, h5, rfl, h6⟩ := anoncrypt_ok.1 ha
    obtain ⟨epk, h7⟩ := jweEncrypt_wire h6
    rw [keysOf_fst h5] at h7
    exact ⟨_, h7, by simp, fun _ => ⟨rfl, rfl⟩, fun h => by cases h⟩
  · obtain ⟨toDoc, fromDoc, fromKids, found, fromVms, kids, vms, fromVm, secret, curve, toKeys, sk, tr', -, -, -, -,
      -, -, -, rfl, -, -, h8, rfl, -, h9⟩ := authcrypt_ok.1 ha
    unfold authEncrypt at h9
    rw [runs_bind_ok] at h9
    obtain ⟨o1, u1, u2, rfl, h1, h2⟩ := h9
    split at h2
    · rename_i hp
      obtain ⟨epk, h7⟩ := jweEncrypt_wire h2
      rw [keysOf_fst h8] at h7
      exact ⟨_, h7, by simp, fun _ => ⟨rfl, rfl⟩, fun _ h => by rw [hp] at h; cases h⟩
    · rename_i hp
      obtain ⟨rfl, h2⟩ := runs_pure.1 h2
      cases h2
      obtain ⟨epk, h7⟩ := jweEncrypt_wire h1
      rw [keysOf_fst h8] at h7
      refine ⟨_, h7, by simp, ?_, fun _ _ => ⟨rfl, rfl⟩⟩
      rintro (h | h)
      · cases h
      · exact absurd h hp

/-- C36: all reported recipients belong to the DID of `to`, provided the resolved document lists key
ids of its own DID under keyAgreement. -/
theorem C36_recipient_did (m : Message) (to : Str) (from_ signBy : Option Str) (opts : PackEncryptedOptions)
    (tr : List Event) (out : Str) (md : PackEncryptedMetadata)
    (hr : Runs (packEncrypted C m to from_ signBy opts) tr (.ok (out, md)))
    (hown : ∀ doc, evResolve (didOf to) (some doc) ∈ tr → ∀ k ∈ doc.keyAgreement, didOf k = didOf to) :
    ∀ k ∈ md.toKids, didOf k = didOf to := by
  have hmb : ∀ (l : List Str) k, k ∈ meantBy to l → k ∈ l := by
    intro l k hk
    unfold meantBy at hk
    split at hk
    · exact (List.mem_filter.1 hk).1
    · exact hk
  intro k hk
  cases from_ with
  | none =>
    obtain ⟨doc, curve, h1, -, -, h4, -⟩ := C34_recipients m to signBy opts tr out md hr
    rw [h4] at hk
    exact hown doc h1 k (hmb _ _ (List.mem_filter.1 hk).1)
  | some f =>
    obtain ⟨toDoc, fromDoc, found, curve, fk, h1, -, -, -, -, -, -, h4, -⟩ := C35_negotiation m to f signBy opts tr out md hr
    rw [h4] at hk
    exact hown toDoc h1 k (hmb _ _ (List.mem_filter.1 hk).1)

/-- A key id as `to` is always the only recipient id, whatever the document says. -/
theorem C36_recipient_is_to (m : Message) (to : Str) (from_ signBy : Option Str) (opts : PackEncryptedOptions)
    (tr : List Event) (out : Str) (md : PackEncryptedMetadata)
    (hr : Runs (packEncrypted C m to from_ signBy opts) tr (.ok (out, md))) (hf : HasFragment to) :
    ∀ k ∈ md.toKids, k = to := by
  have hmb : ∀ (l : List Str) k, k ∈ meantBy to l → k = to := by
    intro l k hk
    unfold meantBy at hk
    rw [if_pos hf] at hk
    simpa using (List.mem_filter.1 hk).2
  intro k hk
  cases from_ with
  | none =>
    obtain ⟨doc, curve, h1, -, -, h4, -⟩ := C34_recipients m to signBy opts tr out md hr
    rw [h4] at hk
    exact hmb _ _ (List.mem_filter.1 hk).1
  | some f =>
    obtain ⟨toDoc, fromDoc, found, curve, fk, h1, -, -, -, -, -, -, h4, -⟩ := C35_negotiation m to f signBy opts tr out md hr
    rw [h4] at hk
    exact hmb _ _ (List.mem_filter.1 hk).1

/-- The hypotheses of the C36 theorems are met in the concrete world. -/
example : (∃ tr out md, Runs (packEncrypted Toy.crypto World.msg World.bob (some World.alice) none
      { forward := false, protectSender := true }) tr (.ok (out, md)) ∧ md.messagingService = none) ∧
    (∀ k ∈ World.bobDoc.keyAgreement, didOf k = didOf World.bob) := by
  refine ⟨?_, by decide +kernel⟩
  obtain ⟨tr, ⟨out, md⟩, h, _, hk⟩ := World.of_test (E := World.env)
    (p := packEncrypted Toy.crypto World.msg World.bob (some World.alice) none { forward := false, protectSender := true })
    (P := fun x => decide (x.2.messagingService = none)) (by decide +kernel)
  exact ⟨tr, out, md, h, of_decide_eq_true hk⟩

/-! ## C40: forwarding switched off -/

/-- C40: with `forward` off the events of a successful packing end with the encryption's randomness,
no service is reported, and the text is the envelope itself: the same run is a run with any other
`messaging_service` and forward headers. -/
theorem C40_no_forward (m : Message) (to : Str) (from_ signBy : Option Str) (opts : PackEncryptedOptions)
    (hf : opts.forward = false) (tr : List Event) (out : Str) (md : PackEncryptedMetadata)
    (hr : Runs (packEncrypted C m to from_ signBy opts) tr (.ok (out, md))) :
    md.messagingService = none ∧ (∃ hdr, IsJwe out hdr md.toKids) ∧
    (∃ n, tr.getLast? = some (evRandom n)) ∧
    ∀ hs svc, Runs (packEncrypted C m to from_ signBy { opts with forwardHeaders := hs, messagingService := svc }) tr
      (.ok (out, md)) := by
  obtain ⟨t1, t2, t3, inner, sk, env, fk, tk, w, rfl, h0, h1, h2, h3, hmd⟩ := packEncrypted_ok.1 hr
  have hw : t3 = [] ∧ w = none := by
    unfold wrapInForwardIfNeeded at h3
    rw [if_pos hf] at h3
    obtain ⟨a, b⟩ := runs_pure.1 h3
    cases b; exact ⟨a, rfl⟩
  obtain ⟨rfl, rfl⟩ := hw
  have hmd' := hmd
  rcases hmd with ⟨-, rfl, rfl⟩ | ⟨svc, h, -⟩
  rotate_left
  · cases h
  refine ⟨rfl, ?_, ?_, ?_⟩
  · obtain ⟨hdr, h, _⟩ := C36_wire _ _ _ _ _ _ _ _ hr rfl
    exact ⟨hdr, h⟩
  · have hlast : ∀ {ce kdf curve pt alg enc} {sender : Option (Str × C.Key)} {rcps tr o},
        Runs (jweEncrypt C ce kdf curve pt alg enc sender rcps) tr (.ok o) → ∃ a b n, tr = [a, b, evRandom n] := by
      intro ce kdf curve pt alg enc sender rcps tr o h
      obtain ⟨r1, r2, r3, _, _, _, _, _, _, rfl, _⟩ := jweEncrypt_ok.1 h
      exact ⟨_, _, r3, rfl⟩
    rcases packCrypt_ok.1 h2 with ⟨rfl, rfl, ha⟩ | ⟨f, k, rfl, rfl, ha⟩
    · obtain ⟨doc, kids, vms, curve, toKeys, tr', rfl, -, -, -, -, h5, rfl, h6⟩ := anoncrypt_ok.1 ha
      obtain ⟨a, b, n, rfl⟩ := hlast h6
      exact ⟨n, by simp [List.getLast?_append]⟩
    · obtain ⟨toDoc, fromDoc, fromKids, found, fromVms, kids, vms, fromVm, secret, curve, toKeys, sk, tr', rfl, -, -, -,
        -, -, -, rfl, -, -, h8, rfl, -, h9⟩ := authcrypt_ok.1 ha
      unfold authEncrypt at h9
      rw [runs_bind_ok] at h9
      obtain ⟨o1, u1, u2, rfl, h1, h2⟩ := h9
      split at h2
      · obtain ⟨a, b, n, rfl⟩ := hlast h2
        exact ⟨n, by simp [List.getLast?_append, List.getLast?_cons]⟩
      · obtain ⟨rfl, h2⟩ := runs_pure.1 h2
        obtain ⟨a, b, n, rfl⟩ := hlast h1
        exact ⟨n, by simp [List.getLast?_append]⟩
  · intro hs svc
    refine packEncrypted_ok.2 ⟨t1, t2, [], inner, sk, _, fk, tk, none, rfl, h0, h1, h2, ?_, .inl ⟨rfl, rfl, rfl⟩⟩
    unfold wrapInForwardIfNeeded
    rw [if_pos hf]
    exact runs_pure.2 ⟨rfl, rfl⟩

/-- Bob's document has a service with a mediator; with `forward` off it plays no role. -/
example : ∃ tr out md, Runs (packEncrypted Toy.crypto World.msg World.bob none none { forward := false }) tr
    (.ok (out, md)) ∧ md.messagingService = none ∧ World.bobDoc.service ≠ [] := by
  obtain ⟨tr, ⟨out, md⟩, h, _, hk⟩ := World.of_test (E := World.env)
    (p := packEncrypted Toy.crypto World.msg World.bob none none { forward := false })
    (P := fun x => decide (x.2.messagingService = none)) (by decide +kernel)
  exact ⟨tr, out, md, h, of_decide_eq_true hk, by simp [World.bobDoc]⟩

/-! ## C15: issuing a `from_prior` -/

theorem validatePack_ok {f : FromPrior} {k : Option Str} :
    f.validatePack k = .ok () ↔
      PlainDid f.iss ∧ PlainDid f.sub ∧ f.iss ≠ f.sub ∧ (∀ kid, k = some kid → HasFragment kid ∧ didOf kid = f.iss) := by
  have hd : ∀ s : Str, ¬ (isDid s = false ∨ (didOrUrl s).2.isSome = true) ↔ PlainDid s := by
    intro s
    unfold PlainDid
    rw [← C46_is_did, ← didOrUrl_isSome, not_or]
    cases isDid s <;> simp
  unfold FromPrior.validatePack
  by_cases h1 : PlainDid f.iss
  · rw [if_neg ((hd _).2 h1)]
    by_cases h2 : PlainDid f.sub
    · rw [if_neg ((hd _).2 h2)]
      by_cases h3 : f.iss = f.sub
      · rw [if_pos h3]
        exact ⟨fun h => (by cases h), fun h => absurd h3 h.2.2.1⟩
      · rw [if_neg h3]
        cases k with
        | none => simp [h1, h2, h3]
        | some k =>
          simp only [didOrUrl_fst]
          by_cases h4 : HasFragment k
          · have : ¬ (didOrUrl k).2.isNone = true := by rw [didOrUrl_isNone]; exact fun h => h h4
            rw [if_neg this]
            by_cases h5 : didOf k = f.iss
            · rw [if_neg (by simpa using h5)]
              simp only [Option.some.injEq, true_iff]
              exact ⟨h1, h2, h3, fun kid hk => hk ▸ ⟨h4, h5⟩⟩
            · rw [if_pos h5]
              exact ⟨fun h => (by cases h), fun h => absurd (h.2.2.2 k rfl).2 h5⟩
          · rw [if_pos ((didOrUrl_isNone _).2 h4)]
            exact ⟨fun h => (by cases h), fun h => absurd (h.2.2.2 k rfl).1 h4⟩
    · rw [if_pos (Classical.byContradiction fun h => h2 ((hd _).1 h))]
      exact ⟨fun h => (by cases h), fun h => absurd h.2.1 h2⟩
  · rw [if_pos (Classical.byContradiction fun h => h1 ((hd _).1 h))]
    exact ⟨fun h => (by cases h), fun h => absurd h.1 h1⟩

/-- C15: a `from_prior` is only issued for two different plain DIDs, by a key of the issuer: the one
named (which must belong to the issuer and be listed under authentication), or the first authentication
key the secrets resolver reports.  The header of the JWT names that key, its payload is the claim set. -/
theorem C15_issue (f : FromPrior) (issuerKid : Option Str) (tr : List Event) (jwt kid : Str)
    (hr : Runs (f.pack C issuerKid) tr (.ok (jwt, kid))) :
    PlainDid f.iss ∧ PlainDid f.sub ∧ f.iss ≠ f.sub ∧
    (∀ k, issuerKid = some k → HasFragment k ∧ didOf k = f.iss) ∧
    ∃ doc found secret,
      tr = [evResolve f.iss (some doc), evFind (issuerKid.elim doc.authentication (fun k => [k])) found,
        evGet kid (some secret)] ∧
      found.head? = some kid ∧ (∀ k, issuerKid = some k → k ∈ doc.authentication) ∧
      (HonestFind tr → kid ∈ doc.authentication ∧ ∀ k, issuerKid = some k → kid = k) ∧
      ∃ alg sig, jwt = B64.encode (CompactHeader.onWire ⟨b!"JWT", alg, kid⟩) ++ b!"." ++
        B64.encode f.toJson.print ++ b!"." ++ B64.encode sig := by
  obtain ⟨doc, kids, found, secret, pair, alg, h0, rfl, h1, h2, h3, h4, h5⟩ := FromPrior.pack_ok.1 hr
  obtain ⟨v1, v2, v3, v4⟩ := validatePack_ok.1 h0
  have hk : kids = issuerKid.elim doc.authentication (fun k => [k]) ∧ ∀ k, issuerKid = some k → k ∈ doc.authentication := by
    unfold FromPrior.authKids at h1
    cases issuerKid with
    | none => cases h1; exact ⟨rfl, fun k h => by cases h⟩
    | some k =>
      obtain ⟨v5, v6⟩ := v4 k rfl
      have hs : didOrUrl k = (f.iss, some k) := by
        rw [← v6, ← didOrUrl_fst]
        have := didOrUrl_snd k
        rw [if_pos v5] at this
        rw [← this]
      simp only [hs, ne_eq, not_true, if_false, res_bind_ok, okOr_eq_ok, Except.ok.injEq, find?_eq_self] at h1
      obtain ⟨a, ⟨rfl, h⟩, rfl⟩ := h1
      exact ⟨rfl, fun k hk => by cases hk; exact h⟩
  obtain ⟨rfl, hk⟩ := hk
  obtain ⟨st, sig, -, -, rfl⟩ := jwsSignCompact_ok.1 h5
  refine ⟨v1, v2, v3, v4, doc, found, secret, rfl, h2, hk, ?_, alg, sig, ?_⟩
  · intro hh
    have := hh (issuerKid.elim doc.authentication fun k => [k]) found (by simp) kid (List.mem_of_mem_head? h2)
    cases issuerKid with
    | none => exact ⟨this, fun k h => by cases h⟩
    | some k =>
      simp only [Option.elim, List.mem_singleton] at this
      exact ⟨this ▸ hk k rfl, fun k' h => by cases h; exact this⟩
  · simp [dotJoin, jwtTyp, CompactHeader.onWire_eq]

/-- The claims of a concrete rotation from Alice to Bob, issued with and without a key id. -/
example : (∃ tr jwt, Runs (FromPrior.pack Toy.crypto ⟨World.alice, World.bob, none, none, none, none, none⟩ none) tr
      (.ok (jwt, b!"did:example:alice#ed"))) ∧
    (∃ tr jwt, Runs (FromPrior.pack Toy.crypto ⟨World.alice, World.bob, none, none, none, none, none⟩
      (some b!"did:example:alice#ek")) tr (.ok (jwt, b!"did:example:alice#ek"))) := by
  constructor
  · obtain ⟨tr, ⟨out, kid⟩, h, _, hk⟩ := World.of_test (E := World.env)
      (p := FromPrior.pack Toy.crypto ⟨World.alice, World.bob, none, none, none, none, none⟩ none)
      (P := fun x => x.2 == b!"did:example:alice#ed") (by decide +kernel)
    simp at hk; exact ⟨tr, out, hk ▸ h⟩
  · obtain ⟨tr, ⟨out, kid⟩, h, _, hk⟩ := World.of_test (E := World.env)
      (p := FromPrior.pack Toy.crypto ⟨World.alice, World.bob, none, none, none, none, none⟩ (some b!"did:example:alice#ek"))
      (P := fun x => x.2 == b!"did:example:alice#ek") (by decide +kernel)
    simp at hk; exact ⟨tr, out, hk ▸ h⟩

end DIDComm
