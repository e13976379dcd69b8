import Verif.Proofs.Secrecy
import Verif.Proofs.Forward
import Verif.Props.Negotiation
import Verif.Props.Routing
import Verif.Props.Termination
import Verif.Proofs.WorldRuns

/-!
# Content and sender in packed texts; tampering: C42, C48, C49, C50
-/

set_option autoImplicit false

namespace DIDComm

variable {C : Crypto}

/-! ## C48: content -/

/-- C48: two messages are packed with the same resolvers and the same random draws, for the same recipient, from the same
sender and with the same options; they may be signed by different signers or not at all.  If content encryption
returns the same for the texts to be encrypted, the two results are the same, byte for byte, and so is the
metadata apart from the signer.  So nothing of the content shows outside of the results of content encryption. -/
theorem C48_content (E : Env) (m m' : Message) (to : Str) (from_ signBy signBy' : Option Str) (opts : PackEncryptedOptions)
    (tr tr' : List Event) (out out' : Str) (md md' : PackEncryptedMetadata)
    (h : Runs (packEncrypted C m to from_ signBy opts) tr (.ok (out, md)))
    (h' : Runs (packEncrypted C m' to from_ signBy' opts) tr' (.ok (out', md')))
    (ha : Answers E tr) (ha' : Answers E tr') (hd : draws tr = draws tr')
    (hsame : ∀ text text', InnerText m signBy text → InnerText m' signBy' text' →
      ∀ ce k iv aad, C.aeadEnc ce k iv aad text = C.aeadEnc ce k iv aad text') :
    out = out' ∧ md' = { md with signByKid := md'.signByKid } := by
  obtain ⟨t1, t2, t3, inner, sk, env, fk, tk, w, rfl, -, h1, h2, h3, h4⟩ := packEncrypted_ok.1 h
  obtain ⟨t1', t2', t3', inner', sk', env', fk', tk', w', rfl, -, h1', h2', h3', h4'⟩ := packEncrypted_ok.1 h'
  obtain ⟨d1, i1⟩ := draws_inner h1
  obtain ⟨d1', i1'⟩ := draws_inner h1'
  rw [packCrypt_congr (hsame _ _ i1 i1')] at h2
  simp only [draws_append, d1, d1', List.nil_append] at hd
  simp only [answers_append] at ha ha'
  obtain ⟨rfl, e, hd⟩ := runs_det h2 h2' ha.1.2 ha'.1.2 hd
  cases e
  obtain ⟨rfl, e, -⟩ := runs_det (a := []) (b := []) h3 h3' ha.2 ha'.2 (by simpa using hd)
  cases e
  rcases h4 with ⟨rfl, rfl, rfl⟩ | ⟨svc, rfl, rfl⟩
  · rcases h4' with ⟨-, rfl, rfl⟩ | ⟨_, h, -⟩
    · exact ⟨rfl, rfl⟩
    · cases h
  · rcases h4' with ⟨h, -⟩ | ⟨_, h, rfl⟩
    · cases h
    · cases h; exact ⟨rfl, rfl⟩

/-- Toy primitives whose content encryption hides everything, even the length. -/
def World.blind : Crypto := { Toy.crypto with aeadEnc := fun ce k iv aad _ => some ([], Toy.ceByte ce :: (k ++ iv ++ aad)) }

/-- Evaluate a program and test its history and result. -/
def World.testRun {α : Type} (E : Env) (p : Prog α) (P : List Event → α → Bool) : Bool :=
  match (p.run E id).2 with
  | .ok x => P (p.run E id).1 x
  | .error _ => false

theorem World.of_run {α : Type} {E : Env} {p : Prog α} {P : List Event → α → Bool} (h : World.testRun E p P = true) :
    ∃ tr x, Runs p tr (.ok x) ∧ Answers E tr ∧ P tr x = true := by
  have hs := Prog.run_spec E id p
  unfold World.testRun at h
  split at h
  · rename_i x hx; rw [hx] at hs; exact ⟨_, x, hs.1, hs.2, h⟩
  · cases h

set_option maxRecDepth 100000 in
/-- C48's hypotheses are met by a signed and an unsigned message, different in content. -/
example : ∃ tr tr' out out' md md',
    Runs (packEncrypted World.blind World.msg World.bob (some World.alice) (some World.alice) {}) tr (.ok (out, md)) ∧
    Runs (packEncrypted World.blind { id := [], type_ := [], body := .null } World.bob (some World.alice) none {}) tr' (.ok (out', md')) ∧
    Answers World.env tr ∧ Answers World.env tr' ∧ draws tr = draws tr' ∧
    (∀ text text' : Str, ∀ ce k iv aad, World.blind.aeadEnc ce k iv aad text = World.blind.aeadEnc ce k iv aad text') ∧
    md.messagingService.isSome ∧ md.signByKid ≠ md'.signByKid := by
  have h1 : World.testRun World.env (packEncrypted World.blind World.msg World.bob (some World.alice) (some World.alice) {}) (fun tr x => decide (draws tr = [0, 1, 2, 3, 4, 5, 6, 7, 8, 9, 10]) && decide (x.2.messagingService.isSome ∧ x.2.signByKid = some b!"did:example:alice#ed")) = true := by decide +kernel
  have h2 : World.testRun World.env (packEncrypted World.blind { id := [], type_ := [], body := .null } World.bob (some World.alice) none {}) (fun tr x => decide (draws tr = [0, 1, 2, 3, 4, 5, 6, 7, 8, 9, 10]) && decide (x.2.signByKid = none)) = true := by decide +kernel
  obtain ⟨tr, ⟨out, md⟩, r1, a1, p1⟩ := World.of_run h1
  obtain ⟨tr', ⟨out', md'⟩, r2, a2, p2⟩ := World.of_run h2
  simp only [Bool.and_eq_true, decide_eq_true_eq] at p1 p2
  refine ⟨tr, tr', out, out', md, md', r1, r2, a1, a2, p1.1.trans p2.1.symm, fun _ _ _ _ _ _ => rfl, p1.2.1, ?_⟩
  rw [p1.2.2, p2.2]
  simp

/-! ## C49: sender -/

theorem wrap_det {E : Env} {env to : Str} {opts : PackEncryptedOptions} {t t' : List Event} {out out' : Str}
    {w w' : Option (Str × MessagingServiceMetadata)} {fk fk' sk sk' : Option Str} {tk tk' : List Str}
    {md md' : PackEncryptedMetadata}
    (h : Runs (wrapInForwardIfNeeded C env to opts) t (.ok w)) (h' : Runs (wrapInForwardIfNeeded C env to opts) t' (.ok w'))
    (ha : Answers E t) (ha' : Answers E t') (hd : draws t = draws t')
    (h4 : (w = none ∧ out = env ∧ md = ⟨none, fk, sk, tk⟩) ∨ ∃ svc, w = some (out, svc) ∧ md = ⟨some svc, fk, sk, tk⟩)
    (h4' : (w' = none ∧ out' = env ∧ md' = ⟨none, fk', sk', tk'⟩) ∨ ∃ svc, w' = some (out', svc) ∧ md' = ⟨some svc, fk', sk', tk'⟩) :
    out = out' ∧ md.messagingService = md'.messagingService := by
  obtain ⟨rfl, e, -⟩ := runs_det (a := []) (b := []) h h' ha ha' (by simpa using hd)
  cases e
  rcases h4 with ⟨rfl, rfl, rfl⟩ | ⟨svc, rfl, rfl⟩
  · rcases h4' with ⟨-, rfl, rfl⟩ | ⟨_, h, -⟩
    · exact ⟨rfl, rfl⟩
    · cases h
  · rcases h4' with ⟨h, -⟩ | ⟨_, h, rfl⟩
    · cases h
    · cases h; exact ⟨rfl, rfl⟩

/-- C49: two senders pack two messages for the same recipient with `protect_sender`, with the same resolvers, and their
sender keys are of a type for which the same recipient keys are chosen.  If the draws for the outer encryption (all
but the first three) are the same and content encryption returns the same for the two sender-naming envelopes
inside, the two results are the same, byte for byte. -/
theorem C49_sender (E : Env) (m m' : Message) (to f f' : Str) (signBy signBy' : Option Str) (opts : PackEncryptedOptions)
    (tr tr' : List Event) (out out' : Str) (md md' : PackEncryptedMetadata) (hp : opts.protectSender = true)
    (h : Runs (packEncrypted C m to (some f) signBy opts) tr (.ok (out, md)))
    (h' : Runs (packEncrypted C m' to (some f') signBy' opts) tr' (.ok (out', md')))
    (ha : Answers E tr) (ha' : Answers E tr') (hk : md.toKids = md'.toKids)
    (hd : (draws tr).drop 3 = (draws tr').drop 3)
    (hsame : ∀ text text' hdr hdr', IsJwe text hdr md.toKids → hdr.skid = md.fromKid →
      IsJwe text' hdr' md.toKids → hdr'.skid = md'.fromKid →
      ∀ ce k iv aad, C.aeadEnc ce k iv aad text = C.aeadEnc ce k iv aad text') :
    out = out' ∧ md.messagingService = md'.messagingService := by
  obtain ⟨t1, t2, t3, inner, sk, env, fk, tk, w, rfl, -, h1, h2, h3, h4⟩ := packEncrypted_ok.1 h
  obtain ⟨t1', t2', t3', inner', sk', env', fk', tk', w', rfl, -, h1', h2', h3', h4'⟩ := packEncrypted_ok.1 h'
  obtain ⟨d1, -⟩ := draws_inner h1
  obtain ⟨d1', -⟩ := draws_inner h1'
  have e1 : md.toKids = tk ∧ md.fromKid = fk := by rcases h4 with ⟨-, -, rfl⟩ | ⟨_, -, rfl⟩ <;> exact ⟨rfl, rfl⟩
  have e1' : md'.toKids = tk' ∧ md'.fromKid = fk' := by rcases h4' with ⟨-, -, rfl⟩ | ⟨_, -, rfl⟩ <;> exact ⟨rfl, rfl⟩
  rw [e1.1, e1'.1] at hk
  rw [e1.1, e1.2, e1'.2] at hsame
  subst hk
  simp only [answers_append] at ha ha'
  rcases packCrypt_ok.1 h2 with ⟨h, -⟩ | ⟨_, k, hf, rfl, h2⟩
  · cases h
  cases hf
  rcases packCrypt_ok.1 h2' with ⟨h, -⟩ | ⟨_, k', hf, rfl, h2'⟩
  · cases h
  cases hf
  obtain ⟨toDoc, fromDoc, fromKids, found, fromVms, kids, vms, fromVm, secret, curve, toKeys, skey, u, rfl, -, -, -,
    a1, a2, a3, -, a4, -, a5, a6, -, a7⟩ := authcrypt_ok.1 h2
  obtain ⟨toDoc', fromDoc', fromKids', found', fromVms', kids', vms', fromVm', secret', curve', toKeys', skey', u', rfl, -, -, -,
    b1, b2, b3, -, b4, -, b5, b6, -, b7⟩ := authcrypt_ok.1 h2'
  have hdoc : toDoc = toDoc' := by
    have x : (.ok (some toDoc) : Except ErrorKind _) = E.resolve (didOrUrl to).1 := ha.1.2 _ List.mem_cons_self
    have y : (.ok (some toDoc') : Except ErrorKind _) = E.resolve (didOrUrl to).1 := ha'.1.2 _ List.mem_cons_self
    rw [← x] at y
    cases y
    rfl
  subst hdoc
  rw [a1] at b1
  cases b1
  rw [a2] at b2
  cases b2
  have hcurve : curve = curve' := by
    have ht : ∃ vm ∈ vms, vm.keyAlg = some curve := by
      unfold chooseSender at a3
      rw [okOr_eq_ok] at a3
      have := List.find?_some a3
      rw [List.any_eq_true] at this
      obtain ⟨vm, hv, hx⟩ := this
      exact ⟨vm, hv, (of_decide_eq_true hx).trans a4⟩
    obtain ⟨vm, hv, hx⟩ := ht
    have hm : vm.id ∈ tk := by
      rw [a6]
      exact List.mem_map.2 ⟨vm, List.mem_filter.2 ⟨hv, by simpa using hx⟩, rfl⟩
    rw [b6] at hm
    obtain ⟨vm', hv', hi⟩ := List.mem_map.1 hm
    obtain ⟨hv', hx'⟩ := List.mem_filter.1 hv'
    rw [methodsOf_ok] at a2
    have m1 := (methods_mem a2 hv).2
    have m2 := (methods_mem a2 hv').2
    rw [hi, m1] at m2
    cases m2
    rw [hx] at hx'
    simpa using hx'
  subst hcurve
  rw [a5] at b5
  cases b5
  unfold authEncrypt at a7 b7
  rw [runs_bind_ok] at a7 b7
  obtain ⟨o1, u1, u2, rfl, a7, a8⟩ := a7
  obtain ⟨o1', u1', u2', rfl, b7, b8⟩ := b7
  rw [if_pos hp] at a8 b8
  obtain ⟨_, w1⟩ := jweEncrypt_wire a7
  obtain ⟨_, w1'⟩ := jweEncrypt_wire b7
  rw [keysOf_fst a5, ← a6] at w1 w1'
  rw [jweEncrypt_congr (hsame _ _ _ _ w1 rfl w1' rfl)] at a8
  obtain ⟨_, _, _, _, _, _, _, _, _, rfl, -⟩ := jweEncrypt_ok.1 a7
  obtain ⟨_, _, _, _, _, _, _, _, _, rfl, -⟩ := jweEncrypt_ok.1 b7
  simp only [draws_append, d1, d1', draws_resolve, draws_find, draws_get, draws_random, List.nil_append,
    List.cons_append, List.drop_succ_cons, List.drop_zero] at hd
  obtain ⟨rfl, e, hd⟩ := runs_det (E := E) a8 b8 (fun ev he => ha.1.2 ev (by simp [he])) (fun ev he => ha'.1.2 ev (by simp [he])) hd
  cases e
  exact wrap_det h3 h3' ha.2 ha'.2 hd h4 h4'

/-- Carol, with one P-256 agreement key. -/
def World.carolDoc : DIDDoc :=
  { id := b!"did:example:carol"
    keyAgreement := [b!"did:example:carol#p1"]
    authentication := []
    verificationMethod := [World.method b!"did:example:carol#p1" b!"EC" b!"P-256" [31]]
    service := [] }

/-- A world with Carol. -/
def World.withCarol : Env := World.envOf [World.aliceDoc, World.bobDoc, World.mediatorDoc, World.carolDoc]
  (World.secret b!"did:example:carol#p1" b!"EC" b!"P-256" [31] :: World.secrets)

set_option maxRecDepth 100000 in
/-- C49's hypotheses are met by Alice and Carol. -/
example : ∃ (tr tr' : List Event) (out out' : Str) (md md' : PackEncryptedMetadata),
    Runs (packEncrypted World.blind World.msg World.bob (some World.alice) none { protectSender := true }) tr (.ok (out, md)) ∧
    Runs (packEncrypted World.blind { id := [], type_ := [], body := .null } World.bob (some b!"did:example:carol") none
      { protectSender := true }) tr' (.ok (out', md')) ∧
    Answers World.withCarol tr ∧ Answers World.withCarol tr' ∧ md.toKids = md'.toKids ∧ (draws tr).drop 3 = (draws tr').drop 3 ∧
    (∀ text text' : Str, ∀ ce k iv aad, World.blind.aeadEnc ce k iv aad text = World.blind.aeadEnc ce k iv aad text') ∧
    md.fromKid ≠ md'.fromKid := by
  have h1 : World.testRun World.withCarol (packEncrypted World.blind World.msg World.bob (some World.alice) none { protectSender := true }) (fun tr x => decide (draws tr = [0, 1, 2, 3, 4, 5, 6, 7, 8, 9, 10, 11, 12, 13]) &&
      decide (x.2.toKids = [b!"did:example:bob#p1"] ∧ x.2.fromKid = some b!"did:example:alice#p1")) = true := by decide +kernel
  have h2 : World.testRun World.withCarol (packEncrypted World.blind { id := [], type_ := [], body := .null } World.bob (some b!"did:example:carol") none
      { protectSender := true }) (fun tr x => decide (draws tr = [0, 1, 2, 3, 4, 5, 6, 7, 8, 9, 10, 11, 12, 13]) &&
      decide (x.2.toKids = [b!"did:example:bob#p1"] ∧ x.2.fromKid = some b!"did:example:carol#p1")) = true := by decide +kernel
  obtain ⟨tr, ⟨out, md⟩, r1, a1, p1⟩ := World.of_run h1
  obtain ⟨tr', ⟨out', md'⟩, r2, a2, p2⟩ := World.of_run h2
  simp only [Bool.and_eq_true, decide_eq_true_eq] at p1 p2
  refine ⟨tr, tr', out, out', md, md', r1, r2, a1, a2, p1.2.1.trans p2.2.1.symm, by rw [p1.1, p2.1], fun _ _ _ _ _ _ => rfl, ?_⟩
  rw [p1.2.2, p2.2.2]
  decide

set_option maxRecDepth 100000 in
/-- C49: the type of the sender's key does show: with two keys of different types of the same sender, perfectly hiding
content encryption and the same draws, `protect_sender` gives different texts, for different recipient keys. -/
theorem C49_key_type_shows : ∃ (C : Crypto) (E : Env) (m : Message) (to f f' : Str) (opts : PackEncryptedOptions)
    (tr tr' : List Event) (out out' : Str) (md md' : PackEncryptedMetadata),
    (∀ ce k iv aad (text text' : Str), C.aeadEnc ce k iv aad text = C.aeadEnc ce k iv aad text') ∧ opts.protectSender = true ∧
    Runs (packEncrypted C m to (some f) none opts) tr (.ok (out, md)) ∧
    Runs (packEncrypted C m to (some f') none opts) tr' (.ok (out', md')) ∧
    Answers E tr ∧ Answers E tr' ∧ draws tr = draws tr' ∧ out ≠ out' ∧
    (∃ hdr, IsJwe out hdr [b!"did:example:bob#p1"]) ∧ (∃ hdr, IsJwe out' hdr [b!"did:example:bob#x1", b!"did:example:bob#x2"]) := by
  have h1 : World.testRun World.env (packEncrypted World.blind World.msg World.bob (some b!"did:example:alice#p1") none
      { protectSender := true, forward := false }) (fun tr x => decide (draws tr = [0, 1, 2, 3, 4, 5]) &&
      decide (x.2.toKids = [b!"did:example:bob#p1"] ∧ x.2.messagingService = none ∧ x.1.length = 622)) = true := by decide +kernel
  have h2 : World.testRun World.env (packEncrypted World.blind World.msg World.bob (some b!"did:example:alice#x1") none
      { protectSender := true, forward := false }) (fun tr x => decide (draws tr = [0, 1, 2, 3, 4, 5]) &&
      decide (x.2.toKids = [b!"did:example:bob#x1", b!"did:example:bob#x2"] ∧ x.2.messagingService = none ∧ x.1.length ≠ 622)) = true := by decide +kernel
  obtain ⟨tr, ⟨out, md⟩, r1, a1, p1⟩ := World.of_run h1
  obtain ⟨tr', ⟨out', md'⟩, r2, a2, p2⟩ := World.of_run h2
  simp only [Bool.and_eq_true, decide_eq_true_eq] at p1 p2
  refine ⟨World.blind, World.env, World.msg, World.bob, _, _, _, tr, tr', out, out', md, md', fun _ _ _ _ _ _ => rfl, rfl,
    r1, r2, a1, a2, p1.1.trans p2.1.symm, ?_, ?_, ?_⟩
  · rintro rfl
    exact p2.2.2.2 p1.2.2.2
  · obtain ⟨hdr, h, -⟩ := C36_wire _ _ _ _ _ _ _ _ r1 p1.2.2.1
    rw [p1.2.1] at h
    exact ⟨hdr, h⟩
  · obtain ⟨hdr, h, -⟩ := C36_wire _ _ _ _ _ _ _ _ r2 p2.2.2.1
    rw [p2.2.1] at h
    exact ⟨hdr, h⟩

/-! ## C50: headers -/

theorem jweEncrypt_envelope {ce : ContentEnc} {kdf : Kdf} {curve : Curve} {pt : Bytes} {alg : JweAlg} {enc : EncAlg}
    {sender : Option (Str × C.Key)} {rcps : List (Str × C.Key)} {tr tr' : List Event} {out : Str}
    (h : Runs (jweEncrypt C ce kdf curve pt alg enc sender rcps) tr (.ok out)) (hs : ∀ ev ∈ tr, ev ∈ tr') :
    Envelope C tr' out (rcps.map Prod.fst) alg.asStr enc.asStr (sender.map Prod.fst) pt := by
  obtain ⟨r1, r2, r3, cek, epk, jwk, ct, tag, rs, rfl, h1, h2, h3, h4, h5, rfl⟩ := jweEncrypt_ok.1 h
  exact ⟨_, ⟨cek, C.genNonce ce r3, jweProtected C alg enc (sender.map Prod.fst) (rcps.map Prod.fst) jwk, pt, ct ++ tag⟩,
    ⟨some encryptedTyp, alg, enc, sender.map Prod.fst, (sender.map Prod.fst).map B64.encode,
      B64.encode (apvOf C (rcps.map Prod.fst)), jwk⟩,
    rfl, by rw [JweHeader.onWire_eq]; rfl, wrapAll_kids h5,
    ⟨ce, ct, tag, h4, rfl, rfl, B64.decode_encode _, B64.decode_encode _, B64.decode_encode _, wrapAll_seals h5⟩,
    rfl, ⟨ce, r1, hs _ (by simp), h1⟩, rfl, rfl, rfl, rfl, rfl, by rw [sha_joinedKids], curve, r2, epk, hs _ (by simp), h2, h3⟩

theorem anonEncName_eq (a : AnonCryptAlg) : a.enc.asStr = anonEncName a := by cases a <;> rfl

/-- What `anoncrypt` makes. -/
theorem anoncrypt_envelope {to : Str} {msg : Bytes} {alg : AnonCryptAlg} {tr tr' : List Event} {out : Str} {kids : List Str}
    (h : Runs (anoncrypt C to msg alg) tr (.ok (out, kids))) (hs : ∀ ev ∈ tr, ev ∈ tr') :
    Envelope C tr' out kids b!"ECDH-ES+A256KW" (anonEncName alg) none msg := by
  obtain ⟨doc, _, vms, curve, toKeys, t, rfl, -, -, -, -, h5, rfl, h6⟩ := anoncrypt_ok.1 h
  have := jweEncrypt_envelope h6 (tr' := tr') (fun ev he => hs ev (by simp [he]))
  rw [keysOf_fst h5, anonEncName_eq] at this
  exact this

/-- C50: what `pack_encrypted` encrypts and how it labels it.  Without forwarding: with no sender, one anonymous
envelope; with a sender, one envelope naming it; with `protect_sender`, an anonymous envelope for the same keys
around that.  Inside is the JSON text of the message or, with a signer, a signed envelope around it. -/
theorem C50_envelope (m : Message) (to : Str) (from_ signBy : Option Str) (opts : PackEncryptedOptions)
    (tr : List Event) (out : Str) (md : PackEncryptedMetadata)
    (h : Runs (packEncrypted C m to from_ signBy opts) tr (.ok (out, md))) (hw : md.messagingService = none) :
    ∃ inner, InnerText m signBy inner ∧
      (from_ = none → Envelope C tr out md.toKids b!"ECDH-ES+A256KW" (anonEncName opts.encAlgAnon) none inner) ∧
      (from_.isSome → md.fromKid.isSome ∧
        (opts.protectSender = false → Envelope C tr out md.toKids b!"ECDH-1PU+A256KW" b!"A256CBC-HS512" md.fromKid inner) ∧
        (opts.protectSender = true → ∃ auth,
          Envelope C tr auth md.toKids b!"ECDH-1PU+A256KW" b!"A256CBC-HS512" md.fromKid inner ∧
          Envelope C tr out md.toKids b!"ECDH-ES+A256KW" (anonEncName opts.encAlgAnon) none auth)) := by
  obtain ⟨t1, t2, t3, inner, sk, env, fk, tk, w, rfl, -, h1, h2, -, h4⟩ := packEncrypted_ok.1 h
  refine ⟨inner, (draws_inner h1).2, ?_⟩
  rcases h4 with ⟨-, rfl, rfl⟩ | ⟨svc, -, rfl⟩
  rotate_left
  · cases hw
  rcases packCrypt_ok.1 h2 with ⟨rfl, rfl, ha⟩ | ⟨f, k, rfl, rfl, ha⟩
  · exact ⟨fun _ => anoncrypt_envelope ha (fun ev he => by simp [he]), fun h => by cases h⟩
  · refine ⟨fun h => (by cases h), fun _ => ⟨rfl, ?_⟩⟩
    obtain ⟨toDoc, fromDoc, fromKids, found, fromVms, kids, vms, fromVm, secret, curve, toKeys, skey, u, rfl, -, -, -,
      -, -, -, -, -, -, a5, rfl, -, a7⟩ := authcrypt_ok.1 ha
    unfold authEncrypt at a7
    rw [runs_bind_ok] at a7
    obtain ⟨o1, u1, u2, rfl, a7, a8⟩ := a7
    have e1 := jweEncrypt_envelope a7
      (tr' := t1 ++ (evResolve (didOrUrl to).1 (some toDoc) :: evResolve (didOrUrl f).1 (some fromDoc) ::
        evFind fromKids found :: evGet k (some secret) :: (u1 ++ u2)) ++ t3) (fun ev he => by simp [he])
    rw [keysOf_fst a5] at e1
    split at a8
    · rename_i hp
      refine ⟨fun h => (by rw [hp] at h; cases h), fun _ => ⟨o1, e1, ?_⟩⟩
      have := jweEncrypt_envelope a8
        (tr' := t1 ++ (evResolve (didOrUrl to).1 (some toDoc) :: evResolve (didOrUrl f).1 (some fromDoc) ::
          evFind fromKids found :: evGet k (some secret) :: (u1 ++ u2)) ++ t3) (fun ev he => by simp [he])
      rw [keysOf_fst a5, anonEncName_eq] at this
      exact this
    · rename_i hp
      obtain ⟨rfl, a8⟩ := runs_pure.1 a8
      cases a8
      exact ⟨fun _ => e1, fun h => absurd h hp⟩

/-- C50's hypotheses are met with a hidden sender and a signature. -/
example : ∃ tr out md, Runs (packEncrypted Toy.crypto World.msg World.bob (some World.alice) (some World.alice)
    { protectSender := true, forward := false, encAlgAnon := .a256gcmEcdhEsA256kw }) tr (.ok (out, md)) ∧ md.messagingService = none := by
  have h : World.test World.env (packEncrypted Toy.crypto World.msg World.bob (some World.alice) (some World.alice)
    { protectSender := true, forward := false, encAlgAnon := .a256gcmEcdhEsA256kw }) (fun x => decide (x.2.messagingService = none)) = true := by
    decide +kernel
  obtain ⟨tr, ⟨out, md⟩, h, -, hp⟩ := World.of_test h
  exact ⟨tr, out, md, h, of_decide_eq_true hp⟩

/-- C50: a forwarded message is, outermost, an anonymous envelope with such a header. -/
theorem C50_forwarded (m : Message) (to : Str) (from_ signBy : Option Str) (opts : PackEncryptedOptions)
    (tr : List Event) (out : Str) (md : PackEncryptedMetadata)
    (h : Runs (packEncrypted C m to from_ signBy opts) tr (.ok (out, md))) (hw : md.messagingService.isSome) :
    ∃ kids fwd, Envelope C tr out kids b!"ECDH-ES+A256KW" (anonEncName opts.encAlgAnon) none (Message.toJson fwd).print ∧
      ∃ next v, IsForward fwd next v := by
  obtain ⟨t1, t2, t3, inner, sk, env, fk, tk, w, rfl, -, -, -, h3, h4⟩ := packEncrypted_ok.1 h
  rcases h4 with ⟨-, -, rfl⟩ | ⟨svc, rfl, rfl⟩
  · cases hw
  unfold wrapInForwardIfNeeded at h3
  split at h3
  · cases (runs_pure.1 h3).2
  rw [runs_bind_ok] at h3
  obtain ⟨chain, u1, u2, rfl, -, h3⟩ := h3
  split at h3
  rotate_left
  · cases (runs_pure.1 h3).2
  dsimp only at h3
  split at h3
  · cases (runs_pure.1 h3).2
  rw [runs_bind_ok] at h3
  obtain ⟨o, u3, u4, rfl, h3, h5⟩ := h3
  obtain ⟨rfl, h5⟩ := runs_pure.1 h5
  cases h5
  generalize hk : chainRoutingKeys chain = keys at *
  cases keys with
  | nil => cases (runs_ret.1 h3).2
  | cons k ks =>
    obtain ⟨mid, v1, v2, v, r, kids, -, hsub, -, h6⟩ := wrap_peel h3
    refine ⟨kids, _, anoncrypt_envelope h6 (fun ev he => ?_), ks.head?.getD to, v, ?_⟩
    · have := hsub ev (by simp [he])
      simp [this]
    · exact (C41_only _ _ _).1 (C41_inverse _ _ _ _)

/-- C50's hypotheses are met with Bob's mediator. -/
example : ∃ tr out md, Runs (packEncrypted Toy.crypto World.msg World.bob (some World.alice) none {}) tr (.ok (out, md)) ∧
    md.messagingService.isSome := by
  have h : World.test World.env (packEncrypted Toy.crypto World.msg World.bob (some World.alice) none {})
    (fun x => x.2.messagingService.isSome) = true := by decide +kernel
  obtain ⟨tr, ⟨out, md⟩, h, -, hp⟩ := World.of_test h
  exact ⟨tr, out, md, h, hp⟩

/-- C50: a signed message is a signed envelope with exactly one signature, whose header has the type of signed
messages and the algorithm of the type of the signing key. -/
theorem C50_signed (m : Message) (signBy : Str) (tr : List Event) (out kid : Str)
    (h : Runs (packSigned C m signBy) tr (.ok (out, kid))) :
    ∃ secret pair hdr, evGet kid (some secret) ∈ tr ∧ secret.asKeyPair C = .ok pair ∧
      IsJws out hdr kid m.toJson.print ∧ hdr.typ = b!"application/didcomm-signed+json" ∧
      ((pair.curve = .ed25519 ∧ hdr.alg.asStr = b!"EdDSA") ∨ (pair.curve = .p256 ∧ hdr.alg.asStr = b!"ES256") ∨
       (pair.curve = .k256 ∧ hdr.alg.asStr = b!"ES256K")) := by
  obtain ⟨doc, kids, found, secret, pair, tr', payload, alg, -, rfl, -, -, h0, h1, ha, h2⟩ := packSigned_ok.1 h
  obtain ⟨-, rfl⟩ := draws_plaintext h1
  obtain ⟨_, sig, -, -, rfl⟩ := jwsSign_ok.1 h2
  refine ⟨secret, pair, ⟨signedTyp, alg⟩, by simp, h0, ⟨sig, rfl⟩, rfl, ?_⟩
  cases hc : pair.curve <;> rw [hc] at ha <;> cases ha <;> simp [JwsAlg.asStr]

/-- C50's hypotheses are met with each of Alice's signing keys. -/
example : ∀ k ∈ World.aliceDoc.authentication, ∃ tr out kid, Runs (packSigned Toy.crypto World.msg k) tr (.ok (out, kid)) := by
  have h : ∀ k ∈ World.aliceDoc.authentication, World.test World.env (packSigned Toy.crypto World.msg k) (fun _ => true) = true := by
    decide +kernel
  intro k hk
  obtain ⟨tr, ⟨out, kid⟩, h, -⟩ := World.of_test (h k hk)
  exact ⟨tr, out, kid, h⟩

/-! ## C42: tampering -/

/-- C42: what `pack_encrypted` returns, forwarded or not, is sealed with a content key generated in this run. -/
theorem C42_sealed (m : Message) (to : Str) (from_ signBy : Option Str) (opts : PackEncryptedOptions)
    (tr : List Event) (out : Str) (md : PackEncryptedMetadata)
    (h : Runs (packEncrypted C m to from_ signBy opts) tr (.ok (out, md))) :
    ∃ j s, out = JWE.onWire j ∧ Seals C s j ∧ (∃ ce n, evRandom n ∈ tr ∧ C.genCek ce n = some s.cek) := by
  have key : ∀ kids alg enc sender content, Envelope C tr out kids alg enc sender content →
      ∃ j s, out = JWE.onWire j ∧ Seals C s j ∧ (∃ ce n, evRandom n ∈ tr ∧ C.genCek ce n = some s.cek) := by
    rintro kids alg enc sender content ⟨j, s, _, h1, -, -, h2, -, h3, -⟩
    exact ⟨j, s, h1, h2, h3⟩
  cases hw : md.messagingService with
  | some svc =>
    obtain ⟨_, _, h, -⟩ := C50_forwarded m to from_ signBy opts tr out md h (by rw [hw]; rfl)
    exact key _ _ _ _ _ h
  | none =>
    obtain ⟨inner, -, h1, h2⟩ := C50_envelope m to from_ signBy opts tr out md h hw
    cases from_ with
    | none => exact key _ _ _ _ _ (h1 rfl)
    | some f =>
      obtain ⟨-, h2, h3⟩ := h2 rfl
      cases hp : opts.protectSender with
      | false => exact key _ _ _ _ _ (h2 hp)
      | true =>
        obtain ⟨_, -, h⟩ := h3 hp
        exact key _ _ _ _ _ h

/-- C42: if the primitives are ideal for the content encryption in the envelope `j`, every envelope that reuses its wrapped
keys and that anybody's `unpack` accepts as encrypted has the same protected header, the same iv and the same
ciphertext followed by tag, and the message found in it is held by the content that was encrypted.  So changing
any of these makes unpacking fail. -/
theorem C42_tampering (j : JWE) (s : Sealing) (hs : Seals C s j) (hi : IdealFor C s)
    (t : Str) (j' : JWE) (uopts : UnpackOptions) (tr' : List Event) (m' : Message) (md' : UnpackMetadata)
    (ht : fromJson dJwe t = .ok j') (hr : ∀ r' ∈ j'.recipients, ∃ r ∈ j.recipients, r'.encryptedKey = r.encryptedKey)
    (hu : Runs (unpack C t uopts) tr' (.ok (m', md'))) (he : md'.encrypted = true) :
    j'.protected_ = j.protected_ ∧ B64.decode j'.iv = B64.decode j.iv ∧
      (∃ ct tag ct' tag', B64.decode j.ciphertext = some ct ∧ B64.decode j.tag = some tag ∧
        B64.decode j'.ciphertext = some ct' ∧ B64.decode j'.tag = some tag' ∧ ct' ++ tag' = ct ++ tag) ∧
      Holds C s.content m' := by
  obtain ⟨payload, hh, ho⟩ := outer_layer hu he
  obtain ⟨ce, kid, kw, tag, r', ek, cek, ct, iv, hr', -, e1, e2, e3, e4, e5, e6⟩ := opened ht ho
  obtain ⟨ce0, ct0, tag0, s1, s2, s3, s4, s5, s6, s7⟩ := hs
  obtain ⟨r, hrm, hre⟩ := hr r' hr'
  obtain ⟨kw0, ek0, w1, w2⟩ := s7 r hrm
  rw [← hre, e1] at w2
  cases w2
  cases hi.wrapped w1 e5
  obtain ⟨rfl, q2, q3, rfl⟩ := hi.content e6
  exact ⟨q2.trans s3, e4.trans s4.symm, ⟨ct0, tag0, ct, tag, s5, s6, e3, e2, q3.trans s2⟩, hh⟩

/-- Toy primitives with one content key, which unwraps to itself or not at all. -/
def World.oneCek : Crypto :=
  { Toy.crypto with
    genCek := fun _ _ => some [7]
    unwrap := fun _ kw ek => if Toy.dropPrefix kw ek = some [7] then some [7] else none }

/-- What is packed for Bob with them. -/
def World.packed : Str × JWE :=
  match ((packEncrypted World.oneCek World.msg World.bob none none { forward := false }).run World.env id).2 with
  | .ok x => match fromJson dJwe x.1 with
    | .ok j => (x.1, j)
    | .error _ => ([], ⟨[], [], [], [], []⟩)
  | .error _ => ([], ⟨[], [], [], [], []⟩)

/-- The content encryption in it. -/
def World.sealing : Sealing :=
  { cek := [7]
    iv := (B64.decode World.packed.2.iv).getD []
    aad := World.packed.2.protected_
    content := World.msg.toJson.print
    body := (B64.decode World.packed.2.ciphertext).getD [] ++ (B64.decode World.packed.2.tag).getD [] }

/-- Content decryption that knows only this encryption. -/
def World.ideal : Crypto :=
  { World.oneCek with
    aeadDec := fun _ _ iv aad body =>
      if iv = World.sealing.iv ∧ aad = World.sealing.aad ∧ body = World.sealing.body then some World.sealing.content else none }

theorem World.sealing_fits : World.ideal.aeadEnc .xc20p World.sealing.cek World.sealing.iv World.sealing.aad World.sealing.content =
      some ((B64.decode World.packed.2.ciphertext).getD [], (B64.decode World.packed.2.tag).getD []) ∧
    B64.decode World.packed.2.iv = some World.sealing.iv ∧
    B64.decode World.packed.2.ciphertext = some ((B64.decode World.packed.2.ciphertext).getD []) ∧
    B64.decode World.packed.2.tag = some ((B64.decode World.packed.2.tag).getD []) := by
  decide +kernel

attribute [local irreducible] World.packed

set_option maxRecDepth 100000 in
/-- C42's hypotheses are met: Bob unpacks what was packed. -/
example : ∃ (j : JWE) (s : Sealing) (t : Str) (tr : List Event) (m : Message) (md : UnpackMetadata), Seals World.ideal s j ∧ IdealFor World.ideal s ∧
    t = j.toJson.print ∧ fromJson dJwe t = .ok j ∧ j.recipients.length = 2 ∧ Runs (unpack World.ideal t {}) tr (.ok (m, md)) ∧
    md.encrypted = true ∧ m.id = World.msg.id := by
  have h0 : World.packed.1 = World.packed.2.toJson.print := by decide +kernel
  have h1 : (match fromJson dJwe World.packed.1 with | .ok j => decide (j = World.packed.2) | _ => false) = true := by decide +kernel
  have h2 : World.test World.bobEnv (unpack World.ideal World.packed.1 {}) (fun x => x.2.encrypted && decide (x.1.id = World.msg.id)) = true := by
    decide +kernel
  have h3 : World.packed.2.recipients.length = 2 := by decide +kernel
  obtain ⟨tr, ⟨m, md⟩, h, -, hp⟩ := World.of_test h2
  simp only [Bool.and_eq_true, decide_eq_true_eq] at hp
  refine ⟨World.packed.2, World.sealing, World.packed.1, tr, m, md, ?_, ⟨?_, ?_⟩, h0, ?_, h3, h, hp.1, hp.2⟩
  · refine ⟨.xc20p, (B64.decode World.packed.2.ciphertext).getD [], (B64.decode World.packed.2.tag).getD [],
      World.sealing_fits.1, rfl, rfl, World.sealing_fits.2.1, World.sealing_fits.2.2.1, World.sealing_fits.2.2.2, ?_⟩
    have hw : ∀ r ∈ World.packed.2.recipients, ((B64.decode r.encryptedKey).bind (Toy.dropSuffix [7])).isSome = true := by decide +kernel
    intro r hr
    have := hw r hr
    cases hd : B64.decode r.encryptedKey with
    | none => rw [hd] at this; cases this
    | some ek =>
      rw [hd] at this
      have e : ek = ek.take (ek.length - 1) ++ [7] := by
        simp only [Option.bind_some, Toy.dropSuffix, List.length_singleton] at this
        split at this
        · rename_i hs
          rw [← hs, List.take_append_drop]
        · cases this
      exact ⟨ek.take (ek.length - 1), ek, congrArg some e.symm, rfl⟩
  · intro kw ek ce kw' c h1 h2
    have h2 : (if Toy.dropPrefix kw' ek = some [7] then some [7] else none) = some c := h2
    split at h2
    · cases h2; rfl
    · cases h2
  · intro ce iv aad body p h
    have h : (if iv = World.sealing.iv ∧ aad = World.sealing.aad ∧ body = World.sealing.body then some World.sealing.content else none) = some p := h
    split at h
    · rename_i hh
      cases h
      exact ⟨hh.1, hh.2.1, hh.2.2, rfl⟩
    · cases h
  · split at h1
    · rename_i j hj
      rw [hj, of_decide_eq_true h1]
    · cases h1

theorem parse_swap {j j' : JWE} (h : j'.protected_ = j.protected_) {p : ParsedJWE} (hp : j.parse C = .ok p) :
    p.jwe = j ∧ j'.parse C = .ok ⟨j', p.protected_, p.apu, p.apv⟩ := by
  unfold JWE.parse at hp ⊢
  rw [h]
  simp only [res_bind_ok] at hp ⊢
  obtain ⟨b, h1, q, h2, apv, h3, h4⟩ := hp
  cases hq : q.apu with
  | none =>
    rw [hq] at h4
    cases h4
    exact ⟨rfl, b, h1, q, h2, apv, h3, by rw [hq]; rfl⟩
  | some a =>
    rw [hq] at h4
    simp only [res_bind_ok] at h4
    obtain ⟨y, h4, h5⟩ := h4
    cases h5
    exact ⟨rfl, b, h1, q, h2, apv, h3, by rw [hq]; simp only [res_bind_ok]; exact ⟨y, h4, rfl⟩⟩

/-- C42: the boundary between ciphertext and tag is not protected in anonymous encryption: moving it, or encoding
either in another way, changes nothing for the receiver. -/
theorem C42_boundary (hd : NeverLonger C) (hf : PrintsFloats C) (t t' : Str) (j j' : JWE) (hdr : Bytes) (h : JweHeader)
    (ht : fromJson dJwe t = .ok j) (ht' : fromJson dJwe t' = .ok j')
    (hb : B64.decode j.protected_ = some hdr) (hh : fromJson (dJweHeader C.f64) hdr = .ok h) (ha : h.alg = .ecdhEs)
    (e1 : j'.protected_ = j.protected_) (e2 : j'.recipients = j.recipients) (e3 : j'.iv = j.iv)
    (ct tag ct' tag' : Bytes) (e4 : B64.decode j.ciphertext = some ct) (e5 : B64.decode j.tag = some tag)
    (e6 : B64.decode j'.ciphertext = some ct') (e7 : B64.decode j'.tag = some tag') (e8 : ct' ++ tag' = ct ++ tag)
    (opts : UnpackOptions) (tr : List Event) (x : Message × UnpackMetadata)
    (hu : Runs (unpack C t opts) tr (.ok x)) : Runs (unpack C t' opts) tr (.ok x) := by
  obtain ⟨n, h1, h2⟩ : ∃ n, t.length + 1 ≤ n + 1 ∧ t'.length + 1 ≤ n + 1 := ⟨max t.length t'.length, by omega, by omega⟩
  rw [← C25_no_limit hd hf _ _ _ h1, unpackWithin_eq] at hu
  rw [← C25_no_limit hd hf _ _ _ h2, unpackWithin_eq]
  rw [runs_bind_ok] at hu ⊢
  obtain ⟨⟨u, md⟩, t1, t2, rfl, hu, h3⟩ := hu
  unfold unwrapLoop at hu ⊢
  simp only [runs_bind_ok] at hu ⊢
  obtain ⟨⟨anon, md1⟩, u1, u2, rfl, han, hu⟩ := hu
  have key : anon ≠ none ∧ Runs (tryUnpackAnoncrypt C t' opts {}) u1 (.ok (anon, md1)) := by
    rcases tryUnpackAnoncrypt_ok.1 han with ⟨-, -, -, hx | ⟨jwe, p, hx, hp, halg⟩⟩ |
      ⟨jwe, p, found, tr', alg, payload, rfl, hx, hp, halg, hv, hc, rfl, hfd, hl, hut, rfl⟩
    · rw [show jweFromStr t = .ok j from ht] at hx; cases hx
    · rw [show jweFromStr t = .ok j from ht] at hx
      cases hx
      exfalso
      unfold JWE.parse at hp
      simp only [res_bind_ok, okOr_eq_ok] at hp
      obtain ⟨b, q1, q, q2, apv, q3, q4⟩ := hp
      rw [hb] at q1
      cases q1
      rw [hh] at q2
      cases q2
      cases hq : h.apu with
      | none =>
        rw [hq] at q4
        cases q4
        exact halg ha
      | some a =>
        rw [hq] at q4
        simp only [res_bind_ok] at q4
        obtain ⟨y, -, q5⟩ := q4
        cases q5
        exact halg ha
    · rw [show jweFromStr t = .ok j from ht] at hx
      cases hx
      obtain ⟨rfl, hp'⟩ := parse_swap e1 hp
      refine ⟨by simp, tryUnpackAnoncrypt_ok.2 (.inr ⟨j', _, found, tr', alg, payload, rfl, ht', hp', halg, ?_, ?_, ?_, hfd, ?_, hut, ?_⟩)⟩
      · unfold ParsedJWE.verifyDidcomm at hv ⊢
        dsimp only
        rw [e2]
        revert hv
        (repeat' split) <;> simp [fail]
      · dsimp only; rw [e2]; exact hc
      · dsimp only; rw [e2]
      · have : anonDecryptWith C ⟨j', p.protected_, p.apu, p.apv⟩ = anonDecryptWith C p := by
          funext kid key
          unfold anonDecryptWith ParsedJWE.decrypt
          simp only [e1, e2, e3, e4, e5, e6, e7, e8, okOr, deriveKey, bind, Except.bind]
        rw [this]
        exact hl
      · dsimp only; rw [e2]
  cases anon with
  | none => exact absurd rfl key.1
  | some p => exact ⟨(u, md), u1 ++ u2, t2, rfl, ⟨_, u1, u2, rfl, key.2, hu⟩, h3⟩

/-- The same envelope with the boundary moved by one byte. -/
def World.moved (j : JWE) : JWE :=
  match B64.decode j.ciphertext, B64.decode j.tag with
  | some ct, some (b :: tag) => { j with ciphertext := B64.encode (ct ++ [b]), tag := B64.encode tag }
  | _, _ => j

set_option maxRecDepth 100000 in
/-- C42: such a change is accepted by Bob. -/
example : ∃ (t t' : Str) (tr : List Event) (x : Message × UnpackMetadata), t ≠ t' ∧
    Runs (unpack Toy.crypto t {}) tr (.ok x) ∧ Runs (unpack Toy.crypto t' {}) tr (.ok x) := by
  have h : World.test World.env (packEncrypted Toy.crypto World.msg World.bob none none { forward := false }) (fun x =>
      match World.headerOf x.1 with
      | some (j, _, hdr) =>
        (match World.headerOf (World.moved j).toJson.print with
          | some (j', _, _) => decide (j' = World.moved j)
          | none => false) && decide (hdr.alg = .ecdhEs) &&
          World.test World.bobEnv (unpack Toy.crypto x.1 {}) (fun _ => true) && decide ((World.moved j).toJson.print ≠ x.1) &&
        (match B64.decode j.ciphertext, B64.decode j.tag with
          | some ct, some (b :: tag) => true
          | _, _ => false)
      | none => false) = true := by decide +kernel
  obtain ⟨_, ⟨t, _⟩, -, -, h⟩ := World.of_test h
  dsimp only at h
  split at h
  rotate_left
  · cases h
  rename_i j b hdr hj
  simp only [Bool.and_eq_true, decide_eq_true_eq] at h
  obtain ⟨⟨⟨⟨h1, h2⟩, h3⟩, h4⟩, h5⟩ := h
  split at h1
  rotate_left
  · cases h1
  rename_i j' b' hdr' hj'
  have h1 := of_decide_eq_true h1
  subst h1
  obtain ⟨e1, e2, e3⟩ := World.headerOf_some hj
  obtain ⟨e1', -, -⟩ := World.headerOf_some hj'
  split at h5
  rotate_left
  · cases h5
  rename_i ct c tag hct htag
  obtain ⟨tr, x, hu, -, -⟩ := World.of_test h3
  have hm : World.moved j = { j with ciphertext := B64.encode (ct ++ [c]), tag := B64.encode tag } := by
    unfold World.moved; rw [hct, htag]
  rw [hm] at e1' h4
  exact ⟨t, _, tr, x, Ne.symm h4, hu, C42_boundary World.neverLonger World.printsFloats t _ j _ b hdr e1 e1' e2 e3 h2 rfl rfl rfl
    ct (c :: tag) (ct ++ [c]) tag hct htag (B64.decode_encode _) (B64.decode_encode _) (by simp) {} tr x hu⟩

end DIDComm
