import Verif.Proofs.Deniable
import Verif.Proofs.WorldParties
import Verif.Props.Fresh
import Verif.Spec.OutcomeUnpack

/-!
# C96: encrypted messages can be denied by their sender

An envelope with a named sender convinces its receiver, but nobody else: the receiver could have made it, from the receiver's own private
keys and the sender's public key (`forged`, Spec/Deniable.lean).
-/

set_option autoImplicit false

namespace DIDComm

variable {C : Crypto} {pairs : Curve → C.Key → C.Key → Prop}

/-- C96: whatever plaintext message the receiver puts in an envelope of their own making, `unpack` reports it as encrypted and authenticated
by the named sender, whether or not anybody has the sender's private key. -/
theorem C96_forged (law : C.Lawful pairs) (E : Env) (m : Message) (hw : m.WF C.f64) (ht : m.typ = plaintextTyp) (hn : NotEnvelope m)
    (hp : m.fromPrior = none) (fromKid : Str) (c : Curve) (hc : CanAgree c) (sender : C.Key) (hf : Plain fromKid)
    (hs : TheyHave C E DIDDoc.keyAgreement fromKid c sender) (did : Str) (own : List (Str × C.Key))
    (hk : ∀ p ∈ own, WireKid did p.1) (hown : OwnKeys C E c own) (found : List Str)
    (hfound : E.findSecrets (own.map Prod.fst) = .ok found) (hne : found ≠ []) (hsub : ∀ k ∈ found, k ∈ own.map Prod.fst)
    (r1 r2 r3 : Nat) (out : Str) (h : forged C c m.toJson.print fromKid sender own r1 r2 r3 = some out) (opts : UnpackOptions) :
    Returns E (unpack C out opts)
      (m, { encrypted := true, authenticated := true, encryptedFromKid := some fromKid, encryptedToKids := some (own.map Prod.fst),
            encAlgAuth := some .a256cbcHs512Ecdh1puA256kw }) := by
  obtain ⟨hfk, doc, hd, hl, vm, hvm, -, hkey⟩ := hs
  have hk' : ∀ k ∈ own.map Prod.fst, WireKid did k := by
    intro k hk1
    obtain ⟨p, hp, rfl⟩ := List.mem_map.1 hk1
    exact hk p hp
  obtain ⟨p, g1, g2, g3, -, g5⟩ := forged_opens law hc hk' hown hfound hne hsub hfk hf hd hl hvm hkey (Message.print_valid hw) h
  have hrun : Runs (packPlaintext C m) [] (.ok m.toJson.print) := by
    refine packPlaintext_ok.2 ⟨none, ?_, rfl, rfl⟩
    rw [hp]; exact runs_pure.2 ⟨rfl, rfl⟩
  obtain ⟨fp, k, q1, q2, q3, q4, q5⟩ := packPlain_gives (E := E) (E' := E) (fun _ _ h => h) hw ht hn (answers_nil _) hrun
  have hnone : fp = none ∧ k = none := by
    rcases q1 with ⟨-, rfl, rfl⟩ | hx
    · exact ⟨rfl, rfl⟩
    · rw [hp] at hx; simp at hx
  obtain ⟨rfl, rfl⟩ := hnone
  refine Gives.returns ?_
  rw [unpack_skip_anon (tryAnon_other g1 g2 (by rw [g3]; decide)), afterAnon_eq]
  refine Gives.bind (g5 opts {}) ?_
  exact q2 _ (UnpackMetadata.Fresh.auth ⟨rfl, rfl, rfl, rfl, rfl, rfl⟩ _ _ _)

theorem unwrapped_draws {opts : PackEncryptedOptions} {to msg : Str} {tr : List Event}
    (h : Runs (wrapInForwardIfNeeded C msg to opts) tr (.ok none)) : draws tr = [] := by
  unfold wrapInForwardIfNeeded at h
  split at h
  · obtain ⟨rfl, -⟩ := runs_pure.1 h; rfl
  rw [runs_bind_ok] at h
  obtain ⟨chain, u1, u2, rfl, hc, h⟩ := h
  rw [draws_append, servicesChain_draws hc, List.nil_append]
  split at h
  rotate_left
  · obtain ⟨rfl, -⟩ := runs_pure.1 h; rfl
  dsimp only at h
  split at h
  · obtain ⟨rfl, -⟩ := runs_pure.1 h; rfl
  rw [runs_bind_ok] at h
  obtain ⟨o, u3, u4, rfl, -, h5⟩ := h
  cases (runs_pure.1 h5).2

/-- C96: every envelope the sender makes by `pack_encrypted`, without signing, could have been made by a receiver who has the private keys
of the recipient: the same text comes from the same random draws, with the sender's public key in the place of their private key. -/
theorem C96_same (law : C.Lawful pairs) (E E' : Env) (hh : HonestSecrets E) (m : Message) (to from_ : Str) (hfit : KeysFit C pairs E (didOf from_))
    (opts : PackEncryptedOptions) (hps : opts.protectSender = false) (tr : List Event) (out : Str) (md : PackEncryptedMetadata)
    (h : Runs (packEncrypted C m to (some from_) none opts) tr (.ok (out, md))) (ha : Answers E tr) (hfw : md.messagingService = none)
    (hall : ∀ doc, E.resolve (didOf to) = .ok (some doc) → ∀ k ∈ md.toKids, HoldsSecret C pairs E' doc k) :
    ∃ fromKid c sender own r1 r2 r3 doc, md.fromKid = some fromKid ∧ E.resolve (didOf from_) = .ok (some doc) ∧
      KeyFrom C doc doc.keyAgreement fromKid c sender ∧ own.map Prod.fst = md.toKids ∧ OwnKeys C E' c own ∧
      draws tr = [r1, r2, r3] ∧ forged C c m.toJson.print fromKid sender own r1 r2 r3 = some out := by
  obtain ⟨t1, t2, t3, inner, sk, env, fk, tk, w, rfl, -, h1, h2, h3, h4⟩ := packEncrypted_ok.1 h
  rcases h4 with ⟨rfl, rfl, rfl⟩ | ⟨svc, rfl, rfl⟩
  rotate_left
  · cases hfw
  have hd3 := unwrapped_draws h3
  rcases packInner_ok.1 h1 with ⟨-, rfl, q1⟩ | ⟨s, k, hc, -⟩
  rotate_left
  · cases hc
  rcases packCrypt_ok.1 h2 with ⟨hc, -⟩ | ⟨f, k, hc, rfl, q2⟩
  · cases hc
  cases hc
  simp only [answers_append] at ha
  have q3 : inner = m.toJson.print := by
    obtain ⟨-, -, -, q3⟩ := packPlaintext_ok.1 q1
    exact q3
  subst q3
  obtain ⟨c, sender, own, r1, r2, r3, doc, env', e1, e2, e3, e4, e5, e6⟩ := authcrypt_forged law hh hfit hall ha.1.2 q2
  rw [hps] at e6
  obtain ⟨e6, rfl⟩ := e6
  refine ⟨k, c, sender, own, r1, r2, r3, doc, rfl, e1, e2, e3, e4, ?_, e5⟩
  rw [draws_append, draws_append, (draws_plaintext q1).1, hd3, e6]; rfl

/-- C96: the same with `protect_sender`: the text is an anonymous envelope, for which public keys suffice, around one the receiver could
have made. -/
theorem C96_protected (law : C.Lawful pairs) (E E' : Env) (hh : HonestSecrets E) (m : Message) (to from_ : Str)
    (hfit : KeysFit C pairs E (didOf from_)) (opts : PackEncryptedOptions) (hps : opts.protectSender = true) (tr : List Event) (out : Str)
    (md : PackEncryptedMetadata) (h : Runs (packEncrypted C m to (some from_) none opts) tr (.ok (out, md))) (ha : Answers E tr)
    (hfw : md.messagingService = none)
    (hall : ∀ doc, E.resolve (didOf to) = .ok (some doc) → ∀ k ∈ md.toKids, HoldsSecret C pairs E' doc k) :
    ∃ fromKid c sender own r1 r2 r3 r4 r5 r6 doc toDoc env pubs, md.fromKid = some fromKid ∧ E.resolve (didOf from_) = .ok (some doc) ∧
      KeyFrom C doc doc.keyAgreement fromKid c sender ∧ own.map Prod.fst = md.toKids ∧ OwnKeys C E' c own ∧
      draws tr = [r1, r2, r3, r4, r5, r6] ∧ forged C c m.toJson.print fromKid sender own r1 r2 r3 = some env ∧
      E.resolve (didOf to) = .ok (some toDoc) ∧ pubs.map Prod.fst = md.toKids ∧
      (∀ p ∈ pubs, KeyFrom C toDoc toDoc.keyAgreement p.1 c p.2) ∧
      Runs (jweEncrypt C opts.encAlgAnon.ce .ecdhEs c env .ecdhEs opts.encAlgAnon.enc none pubs)
        [evRandom r4, evRandom r5, evRandom r6] (.ok out) := by
  obtain ⟨t1, t2, t3, inner, sk, env, fk, tk, w, rfl, -, h1, h2, h3, h4⟩ := packEncrypted_ok.1 h
  rcases h4 with ⟨rfl, rfl, rfl⟩ | ⟨svc, rfl, rfl⟩
  rotate_left
  · cases hfw
  have hd3 := unwrapped_draws h3
  rcases packInner_ok.1 h1 with ⟨-, rfl, q1⟩ | ⟨s, k, hc, -⟩
  rotate_left
  · cases hc
  rcases packCrypt_ok.1 h2 with ⟨hc, -⟩ | ⟨f, k, hc, rfl, q2⟩
  · cases hc
  cases hc
  simp only [answers_append] at ha
  have q3 : inner = m.toJson.print := by
    obtain ⟨-, -, -, q3⟩ := packPlaintext_ok.1 q1
    exact q3
  subst q3
  obtain ⟨c, sender, own, r1, r2, r3, doc, env', e1, e2, e3, e4, e5, e6⟩ := authcrypt_forged law hh hfit hall ha.1.2 q2
  rw [hps, if_pos rfl] at e6
  obtain ⟨toDoc, pubs, r4, r5, r6, e7, e8, e9, e10, e11⟩ := e6
  refine ⟨k, c, sender, own, r1, r2, r3, r4, r5, r6, doc, toDoc, env', pubs, rfl, e1, e2, e3, e4, ?_, e5, e7, e8, e9, e11⟩
  rw [draws_append, draws_append, (draws_plaintext q1).1, hd3, e10]; rfl

/-- A note Alice never wrote. -/
def World.neverWrote : Message := { id := b!"9", type_ := b!"t", body := .obj [], from_ := some World.alice, to := some [World.bob] }

theorem World.neverWrote_wf : World.neverWrote.WF Toy.crypto.f64 where
  id := by decide
  typ := by decide
  type_ := by decide
  body := by
    simp only [neverWrote, Value.WF, Value.WFM, SortedKeys]
    exact ⟨List.Pairwise.nil, trivial⟩
  bodyDepth := by decide
  from_ := by intro s h; cases h; decide
  to := by intro l h; cases h; unfold AllUtf8; decide
  thid := by intro s h; cases h
  pthid := by intro s h; cases h
  fromPrior := by intro s h; cases h
  extra := by simp only [neverWrote, Value.WF, Value.WFM]
  extraDepth := by decide
  extraNodup := by decide
  extraReserved := by decide
  attachments := by intro l h; cases h

set_option maxRecDepth 100000 in
/-- Bob, without any secret of Alice's, makes an envelope of Alice's around a note Alice never wrote; unpacking it returns the note, as
encrypted and authenticated by Alice. -/
example : World.bobEnv.getSecret b!"did:example:alice#p1" = .ok none ∧ ∃ out,
    forged Toy.crypto .p256 World.neverWrote.toJson.print b!"did:example:alice#p1" [5] [(b!"did:example:bob#p1", [11])] 7 8 9 = some out ∧
    Returns World.bobEnv (unpack Toy.crypto out ⟨true, true⟩)
      (World.neverWrote, { encrypted := true, authenticated := true, encryptedFromKid := some b!"did:example:alice#p1",
                           encryptedToKids := some [b!"did:example:bob#p1"], encAlgAuth := some .a256cbcHs512Ecdh1puA256kw }) := by
  refine ⟨rfl, _, rfl, ?_⟩
  refine C96_forged (pairs := Toy.pairs) (own := [(b!"did:example:bob#p1", [11])]) (found := [b!"did:example:bob#p1"]) Toy.lawful _ _
    World.neverWrote_wf rfl ?_ rfl _ .p256 ?_ [5] ?_ ?_ World.bob ?_ ?_ rfl ?_ ?_ 7 8 9 _ rfl ⟨true, true⟩
  · constructor <;> decide
  · exact .inr rfl
  · exact (World.wire_alice World.aliceDoc rfl _ (by decide)).2.2
  · exact ⟨by decide, World.aliceDoc, rfl, by decide, _, rfl, rfl, rfl⟩
  · intro p hp
    rw [List.mem_singleton] at hp
    subst hp
    exact World.wire_bob World.bobDoc rfl _ (by decide)
  · intro p hp
    rw [List.mem_singleton] at hp
    subst hp
    exact ⟨_, rfl, rfl⟩
  · decide
  · intro k hk; exact hk

/-- Bob has the private keys to what Alice encrypts, with and without `protect_sender`. -/
example (ps : Bool) : ∃ tr out md, HonestSecrets World.aliceEnv ∧ Toy.crypto.Lawful Toy.pairs ∧
    KeysFit Toy.crypto Toy.pairs World.aliceEnv (didOf World.alice) ∧ Answers World.aliceEnv tr ∧
    Runs (packEncrypted Toy.crypto World.msg World.bob (some World.alice) none { forward := false, protectSender := ps }) tr
      (.ok (out, md)) ∧ md.messagingService = none ∧ md.toKids ≠ [] ∧
    ∀ doc, World.aliceEnv.resolve (didOf World.bob) = .ok (some doc) →
      ∀ k ∈ md.toKids, HoldsSecret Toy.crypto Toy.pairs World.bobEnv doc k := by
  obtain ⟨tr, ⟨out, md⟩, h, ha, hk⟩ := World.of_test (E := World.aliceEnv)
    (p := packEncrypted Toy.crypto World.msg World.bob (some World.alice) none { forward := false, protectSender := ps })
    (P := fun x => decide (x.2.messagingService = none ∧ x.2.toKids = [b!"did:example:bob#p1"])) (by cases ps <;> decide +kernel)
  obtain ⟨hk1, hk2⟩ := of_decide_eq_true hk
  simp only at hk1 hk2
  refine ⟨tr, out, md, World.honest _ _, Toy.lawful, World.fit_alice, ha, h, hk1, by rw [hk2]; simp, fun doc hd k hk' => ?_⟩
  rw [hk2, List.mem_singleton] at hk'
  obtain ⟨found, f1, f2, f3⟩ := World.bob_opens (kids := [b!"did:example:bob#p1"]) (by decide) (by decide) doc hd
  cases found with
  | nil => exact absurd rfl f2
  | cons a r =>
    have := f3 a (by simp)
    rw [List.mem_singleton] at this
    rw [hk', ← this.1]
    exact this.2

end DIDComm
