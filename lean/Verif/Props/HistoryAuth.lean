import Verif.Spec.HistoryAuth
import Verif.Spec.World
import Verif.Proofs.HistoryAuth

/-! # C116: in every history of calls, what is accepted from a named sender was encrypted by that sender before -/

set_option autoImplicit false

namespace DIDComm

variable {C : Crypto} {pairs : Curve → C.Key → C.Key → Prop} {honest : Curve → C.Key → C.Key → Prop}

/-- C116: in every history in which nobody else wraps content keys between the reported sender and this receiver, a message that a call of
`unpack` returns with this sender was encrypted by an earlier call of `pack_encrypted`, under the reported name of the sender's key, with a
secret that fits the key that the sender's document has under that name.  Other receivers of the same envelope, who know its content key, cannot
change that. -/
theorem C116_sent (hsep : Separates C pairs) (htag : TagCommits C) (H : List LibStep) (hH : History C H) (hu : Unshared C honest H) (i : Nat)
    (E : Env) (tr : List Event) (t : Str) (opts : UnpackOptions) (m : Message) (md : UnpackMetadata) (k : Str)
    (hi : H[i]? = some ⟨E, tr, .unpack t opts m md⟩) (hk : md.encryptedFromKid = some k)
    (hh : ∀ doc c spub kid secret rpriv, E.resolve (didOf k) = .ok (some doc) → KeyFrom C doc doc.keyAgreement k c spub →
      E.getSecret kid = .ok (some secret) → secret.asKeyPair C = .ok ⟨c, rpriv⟩ → honest c spub rpriv)
    (hwf : ∀ s ∈ H, ∀ m' k', s.call.SendsAs m' k' → m'.WF C.f64 ∧ NotEnvelope m') :
    ∃ j s doc c spub secret spriv, j < i ∧ H[j]? = some s ∧ s.call.SendsAs m k ∧ E.resolve (didOf k) = .ok (some doc) ∧
      KeyFrom C doc doc.keyAgreement k c spub ∧ evGet k (some secret) ∈ s.tr ∧ secret.asKeyPair C = .ok ⟨c, spriv⟩ ∧ pairs c spriv spub := by
  obtain ⟨h, hE⟩ := hH _ (List.mem_of_getElem? hi)
  obtain ⟨doc, c, spub, kid, secret, rpriv, epk, apv, tag, kw, cek, iv, aad, ct, payload, h1, h2, h3, h4, h5, h6, h7, h8⟩ :=
    relied_sender hsep h hE hk
  obtain ⟨j, s, hj, hs, hw⟩ := hu i _ c epk spub rpriv k apv tag kw cek hi (hh doc c spub kid secret rpriv h1 h2 h3 h4) h5 h6
  obtain ⟨m', inner, iv', aad', ct', secret', spriv, g1, g2, g3, g4, g5, g6⟩ := wrapped_by hsep h5 hw
  have e := htag _ _ _ _ _ _ _ _ _ _ g3 h7
  subst e
  obtain ⟨w1, w2⟩ := hwf s (List.mem_of_getElem? hs) m' k g1
  have e := h8 m' w1 w2 g2
  subst e
  exact ⟨j, s, doc, c, spub, secret', spriv, hj, hs, g1, h1, h2, g4, g5, g6⟩

/-- C116: under the keys that receivers derive for a sender nothing is wrapped by any call but the encryption of a message as this sender, with
the secret half of the sender's key.  In particular, unpacking, forwarding, signing and anonymous packing never do. -/
theorem C116_wraps_only (hsep : Separates C pairs) (s : LibStep) (c : Curve) (epk spub rpriv : C.Key) (alg k apv tag kw cek : Bytes)
    (hd : C.ecdh1pu c epk spub rpriv alg k apv tag true = some kw) (h : s.Wrapped C kw cek) :
    ∃ m secret spriv, s.call.SendsAs m k ∧ evGet k (some secret) ∈ s.tr ∧ secret.asKeyPair C = .ok ⟨c, spriv⟩ ∧ pairs c spriv spub := by
  obtain ⟨m, _, _, _, _, secret, spriv, g1, -, -, g4, g5, g6⟩ := wrapped_by hsep hd h
  exact ⟨m, secret, spriv, g1, g4, g5, g6⟩

/-- C116: a message that `unpack` returns with a sender rests on a content key wrapped under a key that was derived for the key that the
sender's document has under the reported name. -/
theorem C116_relies (hsep : Separates C pairs) (E : Env) (tr : List Event) (t : Str) (opts : UnpackOptions) (m : Message)
    (md : UnpackMetadata) (k : Str) (h : Runs (unpack C t opts) tr (.ok (m, md))) (hE : Answers E tr) (hk : md.encryptedFromKid = some k) :
    ∃ doc c spub kid secret rpriv epk apv tag kw cek, E.resolve (didOf k) = .ok (some doc) ∧ KeyFrom C doc doc.keyAgreement k c spub ∧
      E.getSecret kid = .ok (some secret) ∧ secret.asKeyPair C = .ok ⟨c, rpriv⟩ ∧
      C.ecdh1pu c epk spub rpriv b!"ECDH-1PU+A256KW" k apv tag true = some kw ∧
      LibStep.Unwrapped C ⟨E, tr, .unpack t opts m md⟩ kw cek := by
  obtain ⟨doc, c, spub, kid, secret, rpriv, epk, apv, tag, kw, cek, iv, aad, ct, payload, h1, h2, h3, h4, h5, h6, -⟩ := relied_sender hsep h hE hk
  exact ⟨doc, c, spub, kid, secret, rpriv, epk, apv, tag, kw, cek, h1, h2, h3, h4, h5, h6⟩

/-! ## The hypotheses are met -/

/-- The one derived key. -/
def World.oneKey (c : Curve) (e s r apu tag : Bytes) : Option Bytes :=
  if c = .p256 ∧ e = [9] ∧ s = [5] ∧ r = [11] ∧ apu = b!"did:example:alice#p1" ∧ tag = [7] then some [6] else none

/-- Ideal toy primitives: Alice can send to Bob, one message, in one way. -/
@[reducible] def World.oneEnvelope : Crypto :=
  Toy.crypto.replaced { Toy.crypto.primitives with
    genKey := fun _ _ => some [9]
    genCek := fun _ _ => some [8]
    ecdh1pu := fun c e s r _ apu _ tag _ => World.oneKey c e s r apu tag
    wrap := fun kw cek => if kw = [6] ∧ cek = [8] then some [6] else none
    unwrap := fun _ kw ek => if kw = [6] ∧ ek = [6] then some [8] else none
    aeadEnc := fun _ _ _ _ pt => if pt = World.msg.toJson.print then some (pt, [7]) else none
    aeadDec := fun _ _ _ _ d => if d = World.msg.toJson.print ++ [7] then some World.msg.toJson.print else none }

theorem World.oneEnvelope_separates : Separates World.oneEnvelope Toy.pairs := by
  constructor
  · intro c e r alg apu apv receive c' e' s' r' alg' apu' apv' tag' receive' kw kw' h h' he
    subst he
    simp only [World.oneKey, Option.ite_none_right_eq_some, Option.some.injEq] at h'
    obtain ⟨-, rfl⟩ := h'
    cases c <;> cases h
  · intro c e s r alg apu apv tag c' e' s' r' alg' apu' apv' tag' kw h h'
    simp only [World.oneKey, Option.ite_none_right_eq_some] at h h'
    obtain ⟨⟨rfl, -, rfl, rfl, rfl, rfl⟩, -⟩ := h
    obtain ⟨⟨rfl, -, rfl, rfl, rfl, rfl⟩, -⟩ := h'
    exact ⟨rfl, rfl, rfl, rfl, rfl⟩

theorem World.oneEnvelope_commits : TagCommits World.oneEnvelope := by
  intro cek iv aad content ct tag iv' aad' ct' content' h h'
  simp only [Option.ite_none_right_eq_some, Option.some.injEq] at h h'
  rw [h.1, h'.2]

/-- Under other keys nothing can be unwrapped anyway. -/
theorem World.oneEnvelope_other {kw cek : Bytes} (h : ¬ (kw = [6] ∧ cek = [8])) :
    (World.oneEnvelope.notUnwrapping kw cek).unwrap = World.oneEnvelope.unwrap := by
  funext ce kw' ek
  refine if_neg ?_
  rintro ⟨rfl, hc⟩
  simp only [Option.ite_none_right_eq_some, Option.some.injEq] at hc
  exact h ⟨hc.1.1, hc.2.symm⟩

/-- Alice sends a message to Bob, who accepts it: nothing is shared with others, and all hypotheses of `C116_sent` are met. -/
example : ∃ H t1 t2 out pmd m md, H = [⟨World.env, t1, .packEncrypted World.msg World.bob (some World.alice) none { forward := false } out pmd⟩,
      ⟨World.env, t2, .unpack out {} m md⟩] ∧
    Separates World.oneEnvelope Toy.pairs ∧ TagCommits World.oneEnvelope ∧ History World.oneEnvelope H ∧
    Unshared World.oneEnvelope (fun _ _ _ => True) H ∧ md.encryptedFromKid = some b!"did:example:alice#p1" ∧
    ∀ s ∈ H, ∀ m' k', s.call.SendsAs m' k' → m'.WF World.oneEnvelope.f64 ∧ NotEnvelope m' := by
  have h : World.test World.env (do
      let (out, pmd) ← packEncrypted World.oneEnvelope World.msg World.bob (some World.alice) none { forward := false }
      let (m, md) ← unpack World.oneEnvelope out {}
      pure (pmd.toKids, md.encryptedFromKid)) (fun x => decide (x.1 ≠ [] ∧ x.2 = some b!"did:example:alice#p1")) = true := by
    decide +kernel
  obtain ⟨tr, x, h, ha, hk⟩ := World.of_test h
  obtain ⟨hk1, hk2⟩ := of_decide_eq_true hk
  simp only [runs_bind_ok] at h
  obtain ⟨⟨out, pmd⟩, t1, t', rfl, h1, ⟨m, md⟩, t2, t3, rfl, h2, h3⟩ := h
  cases (runs_ret.1 h3).2
  have a1 : Answers World.env t1 := fun ev he => ha ev (by simp [he])
  have a2 : Answers World.env t2 := fun ev he => ha ev (by simp [he])
  refine ⟨_, t1, t2, out, pmd, m, md, rfl, World.oneEnvelope_separates, World.oneEnvelope_commits, ?_, ?_, hk2, ?_⟩
  · intro s hs
    simp only [List.mem_cons, List.not_mem_nil, or_false] at hs
    rcases hs with rfl | rfl
    · exact ⟨h1, a1⟩
    · exact ⟨h2, a2⟩
  · rintro i x c epk spub rpriv apu apv tag kw cek hi - - ⟨h, hn⟩
    match i, hi with
    | 0, hi =>
      cases hi
      refine absurd ?_ hn
      show Runs (packEncrypted (World.oneEnvelope.replaced _) World.msg World.bob (some World.alice) none { forward := false }) _ _
      rw [encrypted_replaced (C := World.oneEnvelope) ⟨rfl, rfl, rfl, rfl, fun _ _ _ _ _ _ => rfl, rfl, rfl⟩ (fun _ => rfl)
        (fun _ _ _ _ _ _ _ _ _ => rfl) (fun _ _ _ _ _ _ => rfl) (fun _ => rfl)]
      exact h1
    | 1, hi =>
      cases hi
      by_cases hc : kw = [6] ∧ cek = [8]
      · obtain ⟨rfl, rfl⟩ := hc
        refine ⟨0, _, by omega, rfl, h1, fun h' => ?_⟩
        have h' : Runs (packEncrypted (World.oneEnvelope.replaced (World.oneEnvelope.notWrapping [6] [8])) World.msg World.bob (some World.alice) none
          { forward := false }) t1 (.ok (out, pmd)) := h'
        have never : ∀ kw' cek', (World.oneEnvelope.notWrapping [6] [8]).wrap kw' cek' = none := by
          intro kw' cek'
          by_cases hc : kw' = [6] ∧ cek' = [8]
          · exact if_pos hc
          · exact (if_neg hc).trans (if_neg hc)
        obtain ⟨u1, u2, u3, inner, sk, env, fk, tk, w, -, -, -, g2, -, g4⟩ := packEncrypted_ok.1 h'
        have htk : pmd.toKids = tk := by rcases g4 with ⟨-, -, rfl⟩ | ⟨_, -, rfl⟩ <;> rfl
        rcases packCrypt_ok.1 g2 with ⟨g, -⟩ | ⟨f, k', -, -, g⟩
        · cases g
        obtain ⟨_, _, _, _, _, _, vms, _, _, curve, toKeys, senderKey, tr', -, -, -, -, -, -, -, -, -, -, b1, b2, -, b3⟩ := authcrypt_ok.1 g
        unfold authEncrypt at b3
        rw [runs_bind_ok] at b3
        obtain ⟨auth, _, _, -, b3, -⟩ := b3
        obtain ⟨_, _, _, cek', epk', _, ct, tag', rs, -, -, -, -, -, c5, -⟩ := jweEncrypt_ok.1 b3
        have hne : toKeys ≠ [] := by
          rintro rfl
          have := keysOf_fst b1
          rw [← b2, ← htk] at this
          exact hk1 this.symm
        cases toKeys with
        | nil => exact hne rfl
        | cons x r =>
          obtain ⟨kid, key⟩ := x
          simp only [wrapAll, res_bind_ok, okOr_eq_ok] at c5
          obtain ⟨kw', -, ek, c6, -⟩ := c5
          cases (never kw' cek').symm.trans c6
      · refine absurd ?_ hn
        show Runs (unpack (World.oneEnvelope.replaced _) out {}) _ _
        rw [unpack_replaced (C := World.oneEnvelope) ⟨fun _ _ _ _ _ _ => rfl, fun _ _ _ _ _ _ _ _ => rfl, World.oneEnvelope_other hc, rfl⟩ rfl]
        exact h2
    | n + 2, hi => cases hi
  · intro s hs m' k' hm
    simp only [List.mem_cons, List.not_mem_nil, or_false] at hs
    rcases hs with rfl | rfl
    · obtain ⟨rfl, -⟩ := hm
      exact ⟨World.msg_wf, World.msg_notEnvelope⟩
    · cases hm

end DIDComm
