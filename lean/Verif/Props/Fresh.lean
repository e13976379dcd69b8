import Verif.Spec.Fresh
import Verif.Props.Secrecy

/-!
# C77: every envelope has its own keys
-/

set_option autoImplicit false

namespace DIDComm

variable {C : Crypto}

theorem nest_append {l l' : List Layer} {t u v : Str} (h : Nest C t l u) (h' : Nest C u l' v) : Nest C t (l ++ l') v := by
  induction l generalizing t with
  | nil => cases h; exact h'
  | cons a l ih => exact ⟨h.1, ih h.2⟩

theorem jweEncrypt_layer {ce : ContentEnc} {kdf : Kdf} {curve : Curve} {pt : Bytes} {alg : JweAlg} {enc : EncAlg}
    {sender : Option (Str × C.Key)} {rcps : List (Str × C.Key)} {tr : List Event} {out : Str}
    (h : Runs (jweEncrypt C ce kdf curve pt alg enc sender rcps) tr (.ok out)) (i : Option Nat) :
    ∃ l : Layer, l.id = i ∧ l.content = pt ∧ l.text = out ∧ l.Made C ∧ i.toList ++ draws tr = l.uses := by
  obtain ⟨r1, r2, r3, cek, epk, jwk, ct, tag, rs, rfl, h1, h2, h3, h4, h5, rfl⟩ := jweEncrypt_ok.1 h
  refine ⟨⟨i, r1, r2, r3, pt, _⟩, rfl, rfl, rfl, ?_, rfl⟩
  exact ⟨_, ⟨cek, C.genNonce ce r3, jweProtected C alg enc (sender.map Prod.fst) (rcps.map Prod.fst) jwk, pt, ct ++ tag⟩,
    ⟨some encryptedTyp, alg, enc, sender.map Prod.fst, (sender.map Prod.fst).map B64.encode,
      B64.encode (apvOf C (rcps.map Prod.fst)), jwk⟩, ce, curve, epk,
    rfl, by rw [JweHeader.onWire_eq]; rfl, ⟨ce, ct, tag, h4, rfl, rfl, B64.decode_encode _, B64.decode_encode _, B64.decode_encode _, wrapAll_seals h5⟩,
    rfl, h1, h2, h3, rfl⟩

theorem anoncrypt_layer {to : Str} {msg : Bytes} {alg : AnonCryptAlg} {tr : List Event} {out : Str} {kids : List Str}
    (h : Runs (anoncrypt C to msg alg) tr (.ok (out, kids))) (i : Option Nat) :
    ∃ l : Layer, l.id = i ∧ l.content = msg ∧ l.text = out ∧ l.Made C ∧ i.toList ++ draws tr = l.uses := by
  obtain ⟨doc, _, vms, curve, toKeys, t, rfl, -, -, -, -, h5, rfl, h6⟩ := anoncrypt_ok.1 h
  exact jweEncrypt_layer h6 i

theorem packCrypt_layers {to : Str} {from_ : Option Str} {msg : Bytes} {opts : PackEncryptedOptions} {tr : List Event} {out : Str}
    {fk : Option Str} {tk : List Str} (h : Runs (packCrypt C to from_ msg opts) tr (.ok (out, fk, tk))) :
    ∃ ls : List Layer, ls ≠ [] ∧ (∀ l ∈ ls, l.Made C) ∧ draws tr = ls.flatMap Layer.uses ∧ Nest C msg ls out := by
  rcases packCrypt_ok.1 h with ⟨rfl, rfl, ha⟩ | ⟨f, k, rfl, rfl, ha⟩
  · obtain ⟨l, h1, h2, h3, h4, h5⟩ := anoncrypt_layer ha none
    exact ⟨[l], by simp, by simpa using h4, by simpa using h5, .inl ⟨h1, h2⟩, h3.symm⟩
  · obtain ⟨toDoc, fromDoc, fromKids, found, fromVms, kids, vms, fromVm, secret, curve, toKeys, skey, u, rfl, -, -, -,
      -, -, -, -, -, -, a5, rfl, -, a7⟩ := authcrypt_ok.1 ha
    unfold authEncrypt at a7
    rw [runs_bind_ok] at a7
    obtain ⟨o1, u1, u2, rfl, a7, a8⟩ := a7
    obtain ⟨l, h1, h2, h3, h4, h5⟩ := jweEncrypt_layer a7 none
    have e : ∀ t, draws (evResolve (didOrUrl to).1 (some toDoc) :: evResolve (didOrUrl f).1 (some fromDoc) ::
        evFind fromKids found :: evGet k (some secret) :: t) = draws t := fun _ => rfl
    rw [e, draws_append]
    split at a8
    · obtain ⟨l', g1, g2, g3, g4, g5⟩ := jweEncrypt_layer a8 none
      refine ⟨[l, l'], by simp, by simp [h4, g4], ?_, .inl ⟨h1, h2⟩, .inl ⟨g1, by rw [g2, h3]⟩, g3.symm⟩
      simp only [Option.toList, List.nil_append] at h5 g5
      simp [h5, g5]
    · obtain ⟨rfl, a8⟩ := runs_pure.1 a8
      cases a8
      refine ⟨[l], by simp, by simpa using h4, ?_, .inl ⟨h1, h2⟩, h3.symm⟩
      simp only [Option.toList, List.nil_append] at h5
      simp [h5, draws]

theorem wrapLoop_layers {headers : Option (List (Str × Value))} {alg : AnonCryptAlg} {l : List (Str × Str)} {msg out : Str} {tr : List Event}
    (h : Runs (wrapLoop C headers alg l msg) tr (.ok out)) :
    ∃ ls : List Layer, ls.length = l.length ∧ (∀ l ∈ ls, l.Made C ∧ l.id.isSome) ∧ draws tr = ls.flatMap Layer.uses ∧ Nest C msg ls out := by
  induction l generalizing msg tr with
  | nil =>
    obtain ⟨rfl, h⟩ := runs_pure.1 h
    cases h
    exact ⟨[], rfl, by simp, rfl, rfl⟩
  | cons p r ih =>
    obtain ⟨to, next⟩ := p
    unfold wrapLoop at h
    rw [runs_bind_ok] at h
    obtain ⟨fwd, t1, t2, rfl, h1, h⟩ := h
    rw [runs_bind_ok] at h
    obtain ⟨⟨o, kids⟩, t3, t4, rfl, h2, h⟩ := h
    unfold buildForwardMessage at h1
    simp only [runs_bind_ok, runs_lift, random] at h1
    obtain ⟨v, _, _, rfl, ⟨rfl, hv⟩, n, _, _, rfl, hr, rfl, hf⟩ := h1
    cases hr with
    | ask _ _ x _ _ hr =>
    obtain ⟨rfl, hr⟩ := runs_ret.1 hr
    cases hr
    cases hf
    obtain ⟨l, g1, g2, g3, g4, g5⟩ := anoncrypt_layer h2 (some n)
    obtain ⟨ls, i1, i2, i3, i4⟩ := ih h
    refine ⟨l :: ls, by simp [i1], ?_, ?_, .inr ⟨n, _, next, v, g1, (C41_only _ _ _).1 (C41_inverse _ _ _ _), ?_, ?_, g2⟩, ?_⟩
    · intro x hx
      rcases List.mem_cons.1 hx with rfl | hx
      · exact ⟨g4, by rw [g1]; rfl⟩
      · exact i2 x hx
    · rw [List.flatMap_cons, ← g5, ← i3]
      simp [draws_append]
    · exact withKind_eq_ok.1 hv.symm
    · obtain ⟨x, hx, -⟩ := forwardMessage_fields (C.uuid n) v next headers
      rw [hx]
    · rw [g3]; exact i4

theorem servicesChain_draws {to : Str} {sid : Option Str} {tr : List Event} {r : Res (List (Str × DIDCommMessagingService))}
    (h : Runs (servicesChain to sid) tr r) : draws tr = [] := by
  rcases C37_chain to sid tr r h with ⟨a, rfl, -⟩ | ⟨doc, s, b, rfl, -⟩ <;> rfl

theorem wrapInForward_layers {headers : Option (List (Str × Value))} {alg : AnonCryptAlg} {keys : List Str} {to msg out : Str} {tr : List Event}
    (h : Runs (wrapInForward C msg headers to keys alg) tr (.ok out)) :
    ∃ ls : List Layer, ls.length = keys.length ∧ (∀ l ∈ ls, l.Made C ∧ l.id.isSome) ∧ draws tr = ls.flatMap Layer.uses ∧ Nest C msg ls out := by
  unfold wrapInForward at h
  split at h
  · cases (runs_ret.1 h).2
  · obtain ⟨ls, h1, h2⟩ := wrapLoop_layers h
    exact ⟨ls, by simpa using h1, h2⟩

theorem wrapIfNeeded_layers {opts : PackEncryptedOptions} {to msg : Str} {tr : List Event} {w : Option (Str × MessagingServiceMetadata)}
    (h : Runs (wrapInForwardIfNeeded C msg to opts) tr (.ok w)) :
    ∃ ls : List Layer, (∀ l ∈ ls, l.Made C ∧ l.id.isSome) ∧ draws tr = ls.flatMap Layer.uses ∧
      Nest C msg ls ((w.map Prod.fst).getD msg) := by
  unfold wrapInForwardIfNeeded at h
  split at h
  · obtain ⟨rfl, h⟩ := runs_pure.1 h
    cases h
    exact ⟨[], by simp, rfl, rfl⟩
  rw [runs_bind_ok] at h
  obtain ⟨chain, u1, u2, rfl, hc, h⟩ := h
  rw [draws_append, servicesChain_draws hc, List.nil_append]
  split at h
  rotate_left
  · obtain ⟨rfl, h⟩ := runs_pure.1 h
    cases h
    exact ⟨[], by simp, rfl, rfl⟩
  dsimp only at h
  split at h
  · obtain ⟨rfl, h⟩ := runs_pure.1 h
    cases h
    exact ⟨[], by simp, rfl, rfl⟩
  rw [runs_bind_ok] at h
  obtain ⟨o, u3, u4, rfl, h3, h5⟩ := h
  obtain ⟨rfl, h5⟩ := runs_pure.1 h5
  cases h5
  obtain ⟨ls, -, h6⟩ := wrapInForward_layers h3
  simpa using ⟨ls, h6⟩

/-- C77: a packed message is a nest of envelopes around the plaintext or signed text; each was made with a content key, an ephemeral key
and a nonce (and, in a forward, a message id) generated from draws of its own: the draws of the run are exactly those of the
envelopes one after the other. -/
theorem C77_packed (m : Message) (to : Str) (from_ signBy : Option Str) (opts : PackEncryptedOptions)
    (tr : List Event) (out : Str) (md : PackEncryptedMetadata)
    (h : Runs (packEncrypted C m to from_ signBy opts) tr (.ok (out, md))) :
    ∃ inner, InnerText m signBy inner ∧
      ∃ ls : List Layer, ls ≠ [] ∧ (∀ l ∈ ls, l.Made C) ∧ draws tr = ls.flatMap Layer.uses ∧ Nest C inner ls out := by
  obtain ⟨t1, t2, t3, inner, sk, env, fk, tk, w, rfl, -, h1, h2, h3, h4⟩ := packEncrypted_ok.1 h
  obtain ⟨d1, i1⟩ := draws_inner h1
  obtain ⟨ls, g0, g1, g2, g3⟩ := packCrypt_layers h2
  obtain ⟨ls', k1, k2, k3⟩ := wrapIfNeeded_layers h3
  refine ⟨inner, i1, ls ++ ls', by simp [g0], ?_, by simp [draws_append, d1, g2, k2], nest_append g3 ?_⟩
  · intro l hl
    rcases List.mem_append.1 hl with hl | hl
    · exact g1 l hl
    · exact (k1 l hl).1
  · rcases h4 with ⟨rfl, rfl, -⟩ | ⟨svc, rfl, -⟩ <;> exact k3

/-- C77 for `wrap_in_forward`: one envelope around a forward for each routing key. -/
theorem C77_wrapped (msg : Str) (headers : Option (List (Str × Value))) (to : Str) (keys : List Str) (alg : AnonCryptAlg)
    (tr : List Event) (out : Str) (h : Runs (wrapInForward C msg headers to keys alg) tr (.ok out)) :
    ∃ ls : List Layer, ls.length = keys.length ∧ (∀ l ∈ ls, l.Made C ∧ l.id.isSome) ∧ draws tr = ls.flatMap Layer.uses ∧
      Nest C msg ls out :=
  wrapInForward_layers h

/-- A run in Alice's and Bob's world where the random generator counts from `start`. -/
def World.testFrom {α : Type} (start : Nat) (p : Prog α) (P : List Event → α → Bool) : Bool :=
  match p.run World.env (fun n => start + n) with
  | (tr, .ok a) => P tr a
  | _ => false

theorem World.of_testFrom {α : Type} {start : Nat} {p : Prog α} {P : List Event → α → Bool} (h : World.testFrom start p P = true) :
    ∃ tr a, Runs p tr (.ok a) ∧ P tr a = true := by
  unfold World.testFrom at h
  have hs := (Prog.run_spec World.env (fun n => start + n) p).1
  generalize p.run World.env (fun n => start + n) = x at h hs
  obtain ⟨tr, _ | a⟩ := x
  · cases h
  · exact ⟨tr, a, hs, h⟩

/-- With a hidden sender and two mediating keys there are four envelopes. -/
example : ∃ tr out md, Runs (packEncrypted Toy.crypto World.msg World.bob (some World.alice) none { protectSender := true }) tr (.ok (out, md)) ∧
    draws tr = List.range 14 := by
  have h : World.testFrom 0 (packEncrypted Toy.crypto World.msg World.bob (some World.alice) none { protectSender := true })
    (fun tr _ => decide (draws tr = List.range 14)) = true := by decide +kernel
  obtain ⟨tr, ⟨out, md⟩, r, p⟩ := World.of_testFrom h
  exact ⟨tr, out, md, r, of_decide_eq_true p⟩

/-- C77: the content key of each of the message's envelopes differs from those of all its other envelopes and of all envelopes of any
other message, if all the draws give different content keys. -/
theorem C77_own_key (m m' : Message) (to to' : Str) (from_ from' signBy signBy' : Option Str) (opts opts' : PackEncryptedOptions)
    (tr tr' : List Event) (out out' : Str) (md md' : PackEncryptedMetadata)
    (h : Runs (packEncrypted C m to from_ signBy opts) tr (.ok (out, md)))
    (h' : Runs (packEncrypted C m' to' from' signBy' opts') tr' (.ok (out', md')))
    (hc : (draws tr ++ draws tr').Pairwise (fun n n' => ∀ ce ce' k, C.genCek ce n = some k → C.genCek ce' n' ≠ some k)) :
    ∃ inner inner', InnerText m signBy inner ∧ InnerText m' signBy' inner' ∧
      ∃ ls ls' : List (Layer × Bytes), Nest C inner (ls.map Prod.fst) out ∧ Nest C inner' (ls'.map Prod.fst) out' ∧
        (∀ x ∈ ls ++ ls', HasContentKey C x.1.text x.2) ∧ ((ls ++ ls').map Prod.snd).Nodup := by
  obtain ⟨inner, i1, ls, -, g1, g2, g3⟩ := C77_packed m to from_ signBy opts tr out md h
  obtain ⟨inner', i1', ls', -, g1', g2', g3'⟩ := C77_packed m' to' from' signBy' opts' tr' out' md' h'
  rw [g2, g2', ← List.flatMap_append] at hc
  have key : ∀ l : List Layer, (∀ x ∈ l, x.Made C) → (l.flatMap Layer.uses).Pairwise (fun n n' => ∀ ce ce' k, C.genCek ce n = some k → C.genCek ce' n' ≠ some k) →
      ∃ ks : List (Layer × Bytes), ks.map Prod.fst = l ∧ (∀ x ∈ ks, HasContentKey C x.1.text x.2 ∧ ∃ ce, C.genCek ce x.1.cek = some x.2) ∧
        (ks.map Prod.snd).Nodup := by
    intro l
    induction l with
    | nil => intro _ _; exact ⟨[], rfl, by simp, by simp⟩
    | cons a l ih =>
      intro hm hn
      obtain ⟨ks, k1, k2, k3⟩ := ih (fun x hx => hm x (List.mem_cons_of_mem _ hx))
        (by rw [List.flatMap_cons] at hn; exact (List.pairwise_append.1 hn).2.1)
      obtain ⟨j, s, hdr, ce, c, e, e1, e2, e3, e4, e5, -⟩ := hm a List.mem_cons_self
      refine ⟨(a, s.cek) :: ks, by simp [k1], ?_, ?_⟩
      · intro x hx
        rcases List.mem_cons.1 hx with rfl | hx
        · exact ⟨⟨j, s, e1, e3, rfl⟩, ce, e5⟩
        · exact k2 x hx
      · rw [List.map_cons, List.nodup_cons]
        refine ⟨fun hx => ?_, k3⟩
        obtain ⟨x, hx, he⟩ := List.mem_map.1 hx
        obtain ⟨-, ce', hce'⟩ := k2 x hx
        have hx' : x.1 ∈ l := by rw [← k1]; exact List.mem_map_of_mem hx
        rw [List.flatMap_cons] at hn
        exact (List.pairwise_append.1 hn).2.2 a.cek (by simp [Layer.uses]) x.1.cek
          (List.mem_flatMap.2 ⟨x.1, hx', by simp [Layer.uses]⟩) ce ce' s.cek e5 (by rw [hce', he])
  obtain ⟨ks, k1, k2, k3⟩ := key (ls ++ ls') (fun x hx => by
    rcases List.mem_append.1 hx with hx | hx
    · exact g1 x hx
    · exact g1' x hx) hc
  obtain ⟨a, b, rfl, rfl, rfl⟩ := List.map_eq_append_iff.1 k1
  exact ⟨inner, inner', i1, i1', a, b, g3, g3', fun x hx => (k2 x hx).1, k3⟩

/-- The toy primitives with content keys that are as long as the draw says. -/
def World.lengths : Crypto := { Toy.crypto with genCek := fun _ n => some (List.replicate n 0) }

/-- The hypotheses of `C77_own_key` are met by two messages of which one goes through two mediators. -/
example : ∃ tr tr' out out' md md', Runs (packEncrypted World.lengths World.msg World.bob (some World.alice) none {}) tr (.ok (out, md)) ∧
      Runs (packEncrypted World.lengths World.msg World.bob none none { forward := false }) tr' (.ok (out', md')) ∧
      (draws tr ++ draws tr').Pairwise
        (fun n n' => ∀ ce ce' k, World.lengths.genCek ce n = some k → World.lengths.genCek ce' n' ≠ some k) := by
  have h : World.testFrom 0 (packEncrypted World.lengths World.msg World.bob (some World.alice) none {})
    (fun tr _ => decide (draws tr = List.range 11)) = true := by decide +kernel
  have h' : World.testFrom 11 (packEncrypted World.lengths World.msg World.bob none none { forward := false })
    (fun tr _ => decide (draws tr = [11, 12, 13])) = true := by decide +kernel
  obtain ⟨tr, ⟨out, md⟩, r, p⟩ := World.of_testFrom h
  obtain ⟨tr', ⟨out', md'⟩, r', p'⟩ := World.of_testFrom h'
  refine ⟨tr, tr', out, out', md, md', r, r', ?_⟩
  rw [of_decide_eq_true p, of_decide_eq_true p']
  have hp : (List.range 11 ++ [11, 12, 13]).Pairwise (· ≠ ·) := by decide
  refine hp.imp fun {n n'} hn _ _ k h h' => hn ?_
  simpa using congrArg List.length (Option.some.inj (h.trans h'.symm))

end DIDComm
