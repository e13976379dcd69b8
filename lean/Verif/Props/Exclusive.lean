import Verif.Proofs.Exclusive
import Verif.Proofs.Toy
import Verif.Spec.History

/-!
# C117: who can open an envelope

Only those who hold the secret half of a key the message was encrypted for.
-/

set_option autoImplicit false

namespace DIDComm

variable {C : Crypto} {pairs : Curve → C.Key → C.Key → Prop}

/-- C117: whoever unpacks what `pack_encrypted` returned without forwarding, in whatever way it has been written since, has read the secret half
of one of the keys that the metadata names as recipients: keys that the recipient's document, as the packing operation saw it, lists for
agreement. -/
theorem C117_direct (m m' : Message) (to out t : Str) (from_ signBy : Option Str) (opts : PackEncryptedOptions) (uopts : UnpackOptions)
    (tr tr' : List Event) (md : PackEncryptedMetadata) (md' : UnpackMetadata) (law : C.Lawful pairs) (ex : C.Exclusive pairs)
    (hk : ∀ k ∈ md.toKids, Plain k) (hfk : ∀ k, md.fromKid = some k → Plain k)
    (h : Runs (packEncrypted C m to from_ signBy opts) tr (.ok (out, md))) (hf : md.messagingService = none) (hs : SameEnvelope out t)
    (h' : Runs (unpack C t uopts) tr' (.ok (m', md'))) :
    ∃ doc kid, evResolve (didOf to) (some doc) ∈ tr ∧ kid ∈ md.toKids ∧ ReadSecretFor C pairs tr' to doc kid := by
  obtain ⟨t1, t2, t3, inner, sk, env, fk, tk, w, rfl, -, -, h2, -, h4⟩ := packEncrypted_ok.1 h
  rcases h4 with ⟨-, rfl, rfl⟩ | ⟨svc, -, rfl⟩
  rotate_left
  · cases hf
  simp only at hk hfk ⊢
  have lift : ∀ {doc : DIDDoc}, evResolve (didOf to) (some doc) ∈ t2 → evResolve (didOf to) (some doc) ∈ t1 ++ t2 ++ t3 := by
    intro doc h; simp [h]
  rcases packCrypt_ok.1 h2 with ⟨-, -, h2⟩ | ⟨f, k, -, rfl, h5⟩
  · obtain ⟨doc, kid, a, b, c⟩ := anoncrypt_shut law ex hk h2 hs (unpack_eq ▸ h')
    exact ⟨doc, kid, lift a, b, c⟩
  · obtain ⟨doc, kid, a, b, c⟩ := authcrypt_shut law ex hk (hfk k rfl) h5 hs (unpack_eq ▸ h')
    exact ⟨doc, kid, lift a, b, c⟩

/-- C117: whoever unpacks what `wrap_in_forward` returned has read the secret half of a key of the first mediator on the route: of the routing
key itself, if it is a key id, else of one of the keys the document of the mediator lists for agreement.  (What the mediator finds inside was
made in the same way for the next one, see `C104_stages`.) -/
theorem C117_wrapped (msg to k out t : Str) (headers : Option (List (Str × Value))) (ks : List Str) (alg : AnonCryptAlg) (uopts : UnpackOptions)
    (tr tr' : List Event) (m' : Message) (md' : UnpackMetadata) (law : C.Lawful pairs) (ex : C.Exclusive pairs)
    (hk : ∀ doc, evResolve (didOf k) (some doc) ∈ tr → ∀ kid ∈ doc.keyAgreement, Plain kid)
    (h : Runs (wrapInForward C msg headers to (k :: ks) alg) tr (.ok out)) (hs : SameEnvelope out t)
    (h' : Runs (unpack C t uopts) tr' (.ok (m', md'))) :
    ∃ doc kid, evResolve (didOf k) (some doc) ∈ tr ∧ ReadSecretFor C pairs tr' k doc kid := by
  obtain ⟨mid, t1, n, t2, v, kids, rfl, -, -, h⟩ := wrap_outer h
  have hp : ∀ kid ∈ kids, Plain kid := by
    obtain ⟨doc, _, vms, curve, toKeys, t1, rfl, h1, h2, -, -, h3, rfl, -⟩ := anoncrypt_ok.1 h
    intro kid hkid
    obtain ⟨vm, hv, rfl⟩ := List.mem_map.1 hkid
    obtain ⟨rfl, -⟩ := agreementKids_ok.1 h1
    exact hk doc (by simp [didOrUrl_fst]) _ (meantBy_mem (methods_mem (methodsOf_ok.1 h2) (List.mem_filter.1 hv).1).1)
  obtain ⟨doc, kid, a, -, b⟩ := anoncrypt_shut law ex hp h hs (unpack_eq ▸ h')
  exact ⟨doc, kid, by simp [a], b⟩

/-- A message that is wrapped for mediators is wrapped along the route that the services lead along. -/
theorem wrapIfNeeded_some {msg to w : Str} {opts : PackEncryptedOptions} {svc : MessagingServiceMetadata} {tr : List Event}
    (h : Runs (wrapInForwardIfNeeded C msg to opts) tr (.ok (some (w, svc)))) :
    ∃ chain u1 u2, tr = u1 ++ u2 ∧ Runs (servicesChain to opts.messagingService) u1 (.ok chain) ∧ routeOf chain ≠ [] ∧
      Runs (wrapInForward C msg opts.forwardHeaders to (routeOf chain) opts.encAlgAnon) u2 (.ok w) := by
  unfold wrapInForwardIfNeeded at h
  split at h
  · obtain ⟨-, h⟩ := runs_pure.1 h; cases h
  rw [runs_bind_ok] at h
  obtain ⟨chain, u1, u2, rfl, hc, h⟩ := h
  have hlen : chain.length ≤ 2 := by
    rcases C37_chain _ _ _ _ hc with ⟨_, -, ⟨k, h⟩ | ⟨_, -, -, h⟩ | ⟨_, s, -, -, h, hd⟩⟩ | ⟨_, s, _, -, -, -, ⟨k, h⟩ | ⟨_, s', -, -, h, hd⟩⟩
    all_goals cases h
    all_goals simp
  rw [chainRoutingKeys_eq hlen] at h
  split at h
  rotate_left
  · obtain ⟨-, h⟩ := runs_pure.1 h; cases h
  dsimp only at h
  split at h
  · obtain ⟨-, h⟩ := runs_pure.1 h; cases h
  rename_i hne
  rw [runs_bind_ok] at h
  obtain ⟨o, u3, u4, rfl, h3, h5⟩ := h
  obtain ⟨rfl, h5⟩ := runs_pure.1 h5
  cases h5
  refine ⟨chain, u1, u3, by simp, hc, ?_, h3⟩
  intro he
  simp [he] at hne

/-- C117: whoever unpacks what `pack_encrypted` returned with forwarding has read the secret half of a key of the first mediator on the route
that the services lead along; the keys of the recipient do not open it. -/
theorem C117_forwarded (m m' : Message) (to out t : Str) (from_ signBy : Option Str) (opts : PackEncryptedOptions) (uopts : UnpackOptions)
    (tr tr' : List Event) (md : PackEncryptedMetadata) (md' : UnpackMetadata) (law : C.Lawful pairs) (ex : C.Exclusive pairs)
    (hk : ∀ d doc, evResolve d (some doc) ∈ tr → ∀ kid ∈ doc.keyAgreement, Plain kid)
    (h : Runs (packEncrypted C m to from_ signBy opts) tr (.ok (out, md))) (hf : md.messagingService ≠ none) (hs : SameEnvelope out t)
    (h' : Runs (unpack C t uopts) tr' (.ok (m', md'))) :
    ∃ chain before during after k ks doc kid, tr = before ++ during ++ after ∧
      Runs (servicesChain to opts.messagingService) during (.ok chain) ∧ routeOf chain = k :: ks ∧
      evResolve (didOf k) (some doc) ∈ tr ∧ ReadSecretFor C pairs tr' k doc kid := by
  obtain ⟨t1, t2, t3, inner, sk, env, fk, tk, w, rfl, -, -, -, h3, h4⟩ := packEncrypted_ok.1 h
  rcases h4 with ⟨-, -, rfl⟩ | ⟨svc, rfl, rfl⟩
  · exact absurd rfl hf
  obtain ⟨chain, u1, u2, e1, a1, a2, a3⟩ := wrapIfNeeded_some h3
  subst e1
  cases hr : routeOf chain with
  | nil => exact absurd hr a2
  | cons k ks =>
    rw [hr] at a3
    obtain ⟨doc, kid, b1, b2⟩ := C117_wrapped _ _ _ _ _ _ _ _ _ _ _ _ _ law ex (fun doc hd => hk (didOf k) doc (by simp [hd])) a3 hs h'
    exact ⟨chain, t1 ++ t2, u1, u2, k, ks, doc, kid, by simp, a1, hr, by simp [b1], b2⟩

/-- C117: through a route to the end.  Whoever gets by one call of `unpack`, with forwards unwrapped, anything else than a forward message out of
what `pack_encrypted` returned for a recipient behind mediators, has read the secret half of a key of every mediator on the route and of one of
the keys of the recipient that the metadata names. -/
theorem C117_through (E E' : Env) (m m' : Message) (to out t : Str) (from_ signBy : Option Str) (opts : PackEncryptedOptions)
    (uopts : UnpackOptions) (tr tr' : List Event) (md : PackEncryptedMetadata) (md' : UnpackMetadata) (law : C.Lawful pairs) (ex : C.Exclusive pairs)
    (hu : ∀ r, validUtf8 (C.uuid r) = true) (hh : HeadersOk C.f64 opts.forwardHeaders) (hto : validUtf8 to = true)
    (hwto : WireParty E (didOf to)) (hfk : ∀ k, md.fromKid = some k → Plain k)
    (hk : ∀ t chain, Answers E t → Runs (servicesChain to opts.messagingService) t (.ok chain) →
      ∀ k ∈ routeOf chain, WireParty E (didOf k) ∧ validUtf8 k = true)
    (ha : Answers E tr) (h : Runs (packEncrypted C m to from_ signBy opts) tr (.ok (out, md))) (hf : md.messagingService ≠ none)
    (hs : SameEnvelope out t) (ha' : Answers E' tr') (h' : Runs (unpack C t uopts) tr' (.ok (m', md'))) :
    m'.type_ = b!"https://didcomm.org/routing/2.0/forward" ∨
    (∃ doc kid, E.resolve (didOf to) = .ok (some doc) ∧ kid ∈ md.toKids ∧ ReadSecretFor C pairs tr' to doc kid) ∧
    ∃ chain during, Answers E during ∧ Runs (servicesChain to opts.messagingService) during (.ok chain) ∧ routeOf chain ≠ [] ∧
      ∀ k ∈ routeOf chain, ∃ doc kid, E.resolve (didOf k) = .ok (some doc) ∧ ReadSecretFor C pairs tr' k doc kid := by
  obtain ⟨t1, t2, t3, inner, sk, env, fk, tk, w, rfl, -, -, h2, h3, h4⟩ := packEncrypted_ok.1 h
  rcases h4 with ⟨-, -, rfl⟩ | ⟨svc, rfl, rfl⟩
  · exact absurd rfl hf
  simp only [answers_append] at ha
  obtain ⟨⟨-, ha2⟩, ha3⟩ := ha
  obtain ⟨chain, u1, u2, rfl, a1, a2, a3⟩ := wrapIfNeeded_some h3
  rw [answers_append] at ha3
  have hkc := hk u1 chain ha3.1 a1
  -- the envelope inside
  have hplain : ∀ {kids : List Str} {doc : DIDDoc}, E.resolve (didOf to) = .ok (some doc) → (∀ k ∈ kids, k ∈ doc.keyAgreement) →
      ∀ k ∈ kids, Plain k :=
    fun hd hm k hk => (hwto _ hd k (List.mem_append.2 (.inl (hm k hk)))).2.2
  have inside : ∃ j : JWE, env = j.toJson.print ∧ j.IsPlain ∧ ∀ {t' n md0 tr0 x}, jweFromStr t' = .ok j →
      Runs (unwrapLoop C uopts n t' md0 >>= fun x => afterAnon C uopts x.1 x.2) tr0 (.ok x) →
      ∃ doc kid, E.resolve (didOf to) = .ok (some doc) ∧ kid ∈ tk ∧ ReadSecretFor C pairs tr0 to doc kid := by
    rcases packCrypt_ok.1 h2 with ⟨-, -, h2⟩ | ⟨f, k, -, rfl, h5⟩
    · obtain ⟨j, rfl, hj⟩ := anoncrypt_printed hwto ha2 h2
      refine ⟨j, rfl, hj, fun ht hrun => ?_⟩
      obtain ⟨doc0, d1, -, d3⟩ := anoncrypt_kids ha2 h2
      obtain ⟨doc, kid, b1, b2, b3⟩ := anoncrypt_shut law ex (hplain d1 (fun k hk => meantBy_mem (d3 k hk))) h2 ⟨j, hj.read, ht⟩ hrun
      exact ⟨doc, kid, (ha2 _ b1).symm, b2, b3⟩
    · obtain ⟨j, rfl, hj⟩ := authcrypt_printed hwto ha2 h5
      refine ⟨j, rfl, hj, fun ht hrun => ?_⟩
      have hkids : ∀ k ∈ tk, Plain k := by
        obtain ⟨doc, _, _, _, _, kids', vms, _, _, curve, toKeys, senderKey, t1, rfl, -, -, -, g1, g2, -, -, -, -, g3, rfl, -, -⟩ := authcrypt_ok.1 h5
        simp only [answers_cons, didOrUrl_fst] at ha2
        obtain ⟨rfl, -⟩ := agreementKids_ok.1 g1
        refine hplain ha2.1.symm (fun k hk => ?_)
        obtain ⟨vm, hv, rfl⟩ := List.mem_map.1 hk
        exact meantBy_mem (methods_mem (methodsOf_ok.1 g2) (List.mem_filter.1 hv).1).1
      obtain ⟨doc, kid, b1, b2, b3⟩ := authcrypt_shut law ex hkids (hfk k rfl) h5 ⟨j, hj.read, ht⟩ hrun
      exact ⟨doc, kid, (ha2 _ b1).symm, b2, b3⟩
  obtain ⟨j, rfl, hj, inside⟩ := inside
  -- all layers
  obtain ⟨j', rfl, hj', hall⟩ := wrap_layers hh hu hto (jwe_reparse j hj) (j.sorted_wf hj) j.sorted_depth
    (fun ks t' => ∀ n md0 tr0 x, md0.Fresh → Answers E' tr0 →
      Runs (unwrapLoop C uopts n t' md0 >>= fun x => afterAnon C uopts x.1 x.2) tr0 (.ok x) →
      x.1.type_ = b!"https://didcomm.org/routing/2.0/forward" ∨
      (∃ doc kid, E.resolve (didOf to) = .ok (some doc) ∧ kid ∈ tk ∧ ReadSecretFor C pairs tr0 to doc kid) ∧
      ∀ k ∈ ks, ∃ doc kid, E.resolve (didOf k) = .ok (some doc) ∧ ReadSecretFor C pairs tr0 k doc kid)
    (by
      intro k ks v id out kids tr hv hr hmsg hwire ha h
      obtain ⟨j', rfl, hj'⟩ := anoncrypt_printed hwire ha h
      refine ⟨j', rfl, hj', fun t' ht n md0 tr0 x hfr ha0 hrun => ?_⟩
      obtain ⟨doc0, d1, -, d3⟩ := anoncrypt_kids ha h
      have hp : ∀ kid ∈ kids, Plain kid := fun kid hkid => (hwire _ d1 kid (List.mem_append.2 (.inl (meantBy_mem (d3 kid hkid))))).2.2
      rw [runs_bind_ok] at hrun
      obtain ⟨⟨msg1, md1⟩, w1, w2, rfl, r1, r2⟩ := hrun
      simp only [answers_append] at ha0
      have fwd : (forwardMessage id v (ks.head?.getD to) opts.forwardHeaders).type_ = b!"https://didcomm.org/routing/2.0/forward" := by
        rw [forwardMessage_exact _ _ _ _ hh.nodup]
      cases n with
      | zero => cases (runs_ret.1 r1).2
      | succ n =>
        simp only [unwrapLoop, runs_bind_ok, Prod.exists] at r1
        obtain ⟨anon, md2, v1, v2, rfl, g1, g⟩ := r1
        obtain ⟨rfl, hfr2, doc, kid, l1, l2⟩ := layer_shut law ex hp h ⟨j', hj'.read, ht⟩ g1
        have hl : ∀ {rest : List Event}, (∀ e ∈ v1, e ∈ rest) →
            ∃ doc kid, E.resolve (didOf k) = .ok (some doc) ∧ ReadSecretFor C pairs rest k doc kid := by
          intro rest hsub
          obtain ⟨secret, c, s, p, q1, q2⟩ := l2
          exact ⟨doc, kid, (ha _ l1).symm, secret, c, s, p, hsub _ q1, q2⟩
        have stop : ∀ {w}, Answers E' w → Runs (afterAnon C uopts (forwardMessage id v (ks.head?.getD to) opts.forwardHeaders).toJson.print md2) w (.ok x) →
            x.1.type_ = b!"https://didcomm.org/routing/2.0/forward" := by
          intro w haw hw
          rw [afterAnon_eq, tryAuth_not_jwe (hr E').1] at hw
          have := (hr E').2.2 md2 (hfr2 hfr) _ _ haw hw
          cases this
          exact fwd
        simp only at g
        split at g
        rotate_left
        · obtain ⟨rfl, g⟩ := runs_pure.1 g
          cases g
          exact .inl (stop ha0.2 r2)
        rw [runs_bind_ok] at g
        obtain ⟨o, v3, v4, rfl, g2, g⟩ := g
        cases o with
        | none =>
          obtain ⟨rfl, g⟩ := runs_pure.1 g
          cases g
          exact .inl (stop ha0.2 r2)
        | some text =>
          have ht : text = v.print := by
            rcases tryUnwrapForwarded_ok.1 g2 with ⟨h, -⟩ | ⟨_, h, -⟩ | ⟨m1, f, has, e1, e2, -, e3⟩
            · cases h
            · cases h
            rw [hmsg] at e1; cases e1
            rw [C41_inverse] at e2; cases e2
            split at e3
            · cases e3; rfl
            · cases e3
          subst ht
          have hrest : Runs (unwrapLoop C uopts n v.print { md2 with reWrappedInForward := true } >>= fun x => afterAnon C uopts x.1 x.2)
              (v4 ++ w2) (.ok x) := runs_bind_ok.2 ⟨_, v4, w2, rfl, g, r2⟩
          have sub : ∀ {who doc kid}, ReadSecretFor C pairs (v4 ++ w2) who doc kid → ReadSecretFor C pairs (v1 ++ (v3 ++ v4) ++ w2) who doc kid := by
            rintro who doc kid ⟨secret, c, s, p, q1, q2⟩
            refine ⟨secret, c, s, p, ?_, q2⟩
            simp only [List.mem_append] at q1 ⊢
            rcases q1 with q1 | q1
            · exact .inl (.inr (.inr q1))
            · exact .inr q1
          have here := hl (rest := v1 ++ (v3 ++ v4) ++ w2) (fun e he => by simp [he])
          have hfr3 : ({ md2 with reWrappedInForward := true } : UnpackMetadata).Fresh :=
            ⟨(hfr2 hfr).1, (hfr2 hfr).2, (hfr2 hfr).3, (hfr2 hfr).4, (hfr2 hfr).5, (hfr2 hfr).6⟩
          rcases hv with ⟨rfl, rfl⟩ | ⟨-, hv⟩
          · obtain ⟨doc, kid, b1, b2, b3⟩ := inside (j.sorted_read hj) hrest
            refine .inr ⟨⟨doc, kid, b1, b2, sub b3⟩, fun k' hk' => ?_⟩
            cases List.mem_singleton.1 hk'
            exact here
          · rcases hv n _ _ x hfr3 (answers_append.2 ⟨(answers_append.1 (answers_append.1 ha0.1).2).2, ha0.2⟩) hrest with h | ⟨⟨doc, kid, b1, b2, b3⟩, b4⟩
            · exact .inl h
            · refine .inr ⟨⟨doc, kid, b1, b2, sub b3⟩, fun k' hk' => ?_⟩
              rcases List.mem_cons.1 hk' with rfl | hk'
              · exact here
              · obtain ⟨doc, kid, c1, c2⟩ := b4 k' hk'
                exact ⟨doc, kid, c1, sub c2⟩)
    (routeOf chain) hkc u2 _ ha3.2 a3
  obtain ⟨j1, e1, e2⟩ := hs
  have e1 : jweFromStr j'.toJson.print = .ok j1 := e1
  rw [hj'.read] at e1
  cases e1
  rcases hall t e2 _ _ _ _ ⟨rfl, rfl, rfl, rfl, rfl, rfl⟩ ha' (unpack_eq ▸ h') with h | ⟨h, hr⟩
  · exact .inl h
  · exact .inr ⟨h, chain, u1, ha3.1, a1, a2, hr⟩

/-- C117: for anybody who holds none of these secret halves, also for the sender, unpacking what `pack_encrypted` returned without forwarding
ends with an error. -/
theorem C117_outsider (E E' : Env) (m : Message) (to out t : Str) (from_ signBy : Option Str) (opts : PackEncryptedOptions) (uopts : UnpackOptions)
    (tr tr' : List Event) (md : PackEncryptedMetadata) (r : Res (Message × UnpackMetadata)) (law : C.Lawful pairs) (ex : C.Exclusive pairs)
    (hk : ∀ k ∈ md.toKids, Plain k) (hfk : ∀ k, md.fromKid = some k → Plain k) (ha : Answers E tr)
    (h : Runs (packEncrypted C m to from_ signBy opts) tr (.ok (out, md))) (hf : md.messagingService = none) (hs : SameEnvelope out t)
    (hno : ∀ doc, E.resolve (didOf to) = .ok (some doc) → ∀ kid ∈ md.toKids, ¬ HoldsSecret C pairs E' doc kid)
    (ha' : Answers E' tr') (h' : Runs (unpack C t uopts) tr' r) : ∃ e, r = .error e := by
  cases r with
  | error e => exact ⟨e, rfl⟩
  | ok x =>
    obtain ⟨m', md'⟩ := x
    obtain ⟨doc, kid, a, b, secret, c, s, p, c1, c2, ⟨-, vm, c3, -, c4⟩, c5⟩ := C117_direct _ _ _ _ _ _ _ _ _ _ _ _ _ law ex hk hfk h hf hs h'
    exact absurd ⟨secret, vm, c, s, p, (ha' _ c1).symm, c2, c3, c4, c5⟩ (hno doc (ha _ a).symm kid b)

/-! ## The hypotheses are met -/

/-- Bytes with their end marked. -/
def Toy.marked : Bytes → Bytes
  | [] => [0]
  | b :: r => 1 :: b :: Toy.marked r

theorem Toy.marked_append {a b x y : Bytes} (h : Toy.marked a ++ x = Toy.marked b ++ y) : a = b ∧ x = y := by
  induction a generalizing b with
  | nil =>
    cases b with
    | nil => simpa [Toy.marked] using h
    | cons c b => simp [Toy.marked] at h
  | cons c a ih =>
    cases b with
    | nil => simp [Toy.marked] at h
    | cons d b =>
      simp only [Toy.marked, List.cons_append, List.cons.injEq, true_and] at h
      obtain ⟨rfl, h⟩ := h
      obtain ⟨rfl, rfl⟩ := ih h
      exact ⟨rfl, rfl⟩

theorem Toy.curveByte_inj {c c' : Curve} (h : Toy.curveByte c = Toy.curveByte c') : c = c' := by
  revert h; cases c <;> cases c' <;> decide

/-- What is left after a prefix was cut off followed the prefix. -/
theorem Toy.dropPrefix_some {p s r : Bytes} (h : Toy.dropPrefix p s = some r) : s = p ++ r := by
  induction p generalizing s with
  | nil => cases h; rfl
  | cons a p ih =>
    cases s with
    | nil => cases h
    | cons b s =>
      simp only [Toy.dropPrefix] at h
      split at h
      · rename_i hab; subst hab; rw [ih h]; rfl
      · cases h

/-- A derived key, with the end of the receiver's key marked. -/
def Toy.derived (c : Curve) (r rest : Bytes) : Bytes := Toy.curveByte c :: (Toy.marked r ++ rest)

/-- Toy primitives that keep the keys apart. -/
def Toy.closed : Crypto := Toy.crypto.replaced
  { Toy.crypto.primitives with
    ecdhEs := fun c (e : Bytes) (r : Bytes) _ _ _ _ => some (Toy.derived c r e)
    ecdh1pu := fun c (e : Bytes) (s : Bytes) (r : Bytes) _ _ _ _ _ => some (Toy.derived c r (e ++ s))
    wrap := fun kw cek => some (Toy.marked kw ++ cek)
    unwrap := fun _ kw ek => Toy.dropPrefix (Toy.marked kw) ek }

/-- The halves of a key are equal. -/
def Toy.closedPairs : Curve → Toy.closed.Key → Toy.closed.Key → Prop := Toy.pairs

theorem Toy.closed_lawful : Toy.closed.Lawful Toy.closedPairs where
  verify_sign := Toy.lawful.verify_sign
  dec_enc := Toy.lawful.dec_enc
  jwk_ok := Toy.lawful.jwk_ok
  ecdhEs_agree := by
    intro c r e j s p alg apu apv kw h1 h2 h3 h4
    cases h3
    cases h2
    exact ⟨e, by simp [Toy.closed, Crypto.replaced, Toy.crypto, Value.getStr]; exact B64.decode_encode e, h4⟩
  ecdh1pu_agree := by
    intro c r e j ss sp s p alg apu apv tag kw h1 h2 h3 h3' h4
    cases h3; cases h3'
    cases h2
    exact ⟨e, by simp [Toy.closed, Crypto.replaced, Toy.crypto, Value.getStr]; exact B64.decode_encode e, h4⟩
  unwrap_wrap := by
    intro ce r cek kw ek h1 h2
    cases h2
    exact Toy.dropPrefix_append _ _

theorem Toy.derived_inj {c c' : Curve} {r r' x x' : Bytes} (h : Toy.derived c r x = Toy.derived c' r' x') : c = c' ∧ r = r' := by
  unfold Toy.derived at h
  obtain ⟨h1, h2⟩ := List.cons.inj h
  exact ⟨Toy.curveByte_inj h1, (Toy.marked_append h2).1⟩

theorem Toy.closed_exclusive : Toy.closed.Exclusive Toy.closedPairs where
  anonymous := by
    intro c n e j p alg apu apv kw c' e' s h1 h2 h3 h4 h5
    have := Toy.derived_inj (Option.some.inj (h5.trans h3.symm))
    exact this
  sender := by
    intro c n e j ss p alg apu apv tag kw c' e' sp s h1 h2 h3 h4 h5
    have := Toy.derived_inj (Option.some.inj (h5.trans h3.symm))
    exact this
  wrapped := by
    intro ce r cek kw ek ce' kw' cek' h1 h2 h3
    cases h2
    exact (Toy.marked_append (Toy.dropPrefix_some h3)).1.symm

/-- What Alice encrypts for Bob. -/
def World.shutText : Str :=
  match ((packEncrypted Toy.closed World.msg World.bob (some World.alice) none { forward := false }).run World.aliceEnv id).2 with
  | .ok x => x.1
  | .error _ => []

/-- What Alice sends to Bob through the mediator. -/
def World.outerText : Str :=
  match ((packEncrypted Toy.closed World.msg World.bob none none {}).run World.aliceEnv id).2 with
  | .ok x => x.1
  | .error _ => []

/-- No character needs to be escaped. -/
def plainB (s : Str) : Bool := validUtf8 s && s.all (fun b => b != 0x22 && b != 0x5C && decide (0x20 ≤ b))

theorem plainB_iff {s : Str} : plainB s = true ↔ Plain s := by
  simp only [plainB, Plain, Bool.and_eq_true, List.all_eq_true, bne_iff_ne, decide_eq_true_eq, and_assoc]

set_option maxRecDepth 1000000 in
theorem World.shut_packed : World.test World.aliceEnv
    (packEncrypted Toy.closed World.msg World.bob (some World.alice) none { forward := false })
    (fun x => x.1 == World.shutText && x.2.messagingService.isNone && x.2.toKids.all plainB && x.2.fromKid.all plainB &&
      (fromJson dJwe x.1).isOk && x.2.toKids.all (fun k => (exampleGetSecret (World.secrets.take 5) k).isNone)) = true := by decide +kernel

set_option maxRecDepth 1000000 in
theorem World.shut_opened : World.test World.bobEnv (unpack Toy.closed World.shutText {})
    (fun x => x.1.id == b!"1" && x.2.authenticated) = true := by decide +kernel

theorem sameEnvelope_self {t : Str} (h : (fromJson dJwe t).isOk = true) : SameEnvelope t t := by
  cases hj : fromJson dJwe t with
  | ok j => exact ⟨j, hj, hj⟩
  | error e => rw [hj] at h; cases h

/-- Bob can read what Alice has encrypted for them, and has used a secret for that. -/
example : ∃ tr x tr' y doc kid,
    Runs (packEncrypted Toy.closed World.msg World.bob (some World.alice) none { forward := false }) tr (.ok x) ∧
    Runs (unpack Toy.closed x.1 {}) tr' (.ok y) ∧ y.1.id = b!"1" ∧ ReadSecretFor Toy.closed Toy.closedPairs tr' World.bob doc kid := by
  obtain ⟨tr, ⟨out, md⟩, h, -, hp⟩ := World.of_test World.shut_packed
  obtain ⟨tr', ⟨m, md'⟩, h', -, hp'⟩ := World.of_test World.shut_opened
  simp only [Bool.and_eq_true, beq_iff_eq, Option.isNone_iff_eq_none, List.all_eq_true, Option.all_eq_true] at hp hp'
  obtain ⟨⟨⟨⟨⟨h1, h2⟩, h3⟩, h4⟩, h5⟩, -⟩ := hp
  rw [← h1] at h'
  obtain ⟨doc, kid, -, -, hr⟩ := C117_direct _ _ _ _ _ _ _ _ _ _ _ _ _ Toy.closed_lawful Toy.closed_exclusive
    (fun k hk => plainB_iff.1 (h3 k hk)) (fun k hk => plainB_iff.1 (h4 k hk)) h h2 (sameEnvelope_self h5) h'
  exact ⟨tr, _, tr', _, doc, kid, h, h', hp'.1, hr⟩

/-- Alice, whose secrets fit none of Bob's keys, cannot read what they have just encrypted, whatever options they choose. -/
example (uopts : UnpackOptions) (tr' : List Event) (r : Res (Message × UnpackMetadata)) (ha' : Answers World.aliceEnv tr')
    (h' : Runs (unpack Toy.closed World.shutText uopts) tr' r) : ∃ e, r = .error e := by
  obtain ⟨tr, ⟨out, md⟩, h, ha, hp⟩ := World.of_test World.shut_packed
  simp only [Bool.and_eq_true, beq_iff_eq, Option.isNone_iff_eq_none, List.all_eq_true, Option.all_eq_true] at hp
  obtain ⟨⟨⟨⟨⟨h1, h2⟩, h3⟩, h4⟩, h5⟩, h6⟩ := hp
  rw [← h1] at h'
  refine C117_outsider World.aliceEnv World.aliceEnv _ _ _ _ _ _ _ _ _ _ _ _ Toy.closed_lawful Toy.closed_exclusive
    (fun k hk => plainB_iff.1 (h3 k hk)) (fun k hk => plainB_iff.1 (h4 k hk)) ha h h2 (sameEnvelope_self h5) ?_ ha' h'
  rintro doc - kid hkid ⟨secret, vm, c, s, p, hsec, -⟩
  simp only [World.aliceEnv, World.envOf, h6 kid hkid] at hsec
  cases hsec

set_option maxRecDepth 1000000 in
theorem World.outer_packed : World.test World.aliceEnv (packEncrypted Toy.closed World.msg World.bob none none {})
    (fun x => x.1 == World.outerText && x.2.messagingService.isSome && x.2.fromKid.isNone && (fromJson dJwe x.1).isOk) = true := by decide +kernel

set_option maxRecDepth 1000000 in
theorem World.outer_opened : World.test World.env (unpack Toy.closed World.outerText {})
    (fun x => x.1.type_ == b!"t" && x.2.reWrappedInForward) = true := by decide +kernel

theorem World.plain_agreement {d : Str} {doc : DIDDoc} {tr : List Event} (ha : Answers World.aliceEnv tr) (h : evResolve d (some doc) ∈ tr) :
    ∀ kid ∈ doc.keyAgreement, Plain kid := by
  have := (ha _ h).symm
  simp only [World.aliceEnv, World.envOf, exampleResolve] at this
  have hm : doc ∈ [World.aliceDoc, World.bobDoc, World.mediatorDoc] := List.mem_of_find?_eq_some (Except.ok.inj this)
  have hall : ∀ doc ∈ [World.aliceDoc, World.bobDoc, World.mediatorDoc], ∀ kid ∈ doc.keyAgreement, plainB kid = true := by decide +kernel
  exact fun kid hk => plainB_iff.1 (hall doc hm kid hk)

/-- Who holds all secrets can read what Alice sends to Bob through the mediator, and has used secrets of both for that. -/
example : ∃ tr x tr' y k, Runs (packEncrypted Toy.closed World.msg World.bob none none {}) tr (.ok x) ∧
    Runs (unpack Toy.closed x.1 {}) tr' (.ok y) ∧ y.1.type_ = b!"t" ∧
    (∃ doc kid, ReadSecretFor Toy.closed Toy.closedPairs tr' k doc kid) ∧
    (∃ doc kid, ReadSecretFor Toy.closed Toy.closedPairs tr' World.bob doc kid) ∧
    ∀ k ∈ [World.mediator, b!"did:example:mediator#x1"], ∃ doc kid, ReadSecretFor Toy.closed Toy.closedPairs tr' k doc kid := by
  obtain ⟨tr, ⟨out, md⟩, h, ha, hp⟩ := World.of_test World.outer_packed
  obtain ⟨tr', ⟨m, md'⟩, h', ha', hp'⟩ := World.of_test World.outer_opened
  simp only [Bool.and_eq_true, beq_iff_eq, Option.isNone_iff_eq_none] at hp hp'
  obtain ⟨⟨⟨h1, h2⟩, h3⟩, h5⟩ := hp
  rw [← h1] at h'
  have hm : md.messagingService ≠ none := fun hn => by rw [hn] at h2; cases h2
  obtain ⟨_, _, _, _, k, _, doc, kid, -, -, -, -, hr⟩ := C117_forwarded _ _ _ _ _ _ _ _ _ _ _ _ _ Toy.closed_lawful Toy.closed_exclusive
    (fun _ _ => World.plain_agreement ha) h hm (sameEnvelope_self h5) h'
  refine ⟨tr, _, tr', _, k, h, h', hp'.1, ⟨doc, kid, hr⟩, ?_⟩
  have hh : HeadersOk Toy.closed.f64 none := World.headersOk_none
  rcases C117_through World.aliceEnv World.env World.msg m World.bob out out none none {} {} _ _ _ _ Toy.closed_lawful Toy.closed_exclusive World.uuid_utf8
    hh (by decide) World.wire_bob (fun k hk => by rw [h3] at hk; cases hk)
    (fun t chain ha h k hk => by
      rw [World.bob_route t chain ha h] at hk
      simp only [List.mem_cons, List.not_mem_nil, or_false] at hk
      rcases hk with rfl | rfl
      · exact ⟨World.wire_mediator, by decide⟩
      · exact ⟨World.wire_mediator, by decide⟩) ha h hm (sameEnvelope_self h5) ha' h' with ht | ⟨⟨doc, kid, -, -, hb⟩, chain, t, at_, ht, -, hall⟩
  · rw [hp'.1] at ht; cases ht
  · rw [World.bob_route t chain at_ ht] at hall
    exact ⟨⟨doc, kid, hb⟩, fun k hk => by obtain ⟨doc, kid, -, h⟩ := hall k hk; exact ⟨doc, kid, h⟩⟩

end DIDComm
