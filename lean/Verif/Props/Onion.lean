import Verif.Props.Forward
import Verif.Props.Secrecy
import Verif.Props.Fresh

/-!
# C103: what a forwarded message shows of the rest of its route
-/

set_option autoImplicit false

namespace DIDComm

variable {C : Crypto}

/-- The JSON text of a forward message for `next`, whatever it forwards and with whatever headers. -/
def ForwardText (next t : Str) : Prop :=
  ∃ m : Message, m.type_ = b!"https://didcomm.org/routing/2.0/forward" ∧ m.body = .obj [(b!"next", .str next)] ∧ t = m.toJson.print

/-! ## Layers with their draws -/

theorem forwardText (id : Str) (v : Value) (next : Str) (headers : Option (List (Str × Value))) :
    ForwardText next (forwardMessage id v next headers).toJson.print := by
  obtain ⟨x, hx, -⟩ := forwardMessage_fields id v next headers
  exact ⟨_, by rw [hx], by rw [hx], rfl⟩

/-- The outermost layer, with its place in the history. -/
theorem wrap_outer {headers : Option (List (Str × Value))} {alg : AnonCryptAlg} {to msg k : Str} {ks : List Str}
    {tr : List Event} {out : Str} (h : Runs (wrapInForward C msg headers to (k :: ks) alg) tr (.ok out)) :
    ∃ mid t1 n t2 v kids, tr = t1 ++ evRandom n :: t2 ∧
      (ks ≠ [] → Runs (wrapInForward C msg headers to ks alg) t1 (.ok mid)) ∧
      fromJson (toValue C.f64) mid = .ok v ∧
      Runs (anoncrypt C k (forwardMessage (C.uuid n) v (ks.head?.getD to) headers).toJson.print alg) t2 (.ok (out, kids)) := by
  have hone : ∀ next mid tr, Runs (wrapLoop C headers alg [(k, next)] mid) tr (.ok out) →
      ∃ n t2 v kids, tr = evRandom n :: t2 ∧ fromJson (toValue C.f64) mid = .ok v ∧
        Runs (anoncrypt C k (forwardMessage (C.uuid n) v next headers).toJson.print alg) t2 (.ok (out, kids)) := by
    intro next mid tr h
    simp only [wrapLoop, buildForwardMessage, runs_ok] at h
    obtain ⟨f, u1, u2, rfl, ⟨v, hv, r, t, rfl, rfl, rfl⟩, o, kids, u3, u4, rfl, h2, rfl, rfl⟩ := h
    exact ⟨r, u3, v, kids, by simp, hv, h2⟩
  unfold wrapInForward at h
  have hz : ((k :: ks).reverse.zip (ks ++ [to]).reverse) = ((k :: ks).zip (ks ++ [to])).reverse := reverse_zip (by simp)
  simp only [hz] at h
  cases ks with
  | nil =>
    obtain ⟨n, t2, v, kids, h1, h2, h3⟩ := hone to msg tr (by simpa using h)
    exact ⟨msg, [], n, t2, v, kids, h1, by simp, h2, h3⟩
  | cons k2 ks =>
    simp only [List.cons_append, List.zip_cons_cons, List.reverse_cons] at h
    rw [wrapLoop_append] at h
    obtain ⟨mid, u1, u2, rfl, ha, hb⟩ := h
    obtain ⟨n, t2, v, kids, rfl, h2, h3⟩ := hone _ _ _ hb
    refine ⟨mid, u1, n, t2, v, kids, rfl, fun _ => ?_, h2, by simpa using h3⟩
    unfold wrapInForward
    have hz : ((k2 :: ks).reverse.zip (ks ++ [to]).reverse) = ((k2 :: ks).zip (ks ++ [to])).reverse := reverse_zip (by simp)
    simp only [hz]
    simpa using ha

theorem anoncrypt_draws {to : Str} {msg : Bytes} {alg : AnonCryptAlg} {tr : List Event} {x : Str × List Str}
    (h : Runs (anoncrypt C to msg alg) tr (.ok x)) : ∃ a b c, draws tr = [a, b, c] := by
  obtain ⟨out, kids⟩ := x
  obtain ⟨doc, _, vms, curve, toKeys, tr', rfl, -, -, -, -, -, -, h⟩ := anoncrypt_ok.1 h
  obtain ⟨a, b, c, _, _, _, _, _, _, rfl, -⟩ := jweEncrypt_ok.1 h
  exact ⟨a, b, c, rfl⟩

/-- Two encryptions for the same key, from the same draws, of two texts that content encryption does not tell apart under the
content key made from the first draw. -/
theorem anoncrypt_same {E E' : Env} {to : Str} {p p' : Bytes} {alg : AnonCryptAlg} {t t' : List Event} {out out' : Str}
    {kids kids' : List Str} {n : Nat} {l : List Nat}
    (h : Runs (anoncrypt C to p alg) t (.ok (out, kids))) (h' : Runs (anoncrypt C to p' alg) t' (.ok (out', kids')))
    (ha : Answers E t) (ha' : Answers E' t') (hE : E.resolve (didOf to) = E'.resolve (didOf to))
    (hd : draws t = n :: l) (hd' : draws t' = n :: l)
    (hs : ∀ cek, C.genCek alg.ce n = some cek → ∀ iv aad, C.aeadEnc alg.ce cek iv aad p = C.aeadEnc alg.ce cek iv aad p') :
    out = out' := by
  obtain ⟨doc, _, vms, curve, toKeys, tr, rfl, h1, h2, h3, -, h5, -, h6⟩ := anoncrypt_ok.1 h
  obtain ⟨doc', _, vms', curve', toKeys', tr', rfl, k1, k2, k3, -, k5, -, k6⟩ := anoncrypt_ok.1 h'
  simp only [answers_cons, didOrUrl_fst] at ha ha'
  have hdoc : doc = doc' := by
    have x : (.ok (some doc) : Except ErrorKind _) = E.resolve (didOf to) := ha.1
    have y : (.ok (some doc') : Except ErrorKind _) = E'.resolve (didOf to) := ha'.1
    rw [← hE, ← x] at y
    cases y
    rfl
  subst hdoc
  rw [h1] at k1
  cases k1
  rw [h2] at k2
  cases k2
  rw [h3] at k3
  cases k3
  rw [h5] at k5
  cases k5
  obtain ⟨r1, r2, r3, cek, epk, jwk, ct, tag, rs, rfl, g1, g2, g3, g4, g5, rfl⟩ := jweEncrypt_ok.1 h6
  obtain ⟨q1, q2, q3, cek', epk', jwk', ct', tag', rs', rfl, f1, f2, f3, f4, f5, rfl⟩ := jweEncrypt_ok.1 k6
  simp only [draws_resolve, draws_random, draws_nil, List.cons.injEq] at hd hd'
  obtain ⟨rfl, rfl⟩ := hd
  obtain ⟨rfl, hd'⟩ := hd'
  simp only [List.cons.injEq, and_true] at hd'
  obtain ⟨rfl, rfl⟩ := hd'
  rw [g1] at f1
  cases f1
  rw [g2] at f2
  cases f2
  rw [g3] at f3
  cases f3
  rw [← hs _ g1, g4] at f4
  cases f4
  rw [g5] at f5
  cases f5
  rfl

/-! ## C103 -/

/-- C103: two messages are wrapped, for two recipients, along two routes that agree up to the key `k`; the two sides may have different
resolvers, as long as these agree on the keys up to `k`, and different headers if nobody comes before `k`.  The draws made for the envelope of `k` and for all around it (`n`, from which
its content key is made, and those after) are the same.  If content encryption, under that content key, does not tell the two forward
messages inside of it apart, the two results are the same, byte for byte.  So neither an observer nor a mediator before `k` can see
anything of the message, of the recipient, of the rest of the route or of its length. -/
theorem C103_wrapped (E E' : Env) (msg msg' to to' : Str) (headers headers' : Option (List (Str × Value))) (alg : AnonCryptAlg)
    (pre : List Str) (k : Str) (ks ks' : List Str) (tr tr' : List Event) (out out' : Str) (n : Nat) (before before' after : List Nat)
    (h : Runs (wrapInForward C msg headers to (pre ++ k :: ks) alg) tr (.ok out))
    (h' : Runs (wrapInForward C msg' headers' to' (pre ++ k :: ks') alg) tr' (.ok out'))
    (hh : pre ≠ [] → headers = headers')
    (ha : Answers E tr) (ha' : Answers E' tr') (hE : ∀ p ∈ pre ++ [k], E.resolve (didOf p) = E'.resolve (didOf p))
    (hd : draws tr = before ++ n :: after) (hd' : draws tr' = before' ++ n :: after) (hl : after.length = 4 * pre.length + 2)
    (hsame : ∀ text text' cek, ForwardText (ks.head?.getD to) text → ForwardText (ks'.head?.getD to') text' →
      C.genCek alg.ce n = some cek → ∀ iv aad, C.aeadEnc alg.ce cek iv aad text = C.aeadEnc alg.ce cek iv aad text') :
    out = out' := by
  induction pre generalizing tr tr' out out' after with
  | nil =>
    obtain ⟨mid, t1, r, t2, v, kids, rfl, -, -, h⟩ := wrap_outer h
    obtain ⟨mid', t1', r', t2', v', kids', rfl, -, -, h'⟩ := wrap_outer h'
    obtain ⟨a, b, c, e⟩ := anoncrypt_draws h
    obtain ⟨a', b', c', e'⟩ := anoncrypt_draws h'
    simp only [answers_append, answers_cons] at ha ha'
    simp only [draws_append, draws_random] at hd hd'
    have x : draws t2 = n :: after := (List.append_inj' (s₁ := draws t1 ++ [r]) (by simpa using hd) (by simp [e] at hl ⊢; omega)).2
    have x' : draws t2' = n :: after := (List.append_inj' (s₁ := draws t1' ++ [r']) (by simpa using hd') (by simp [e'] at hl ⊢; omega)).2
    exact anoncrypt_same h h' ha.2.2 ha'.2.2 (hE k (by simp)) x x'
      (fun cek hc => hsame _ _ cek (forwardText _ _ _ _) (forwardText _ _ _ _) hc)
  | cons p pre ih =>
    obtain rfl := hh (by simp)
    obtain ⟨mid, t1, r, t2, v, kids, rfl, hi, hv, h⟩ := wrap_outer h
    obtain ⟨mid', t1', r', t2', v', kids', rfl, hi', hv', h'⟩ := wrap_outer h'
    obtain ⟨a, b, c, e⟩ := anoncrypt_draws h
    obtain ⟨a', b', c', e'⟩ := anoncrypt_draws h'
    simp only [answers_append, answers_cons] at ha ha'
    simp only [draws_append, draws_random, e] at hd
    simp only [draws_append, draws_random, e'] at hd'
    simp only [List.length_cons] at hl
    obtain ⟨after1, last, rfl, hlast⟩ : ∃ u w, after = u ++ w ∧ w.length = 4 :=
      ⟨after.take (after.length - 4), after.drop (after.length - 4), (List.take_append_drop _ _).symm, by simp; omega⟩
    have x := List.append_inj' (s₁ := draws t1) (s₂ := before ++ n :: after1) (t₁ := [r, a, b, c]) (t₂ := last)
      (by simpa using hd) (by simp [hlast])
    have x' := List.append_inj' (s₁ := draws t1') (s₂ := before' ++ n :: after1) (t₁ := [r', a', b', c']) (t₂ := last)
      (by simpa using hd') (by simp [hlast])
    have y := x.2.trans x'.2.symm
    simp only [List.cons.injEq, and_true] at y
    obtain ⟨rfl, rfl, rfl, rfl⟩ := y
    obtain rfl := ih t1 t1' mid mid' after1 (hi (by simp)) (hi' (by simp)) (fun _ => rfl) ha.1 ha'.1
      (fun q hq => hE q (List.mem_cons_of_mem _ hq)) x.1 x'.1 (by simp at hl; omega)
    rw [hv] at hv'
    cases hv'
    have hn : (pre.append (k :: ks)).head?.getD to = (pre.append (k :: ks')).head?.getD to' := by cases pre <;> rfl
    rw [hn] at h
    exact anoncrypt_same h h' ha.2.2 ha'.2.2 (hE p (by simp)) e e' (fun _ _ _ _ => rfl)

/-- C103: the same of two packed messages: also the senders, signers, content, sender protection and algorithm of sender encryption may
be different. -/
theorem C103_packed (E E' : Env) (m m' : Message) (to to' : Str) (from_ from' signBy signBy' : Option Str)
    (opts opts' : PackEncryptedOptions) (pre : List Str) (k : Str) (ks ks' : List Str) (tr tr' : List Event) (out out' : Str)
    (md md' : PackEncryptedMetadata) (n : Nat) (before before' after : List Nat)
    (h : Runs (packEncrypted C m to from_ signBy opts) tr (.ok (out, md)))
    (h' : Runs (packEncrypted C m' to' from' signBy' opts') tr' (.ok (out', md')))
    (hw : md.messagingService ≠ none) (hw' : md'.messagingService ≠ none)
    (ha : Answers E tr) (ha' : Answers E' tr') (hE : ∀ p ∈ pre ++ [k], E.resolve (didOf p) = E'.resolve (didOf p))
    (hr : ∀ t chain, Answers E t → Runs (servicesChain to opts.messagingService) t (.ok chain) → routeOf chain = pre ++ k :: ks)
    (hr' : ∀ t chain, Answers E' t → Runs (servicesChain to' opts'.messagingService) t (.ok chain) → routeOf chain = pre ++ k :: ks')
    (hh : pre ≠ [] → opts.forwardHeaders = opts'.forwardHeaders) (hg : opts.encAlgAnon = opts'.encAlgAnon)
    (hd : draws tr = before ++ n :: after) (hd' : draws tr' = before' ++ n :: after) (hl : after.length = 4 * pre.length + 2)
    (hsame : ∀ text text' cek, ForwardText (ks.head?.getD to) text → ForwardText (ks'.head?.getD to') text' →
      C.genCek opts.encAlgAnon.ce n = some cek →
      ∀ iv aad, C.aeadEnc opts.encAlgAnon.ce cek iv aad text = C.aeadEnc opts.encAlgAnon.ce cek iv aad text') :
    out = out' := by
  have key : ∀ {E : Env} {m : Message} {to : Str} {from_ signBy : Option Str} {opts : PackEncryptedOptions} {tr : List Event}
      {out : Str} {md : PackEncryptedMetadata} {ks : List Str} {before : List Nat},
      Runs (packEncrypted C m to from_ signBy opts) tr (.ok (out, md)) → md.messagingService ≠ none → Answers E tr →
      (∀ t chain, Answers E t → Runs (servicesChain to opts.messagingService) t (.ok chain) → routeOf chain = pre ++ k :: ks) →
      draws tr = before ++ n :: after →
      ∃ msg t b, Answers E t ∧ Runs (wrapInForward C msg opts.forwardHeaders to (pre ++ k :: ks) opts.encAlgAnon) t (.ok out) ∧
        draws t = b ++ n :: after := by
    intro E m to from_ signBy opts tr out md ks before h hw ha hr hd
    obtain ⟨t1, t2, t3, inner, sk, env, fk, tk, w, rfl, -, -, -, h3, hmd⟩ := packEncrypted_ok.1 h
    rcases hmd with ⟨-, -, rfl⟩ | ⟨svc, rfl, rfl⟩
    · exact absurd rfl hw
    unfold wrapInForwardIfNeeded at h3
    split at h3
    · obtain ⟨-, h3⟩ := runs_pure.1 h3; cases h3
    rw [runs_bind_ok] at h3
    obtain ⟨chain, u1, u2, rfl, hc, h3⟩ := h3
    simp only [answers_append] at ha
    have hrt := hr u1 chain ha.2.1 hc
    have hlen : chain.length ≤ 2 := by
      rcases C37_chain _ _ _ _ hc with ⟨_, -, ⟨k, h⟩ | ⟨_, -, -, h⟩ | ⟨_, s, -, -, h, hd⟩⟩ | ⟨_, s, _, -, -, -, ⟨k, h⟩ | ⟨_, s', -, -, h, hd⟩⟩
      all_goals cases h
      all_goals simp
    rw [chainRoutingKeys_eq hlen, hrt] at h3
    split at h3
    rotate_left
    · obtain ⟨-, h3⟩ := runs_pure.1 h3; cases h3
    dsimp only at h3
    split at h3
    · obtain ⟨-, h3⟩ := runs_pure.1 h3; cases h3
    rw [runs_bind_ok] at h3
    obtain ⟨o, u3, u4, rfl, h3, h5⟩ := h3
    obtain ⟨rfl, h5⟩ := runs_pure.1 h5
    cases h5
    rw [answers_append] at ha
    simp only [draws_append, draws_nil, List.append_nil, servicesChain_draws hc, List.nil_append] at hd
    obtain ⟨ls, hls, hmade, hdr, -⟩ := wrapInForward_layers h3
    have hlong : after.length + 1 ≤ (draws u3).length := by
      have : ∀ ls : List Layer, (∀ l ∈ ls, l.Made C ∧ l.id.isSome) → (ls.flatMap Layer.uses).length = 4 * ls.length := by
        intro ls
        induction ls with
        | nil => intro _; rfl
        | cons l ls ih =>
          intro hm
          have := ih (fun x hx => hm x (by simp [hx]))
          have hi := (hm l (by simp)).2
          rw [List.flatMap_cons, List.length_append, this]
          cases hid : l.id with
          | none => rw [hid] at hi; cases hi
          | some i => simp [Layer.uses, hid]; omega
      rw [hdr, this ls hmade, hls]
      simp
      omega
    refine ⟨env, u3, (draws u3).take ((draws u3).length - (after.length + 1)), ha.2.2.1, h3, ?_⟩
    have e := List.append_inj' (s₁ := (draws t1 ++ draws t2) ++ (draws u3).take ((draws u3).length - (after.length + 1)))
      (t₁ := (draws u3).drop ((draws u3).length - (after.length + 1))) (s₂ := before) (t₂ := n :: after)
      (by rw [List.append_assoc, List.take_append_drop]; exact hd) (by simp; omega)
    rw [← e.2, List.take_append_drop]
  obtain ⟨msg, t, b, a1, a2, a3⟩ := key h hw ha hr hd
  obtain ⟨msg', t', b', b1, b2, b3⟩ := key h' hw' ha' hr' hd'
  rw [← hg] at b2
  exact C103_wrapped E E' msg msg' to to' _ _ _ pre k ks ks' t t' out out' n b b' after a2 b2 hh a1 b1 hE a3 b3 hl hsame

/-- Toy primitives with content encryption that hides everything, even the length, under the content key made from draw `n`. -/
def World.veiled (n : Nat) : Crypto :=
  { Toy.crypto with aeadEnc := fun ce k iv aad pt =>
      if k = Toy.ceByte ce :: decimal n then some ([], Toy.ceByte ce :: (k ++ iv ++ aad)) else Toy.crypto.aeadEnc ce k iv aad pt }

theorem World.veiled_same (n : Nat) (ce : ContentEnc) (text text' cek : Bytes) (h : (World.veiled n).genCek ce n = some cek) (iv aad : Bytes) :
    (World.veiled n).aeadEnc ce cek iv aad text = (World.veiled n).aeadEnc ce cek iv aad text' := by
  cases h
  simp [World.veiled]

/-- Evaluate a program with draws that start from `s`. -/
theorem World.of_run_from {α : Type} {E : Env} {p : Prog α} (s : Nat) {P : List Event → α → Bool}
    (h : (match (p.run E (· + s)).2 with | .ok x => P (p.run E (· + s)).1 x | .error _ => false) = true) :
    ∃ tr x, Runs p tr (.ok x) ∧ Answers E tr ∧ P tr x = true := by
  have hs := Prog.run_spec E (· + s) p
  split at h
  · rename_i x hx; rw [hx] at hs; exact ⟨_, x, hs.1, hs.2, h⟩
  · cases h

set_option maxRecDepth 100000 in
/-- C103's hypotheses for wrapping are met by routes of two and of three keys, with the mediator and Bob in common, for different
recipients and with a cipher that hides nothing from the mediator but what is encrypted for Bob. -/
example : ∃ tr tr' out out',
    Runs (wrapInForward (World.veiled 5) b!"{}" none World.alice ([World.mediator] ++ World.bob :: []) .xc20pEcdhEsA256kw) tr (.ok out) ∧
    Runs (wrapInForward (World.veiled 5) b!"[1]" none b!"did:x:y" ([World.mediator] ++ World.bob :: [World.alice]) .xc20pEcdhEsA256kw) tr' (.ok out') ∧
    Answers World.env tr ∧ Answers World.env tr' ∧
    draws tr = [4] ++ 5 :: [6, 7, 8, 9, 10, 11] ∧ draws tr' = [0, 1, 2, 3, 4] ++ 5 :: [6, 7, 8, 9, 10, 11] ∧
    out = out' := by
  obtain ⟨tr, out, r1, a1, p1⟩ := World.of_run_from (E := World.env) (p := wrapInForward (World.veiled 5) b!"{}" none World.alice ([World.mediator] ++ World.bob :: []) .xc20pEcdhEsA256kw) 4 (P := fun tr _ => decide (draws tr = [4] ++ 5 :: [6, 7, 8, 9, 10, 11])) (by decide +kernel)
  obtain ⟨tr', out', r2, a2, p2⟩ := World.of_run_from (E := World.env) (p := wrapInForward (World.veiled 5) b!"[1]" none b!"did:x:y" ([World.mediator] ++ World.bob :: [World.alice]) .xc20pEcdhEsA256kw) 0 (P := fun tr _ => decide (draws tr = [0, 1, 2, 3, 4] ++ 5 :: [6, 7, 8, 9, 10, 11])) (by decide +kernel)
  have p1 := of_decide_eq_true p1
  have p2 := of_decide_eq_true p2
  exact ⟨tr, tr', out, out', r1, r2, a1, a2, p1, p2, C103_wrapped World.env World.env _ _ _ _ _ _ _ [World.mediator] World.bob [] [World.alice] tr tr' out out' 5 _ _ _
    r1 r2 (fun _ => rfl) a1 a2 (fun _ _ => rfl) p1 p2 rfl (fun text text' cek _ _ hc => World.veiled_same 5 _ text text' cek hc)⟩

/-- Dave: as Bob behind the mediator, but with no routing keys of their own. -/
def World.daveDoc : DIDDoc :=
  { World.bobDoc with
    id := b!"did:example:dave"
    service := [⟨b!"did:example:dave#svc", .didCommMessaging ⟨World.mediator, none, []⟩⟩] }

/-- An agent that knows only Dave and the mediator. -/
def World.daveEnv : Env := World.envOf [World.daveDoc, World.mediatorDoc] []

set_option maxRecDepth 100000 in
/-- C103's hypotheses for packing are met by Alice's signed message to Bob and an anonymous message to Dave, packed by someone with other
resolvers. -/
example : ∃ tr tr' out out' md md',
    Runs (packEncrypted (World.veiled 8) World.msg World.bob (some World.alice) (some World.alice) {}) tr (.ok (out, md)) ∧
    Runs (packEncrypted (World.veiled 8) { id := [], type_ := [], body := .null } b!"did:example:dave" none none {}) tr' (.ok (out', md')) ∧
    Answers World.env tr ∧ Answers World.daveEnv tr' ∧ md.messagingService ≠ none ∧ md'.messagingService ≠ none ∧
    draws tr = [0, 1, 2, 3, 4, 5, 6, 7] ++ 8 :: [9, 10] ∧ draws tr' = [4, 5, 6, 7] ++ 8 :: [9, 10] ∧ out = out' := by
  obtain ⟨tr, ⟨out, md⟩, r1, a1, p1⟩ := World.of_run_from (E := World.env) (p := packEncrypted (World.veiled 8) World.msg World.bob (some World.alice) (some World.alice) {}) 0 (P := fun tr x => decide (draws tr = [0, 1, 2, 3, 4, 5, 6, 7] ++ 8 :: [9, 10] ∧ x.2.messagingService ≠ none)) (by decide +kernel)
  obtain ⟨tr', ⟨out', md'⟩, r2, a2, p2⟩ := World.of_run_from (E := World.daveEnv) (p := packEncrypted (World.veiled 8) { id := [], type_ := [], body := .null } b!"did:example:dave" none none {}) 4 (P := fun tr x => decide (draws tr = [4, 5, 6, 7] ++ 8 :: [9, 10] ∧ x.2.messagingService ≠ none)) (by decide +kernel)
  have p1 := of_decide_eq_true p1
  have p2 := of_decide_eq_true p2
  have route : ∀ (E : Env) (to : Str) (ks : List Str), World.test E (servicesChain to none) (fun c => decide (routeOf c = ks)) = true →
      ∀ t chain, Answers E t → Runs (servicesChain to none) t (.ok chain) → routeOf chain = ks := by
    intro E to ks ht t chain ha hc
    obtain ⟨t', c', h1, h2, h3⟩ := World.of_test ht
    have := (runs_det (a := []) (b := []) hc h1 ha h2 (by rw [servicesChain_draws hc, servicesChain_draws h1])).2.1
    cases this
    exact of_decide_eq_true h3
  exact ⟨tr, tr', out, out', md, md', r1, r2, a1, a2, p1.2, p2.2, p1.1, p2.1,
    C103_packed World.env World.daveEnv _ _ _ _ _ _ _ _ {} {} [] World.mediator [b!"did:example:mediator#x1"] [] tr tr' out out' md md' 8 _ _ _
      r1 r2 p1.2 p2.2 a1 a2 (by intro p hp; simp at hp; subst hp; rfl) (route _ _ _ (by decide +kernel)) (route _ _ _ (by decide +kernel)) (fun _ => rfl) rfl p1.1 p2.1 rfl
      (fun text text' cek _ _ hc => World.veiled_same 8 _ text text' cek hc)⟩

end DIDComm
