import Verif.Proofs.Forward
import Verif.Proofs.WorldParties

/-! # Forwarding, from the receivers' side: C08, C09 -/

set_option autoImplicit false

namespace DIDComm

variable {C : Crypto} {pairs : Curve → C.Key → C.Key → Prop}

/-! ## C08: mediators -/

/-- C08: a message wrapped for any routing keys travels along them: each holder of a key (`Ms k`) unpacks what
it gets to a forward message, finds in it the next key and the text for its holder; the last one finds the
recipient and the original payload.  A mediator must not itself own the next key, or must have switched the
unwrapping of forwards off. -/
theorem C08_each_hop (E : Env) (Ms : Str → Env) (mopts : Str → UnpackOptions) (msg : Str) (payload : Value)
    (headers : Option (List (Str × Value))) (to : Str) (keys : List Str) (alg : AnonCryptAlg) (tr : List Event) (out : Str)
    (law : C.Lawful pairs) (hu : ∀ r, validUtf8 (C.uuid r) = true) (hh : HeadersOk C.f64 headers)
    (hp : fromJson (toValue C.f64) msg = .ok payload) (hpw : payload.WF C.f64) (hpd : payload.depth < 124)
    (hto : validUtf8 to = true)
    (hk : ∀ k ∈ keys, WireParty E (didOf k) ∧ validUtf8 k = true ∧ OpensAny C pairs (Ms k) E k)
    (hm : ∀ pre k post, keys = pre ++ k :: post → (mopts k).unwrapReWrappingForward = true →
      NotMine (Ms k) (post.head?.getD to))
    (ha : Answers E tr) (h : Runs (wrapInForward C msg headers to keys alg) tr (.ok out)) :
    Travels C headers alg Ms mopts to payload keys out := by
  suffices hs : ∃ j : JWE, out = j.toJson.print ∧ j.IsPlain ∧ ∀ t', jweFromStr t' = .ok j →
      (∃ pre, keys = pre ++ keys) → Travels C headers alg Ms mopts to payload keys t' by
    obtain ⟨j, rfl, hj, hg⟩ := hs
    exact hg _ hj.read ⟨[], rfl⟩
  refine wrap_layers hh hu hto hp hpw hpd
    (fun ks t => (∃ pre, keys = pre ++ ks) → Travels C headers alg Ms mopts to payload ks t) ?_ keys
    (fun k hk' => ⟨(hk k hk').1, (hk k hk').2.1⟩) tr out ha h
  intro k ks v id out kids tr hv hr hmsg hwire ha h
  by_cases hpre : ∃ pre, keys = pre ++ k :: ks
  · obtain ⟨pre, hpre⟩ := hpre
    have hmem : k ∈ keys := by rw [hpre]; simp
    obtain ⟨j, rfl, hj, hg⟩ := anoncrypt_lands law hwire ((hk k hmem).2.2.opens ha h) (mopts k) (hr (Ms k))
      (fun ho => by
        obtain ⟨ks', h1, h2⟩ := hm pre k ks hpre ho
        exact unwrap_gives hmsg (hasKey_gives h1 h2)) ha h
    refine ⟨j, rfl, hj, fun t' ht _ => ?_⟩
    have hop : Hop C headers alg (Ms k) (mopts k) t' (ks.head?.getD to) v := by
      refine ⟨_, kids, (hg t' ht).unpack.returns, ?_⟩
      rw [forwardMessage_exact _ _ _ _ hh.nodup]
      exact ⟨rfl, rfl, rfl, rfl⟩
    cases ks with
    | nil =>
      rcases hv with ⟨-, rfl⟩ | ⟨h, -⟩
      · exact hop
      · exact absurd rfl h
    | cons k' ks =>
      rcases hv with ⟨h, -⟩ | ⟨-, hv⟩
      · cases h
      · exact ⟨v, hop, hv ⟨pre ++ [k], by simp [hpre]⟩⟩
  · obtain ⟨j, rfl, hj⟩ := anoncrypt_printed hwire ha h
    exact ⟨j, rfl, hj, fun _ _ h => absurd h hpre⟩

/-- C08: end to end.  What `pack_encrypted` returns for a recipient behind mediators travels along the routing keys
found in the services, and what the last mediator finds for the recipient is unpacked by everybody to the same
message, with the same metadata, as the envelope that `pack_encrypted` returns without forwarding. -/
theorem C08_end_to_end (E : Env) (Ms : Str → Env) (mopts : Str → UnpackOptions) (m : Message) (to : Str)
    (from_ signBy : Option Str) (opts : PackEncryptedOptions) (tr : List Event) (out : Str) (md : PackEncryptedMetadata)
    (law : C.Lawful pairs) (hu : ∀ r, validUtf8 (C.uuid r) = true) (hnl : NeverLonger C) (hpf : PrintsFloats C)
    (hh : HeadersOk C.f64 opts.forwardHeaders) (hto : validUtf8 to = true) (hwto : WireParty E (didOf to))
    (hk : ∀ t chain, Answers E t → Runs (servicesChain to opts.messagingService) t (.ok chain) →
      (∀ k ∈ routeOf chain, WireParty E (didOf k) ∧ validUtf8 k = true ∧ OpensAny C pairs (Ms k) E k) ∧
      (∀ pre k post, routeOf chain = pre ++ k :: post → (mopts k).unwrapReWrappingForward = true →
        NotMine (Ms k) (post.head?.getD to)))
    (ha : Answers E tr) (h : Runs (packEncrypted C m to from_ signBy opts) tr (.ok (out, md)))
    (hsvc : md.messagingService ≠ none) :
    ∃ (env : Str) (v : Value) (t0 t : List Event) (chain : List (Str × DIDCommMessagingService)),
      Answers E t0 ∧ Runs (packEncrypted C m to from_ signBy { opts with forward := false }) t0
        (.ok (env, { md with messagingService := none })) ∧
      Answers E t ∧ Runs (servicesChain to opts.messagingService) t (.ok chain) ∧
      Travels C opts.forwardHeaders opts.encAlgAnon Ms mopts to v (routeOf chain) out ∧
      ∀ (E' : Env) (uopts : UnpackOptions) (x : Message × UnpackMetadata),
        Returns E' (unpack C env uopts) x → Returns E' (unpack C v.print uopts) x := by
  obtain ⟨t1, t2, t3, inner, sk, env, fk, tk, w, rfl, h0, h1, h2, h3, hmd⟩ := packEncrypted_ok.1 h
  rcases hmd with ⟨-, -, rfl⟩ | ⟨svc, rfl, rfl⟩
  · exact absurd rfl hsvc
  simp only [answers_append] at ha
  obtain ⟨j, rfl, hj⟩ : ∃ j : JWE, env = j.toJson.print ∧ j.IsPlain := by
    rcases packCrypt_ok.1 h2 with ⟨-, -, q⟩ | ⟨f, k, -, -, q⟩
    · exact anoncrypt_printed hwto ha.1.2 q
    · exact authcrypt_printed hwto ha.1.2 q
  unfold wrapInForwardIfNeeded at h3
  split at h3
  · obtain ⟨-, h3⟩ := runs_pure.1 h3; cases h3
  rw [runs_bind_ok] at h3
  obtain ⟨chain, u1, u2, rfl, hc, h3⟩ := h3
  rw [answers_append] at ha
  obtain ⟨hk1, hk2⟩ := hk u1 chain ha.2.1 hc
  have hlen : chain.length ≤ 2 := by
    rcases C37_chain _ _ _ _ hc with ⟨_, -, ⟨k, h⟩ | ⟨_, -, -, h⟩ | ⟨_, s, -, -, h, hd⟩⟩ | ⟨_, s, _, -, -, -, ⟨k, h⟩ | ⟨_, s', -, -, h, hd⟩⟩
    all_goals cases h
    all_goals simp
  rw [chainRoutingKeys_eq hlen] at h3
  refine ⟨j.toJson.print, j.sorted, t1 ++ t2 ++ [], u1, chain, ?_, ?_, ha.2.1, hc, ?_, ?_⟩
  · simp only [answers_append]; exact ⟨⟨ha.1.1, ha.1.2⟩, answers_nil _⟩
  · refine packEncrypted_ok.2 ⟨t1, t2, [], inner, sk, _, fk, tk, none, rfl, h0, h1, h2, ?_, .inl ⟨rfl, rfl, rfl⟩⟩
    unfold wrapInForwardIfNeeded
    rw [if_pos rfl]
    exact runs_pure.2 ⟨rfl, rfl⟩
  · split at h3
    · dsimp only at h3
      split at h3
      · obtain ⟨-, h3⟩ := runs_pure.1 h3; cases h3
      · rw [runs_bind_ok] at h3
        obtain ⟨fwd, v1, v2, rfl, hw, h4⟩ := h3
        obtain ⟨rfl, h4⟩ := runs_pure.1 h4
        cases h4
        rw [answers_append] at ha
        exact C08_each_hop E Ms mopts _ j.sorted _ to _ _ v1 _ law hu hh (jwe_reparse j hj) (j.sorted_wf hj) j.sorted_depth
          hto hk1 hk2 ha.2.2.1 hw
    · obtain ⟨-, h3⟩ := runs_pure.1 h3; cases h3
  · rintro E' uopts x ⟨⟨t, ht, hr⟩, -⟩
    exact unpack_returns ht (unpack_reprint hnl hpf hj hr)

/-! ## C09: re-wrapped messages -/

/-- The metadata of a message that came in forward layers for its receiver, given the metadata `md0` of the
message without them, and the recipient keys and algorithm of the innermost forward layer. -/
def reWrapped (md0 : UnpackMetadata) (kids : List Str) (alg : AnonCryptAlg) : UnpackMetadata :=
  { md0 with
    encrypted := true
    anonymousSender := true
    reWrappedInForward := true
    encryptedToKids := if md0.anonymousSender then md0.encryptedToKids else some kids
    encAlgAnon := if md0.encAlgAnon.isSome then md0.encAlgAnon else some alg }

theorem under_layer (md0 md : UnpackMetadata) (kids : List Str) (alg : AnonCryptAlg) (h : md = {}) :
    md0.under { md.anon kids alg with reWrappedInForward := true } = reWrapped md0 kids alg := by
  subst h
  cases md0
  simp only [UnpackMetadata.under, UnpackMetadata.anon, reWrapped, Bool.or_true, Bool.or_false, Option.or_none,
    Option.some_or, UnpackMetadata.mk.injEq, true_and, and_true]
  refine ⟨?_, ?_⟩
  · rename_i a _ _ _ _ _ _ _ _ _ _; cases a <;> rfl
  · rename_i _ _ _ _ _ _ _ a _ _ _; cases a <;> rfl

/-- C09: a payload that the receiver unpacks to `m` with metadata `md0` is, when wrapped in forwards for any
number of keys all of which the receiver owns, unpacked to the same `m`, and reported as re-wrapped.  The rest of
the metadata is that of the payload, except that the innermost forward layer counts as an anonymous
encryption of the message. -/
theorem C09_unwrapped (E E' : Env) (msg : Str) (payload : Value) (headers : Option (List (Str × Value))) (to : Str)
    (keys : List Str) (alg : AnonCryptAlg) (tr : List Event) (out : Str) (uopts : UnpackOptions) (m : Message)
    (md0 : UnpackMetadata)
    (law : C.Lawful pairs) (hu : ∀ r, validUtf8 (C.uuid r) = true) (hnl : NeverLonger C) (hpf : PrintsFloats C)
    (hh : HeadersOk C.f64 headers)
    (hp : fromJson (toValue C.f64) msg = .ok payload) (hpw : payload.WF C.f64) (hpd : payload.depth < 124)
    (hto : validUtf8 to = true)
    (hk : ∀ k ∈ keys, WireParty E (didOf k) ∧ validUtf8 k = true ∧ OpensAny C pairs E' E k)
    (hm : ∀ k ∈ keys.drop 1 ++ [to], Mine E' k) (ho : uopts.unwrapReWrappingForward = true)
    (hm0 : Returns E' (unpack C payload.print uopts) (m, md0))
    (ha : Answers E tr) (h : Runs (wrapInForward C msg headers to keys alg) tr (.ok out)) :
    ∃ kids last doc, keys.getLast? = some last ∧ E.resolve (didOf last) = .ok (some doc) ∧ kids ≠ [] ∧
      (∀ k ∈ kids, k ∈ meantBy last doc.keyAgreement) ∧
      Returns E' (unpack C out uopts) (m, reWrapped md0 kids alg) := by
  suffices hs : ∃ j : JWE, out = j.toJson.print ∧ j.IsPlain ∧ ∀ t', jweFromStr t' = .ok j → (∃ pre, keys = pre ++ keys) →
      ∃ kids last doc, keys.getLast? = some last ∧ E.resolve (didOf last) = .ok (some doc) ∧ kids ≠ [] ∧
        (∀ k ∈ kids, k ∈ meantBy last doc.keyAgreement) ∧
        ∀ md : UnpackMetadata, ∃ N, ∀ n, N ≤ n → ∃ tr, Answers E' tr ∧
          Runs (unwrapLoop C uopts n t' md >>= fun x => afterAnon C uopts x.1 x.2) tr
            (.ok (m, md0.under { md.anon kids alg with reWrappedInForward := true })) by
    obtain ⟨j, rfl, hj, hg⟩ := hs
    obtain ⟨kids, last, doc, h1, h2, h3, h4, hg⟩ := hg _ hj.read ⟨[], rfl⟩
    refine ⟨kids, last, doc, h1, h2, h3, h4, ?_⟩
    obtain ⟨N, hg⟩ := hg {}
    obtain ⟨t, ht, hr⟩ := hg (max N (j.toJson.print.length + 1)) (by omega)
    rw [← unpackWithin_eq, C25_no_limit hnl hpf _ _ _ (by omega), under_layer _ _ _ _ rfl] at hr
    exact unpack_returns ht hr
  refine wrap_layers hh hu hto hp hpw hpd
    (fun ks t' => (∃ pre, keys = pre ++ ks) →
      ∃ kids last doc, ks.getLast? = some last ∧ E.resolve (didOf last) = .ok (some doc) ∧ kids ≠ [] ∧
        (∀ k ∈ kids, k ∈ meantBy last doc.keyAgreement) ∧
        ∀ md : UnpackMetadata, ∃ N, ∀ n, N ≤ n → ∃ tr, Answers E' tr ∧
          Runs (unwrapLoop C uopts n t' md >>= fun x => afterAnon C uopts x.1 x.2) tr
            (.ok (m, md0.under { md.anon kids alg with reWrappedInForward := true })))
    ?_ keys (fun k hk' => ⟨(hk k hk').1, (hk k hk').2.1⟩) tr out ha h
  intro k ks v id out kids tr hv hr hmsg hwire ha h
  by_cases hpre : ∃ pre, keys = pre ++ k :: ks
  rotate_left
  · obtain ⟨j, rfl, hj⟩ := anoncrypt_printed hwire ha h
    exact ⟨j, rfl, hj, fun _ _ h => absurd h hpre⟩
  obtain ⟨pre, hpre⟩ := hpre
  have hmem : k ∈ keys := by rw [hpre]; simp
  obtain ⟨j, rfl, hj, hg⟩ := anoncrypt_opens law hwire ((hk k hmem).2.2.opens ha h) (hr E').2.1 ha h
  refine ⟨j, rfl, hj, fun t' ht _ => ?_⟩
  have hnext : Mine E' (ks.head?.getD to) := by
    apply hm
    rw [hpre]
    cases ks with
    | nil => simp
    | cons k' ks => cases pre <;> simp
  obtain ⟨ks', found, n1, n2, n3⟩ := hnext
  have hunw : Gives E' (tryUnwrapForwarded C (forwardMessage id v (ks.head?.getD to) headers).toJson.print) (.ok (some v.print)) := by
    have hb : (!found.isEmpty) = true := by cases found <;> simp_all
    have := unwrap_gives hmsg (hasKey_gives n1 n2)
    rwa [hb] at this
  -- one turn of the loop
  have turn : ∀ (md : UnpackMetadata) n, ∀ tr2 x, Answers E' tr2 →
      Runs (unwrapLoop C uopts n v.print { md.anon kids alg with reWrappedInForward := true } >>=
        fun x => afterAnon C uopts x.1 x.2) tr2 (.ok x) →
      ∃ tr, Answers E' tr ∧ Runs (unwrapLoop C uopts (n + 1) t' md >>= fun x => afterAnon C uopts x.1 x.2) tr (.ok x) := by
    intro md n tr2 x ha2 h2
    obtain ⟨u1, a1, r1⟩ := (hg t' ht uopts md).run
    obtain ⟨u2, a2, r2⟩ := hunw.run
    rw [runs_bind_ok] at h2
    obtain ⟨y, w1, w2, rfl, h3, h4⟩ := h2
    rw [answers_append] at ha2
    refine ⟨(u1 ++ (u2 ++ w1)) ++ w2, by simp only [answers_append]; exact ⟨⟨a1, a2, ha2.1⟩, ha2.2⟩, ?_⟩
    rw [runs_bind_ok]
    refine ⟨y, _, w2, rfl, ?_, h4⟩
    unfold unwrapLoop
    rw [runs_bind_ok]
    refine ⟨_, u1, _, rfl, r1, ?_⟩
    simp only [ho, if_true]
    rw [runs_bind_ok]
    exact ⟨_, u2, w1, rfl, r2, h3⟩
  rcases hv with ⟨rfl, rfl⟩ | ⟨hne, hv⟩
  · -- the innermost layer
    obtain ⟨doc, d1, d2, d3⟩ := anoncrypt_kids ha h
    refine ⟨kids, k, doc, rfl, d1, d2, d3, fun md => ⟨v.print.length + 2, fun n hn => ?_⟩⟩
    obtain ⟨⟨t0, a0, r0⟩, -⟩ := hm0
    obtain ⟨n, rfl⟩ : ∃ n', n = n' + 1 := ⟨n - 1, by omega⟩
    rw [unpack_eq, runs_bind_ok] at r0
    obtain ⟨⟨u, md1⟩, w1, w2, rfl, r1, r2⟩ := r0
    refine turn md n (w1 ++ w2) _ a0 ?_
    rw [runs_bind_ok]
    refine ⟨(u, md1.under { md.anon kids alg with reWrappedInForward := true }), w1, w2, rfl, ?_, afterAnon_under _ r2⟩
    rw [← unwrapLoop_no_limit hnl hpf _ _ _ n (by omega)] at r1
    have := unwrapLoop_under { md.anon kids alg with reWrappedInForward := true } n _ _ _ r1
    rwa [under_empty] at this
  · obtain ⟨kids', last, doc, d1, d2, d3, d4, hv⟩ := hv ⟨pre ++ [k], by simp [hpre]⟩
    have hl : (k :: ks).getLast? = some last := by
      rw [List.getLast?_cons, d1]; rfl
    refine ⟨kids', last, doc, hl, d2, d3, d4, fun md => ?_⟩
    obtain ⟨N, hv⟩ := hv { md.anon kids alg with reWrappedInForward := true }
    refine ⟨N + 1, fun n hn => ?_⟩
    obtain ⟨n, rfl⟩ : ∃ n', n = n' + 1 := ⟨n - 1, by omega⟩
    obtain ⟨t2, a2, r2⟩ := hv n (by omega)
    exact turn md n t2 _ a2 r2

/-- C09: with the option off the same receiver gets the outermost forward message, addressed to the next key. -/
theorem C09_option_off (E E' : Env) (msg : Str) (payload : Value) (headers : Option (List (Str × Value))) (to k : Str)
    (ks : List Str) (alg : AnonCryptAlg) (tr : List Event) (out : Str) (uopts : UnpackOptions)
    (law : C.Lawful pairs) (hu : ∀ r, validUtf8 (C.uuid r) = true) (hh : HeadersOk C.f64 headers)
    (hp : fromJson (toValue C.f64) msg = .ok payload) (hpw : payload.WF C.f64) (hpd : payload.depth < 124)
    (hto : validUtf8 to = true)
    (hk : ∀ k' ∈ k :: ks, WireParty E (didOf k') ∧ validUtf8 k' = true ∧ OpensAny C pairs E' E k')
    (ho : uopts.unwrapReWrappingForward = false)
    (ha : Answers E tr) (h : Runs (wrapInForward C msg headers to (k :: ks) alg) tr (.ok out)) :
    ∃ v, Hop C headers alg E' uopts out (ks.head?.getD to) v := by
  have := C08_each_hop E (fun _ => E') (fun _ => uopts) msg payload headers to (k :: ks) alg tr out law hu hh hp hpw hpd hto hk
    (fun _ _ _ _ h => by rw [ho] at h; cases h) ha h
  cases ks with
  | nil => exact ⟨payload, this⟩
  | cons k' ks =>
    obtain ⟨v, hv, -⟩ := this
    exact ⟨v, hv⟩

/-! ## The hypotheses can be met -/

namespace World

theorem uuid_utf8 (r : Nat) : validUtf8 (Toy.crypto.uuid r) = true := (decimal_ascii r).valid

theorem headersOk_none : HeadersOk Toy.crypto.f64 none where
  nodup := List.nodup_nil
  values := by simp [Value.WFM]
  depth := by decide
  reserved := by intro k h; cases h
  notJwe := ⟨b!"protected", by simp, by simp⟩
  notJws := ⟨b!"payload", by simp, by simp⟩

theorem wire_mediator : WireParty aliceEnv mediator := by
  intro doc h
  cases h
  decide +kernel

/-- The holder of all secrets in `ss` opens what is encrypted for any of the keys of the document. -/
theorem opens_any {docs : List DIDDoc} {ss : List Secret} {E : Env} {who : Str} {doc : DIDDoc}
    (hd : E.resolve (didOf who) = .ok (some doc))
    (all : ∀ k ∈ meantBy who doc.keyAgreement, fits ss doc k = true ∧ (ss.find? (fun s => s.id == k)).isSome = true) :
    OpensAny Toy.crypto Toy.pairs (envOf docs ss) E who := by
  intro doc' h kids hne hk
  rw [hd] at h
  cases h
  refine ⟨kids, ?_, hne, fun k hk' => ⟨hk', holds_of_fits (all k (hk k hk')).1 (all k (hk k hk')).2⟩⟩
  change Except.ok (exampleFindSecrets _ kids) = _
  congr 1
  unfold exampleFindSecrets
  rw [List.filter_eq_self]
  exact fun k hk' => (all k (hk k hk')).2

set_option maxRecDepth 100000 in
theorem mediator_opens : OpensAny Toy.crypto Toy.pairs mediatorEnv aliceEnv mediator ∧
    OpensAny Toy.crypto Toy.pairs mediatorEnv aliceEnv b!"did:example:mediator#x1" :=
  ⟨opens_any (doc := mediatorDoc) rfl (by decide +kernel), opens_any (doc := mediatorDoc) rfl (by decide +kernel)⟩

/-- The services on the way to Bob, as everybody finds them. -/
theorem bob_route (t : List Event) (chain : List (Str × DIDCommMessagingService)) (ha : Answers aliceEnv t)
    (h : Runs (servicesChain bob none) t (.ok chain)) : routeOf chain = [mediator, b!"did:example:mediator#x1"] := by
  have hs := Prog.run_spec aliceEnv id (servicesChain bob none)
  have hr : ∀ ev ∈ ((servicesChain bob none).run aliceEnv id).1, ev.query ≠ .random := by decide +kernel
  have := gives_of_run hs.1 hs.2 hr t _ ha h
  have ht : test aliceEnv (servicesChain bob none)
      (fun c => decide (routeOf c = [mediator, b!"did:example:mediator#x1"])) = true := by decide +kernel
  unfold test at ht
  rw [← this] at ht
  exact of_decide_eq_true ht

end World

set_option maxRecDepth 100000 in
/-- Alice's message to Bob travels through both layers at the mediator. -/
example : ∃ env v t0 out, Travels Toy.crypto none .xc20pEcdhEsA256kw (fun _ => World.mediatorEnv)
      (fun _ => { unwrapReWrappingForward := false }) World.bob v [World.mediator, b!"did:example:mediator#x1"] out ∧
    (∃ md, Runs (packEncrypted Toy.crypto World.msg World.bob (some World.alice) none { forward := false }) t0
      (.ok (env, md))) ∧
    ∀ (E' : Env) (uopts : UnpackOptions) (x : Message × UnpackMetadata),
      Returns E' (unpack Toy.crypto env uopts) x → Returns E' (unpack Toy.crypto v.print uopts) x := by
  obtain ⟨tr, ⟨out, md⟩, h, ha, hk⟩ := World.of_test (E := World.aliceEnv)
    (p := packEncrypted Toy.crypto World.msg World.bob (some World.alice) none {})
    (P := fun x => decide (x.2.messagingService ≠ none)) (by decide +kernel)
  obtain ⟨env, v, t0, t, chain, h1, h2, h3, h4, h5, h6⟩ := C08_end_to_end World.aliceEnv (fun _ => World.mediatorEnv)
    (fun _ => { unwrapReWrappingForward := false }) World.msg World.bob (some World.alice) none {} tr out md Toy.lawful
    World.uuid_utf8 World.neverLonger World.printsFloats World.headersOk_none (by decide) World.wire_bob
    (fun t chain ha h => by
      rw [World.bob_route t chain ha h]
      refine ⟨fun k hk => ?_, fun _ _ _ _ h => by cases h⟩
      simp only [List.mem_cons, List.not_mem_nil, or_false] at hk
      rcases hk with rfl | rfl
      · exact ⟨World.wire_mediator, by decide, World.mediator_opens.1⟩
      · exact ⟨World.wire_mediator, by decide, World.mediator_opens.2⟩)
    ha h (of_decide_eq_true hk)
  rw [World.bob_route t chain h3 h4] at h5
  exact ⟨env, v, t0, out, h5, ⟨_, h2⟩, h6⟩

namespace World

/-- A plaintext message. -/
def note : Value := .obj [(b!"body", .obj []), (b!"id", .str b!"1"), (b!"type", .str b!"t")]

theorem note_wf : note.WF Toy.crypto.f64 := by
  simp only [note, Value.WF, Value.WFM, SortedKeys, strLt]
  exact ⟨by decide, by decide, ⟨List.Pairwise.nil, trivial⟩, by decide, by decide, by decide, by decide, trivial⟩

def bobKeys : List Str := [b!"did:example:bob#x1", b!"did:example:bob#p1", bob]

set_option maxRecDepth 100000 in
theorem bob_opens_any : ∀ k ∈ bobKeys, WireParty aliceEnv (didOf k) ∧ validUtf8 k = true ∧
    OpensAny Toy.crypto Toy.pairs bobEnv aliceEnv k := by
  intro k hk
  have : didOf k = bob ∧ validUtf8 k = true ∧ ∀ k' ∈ meantBy k bobDoc.keyAgreement,
      fits ((secrets.drop 5).take 3) bobDoc k' = true ∧
      (((secrets.drop 5).take 3).find? (fun s => s.id == k')).isSome = true := by
    revert k; decide +kernel
  refine ⟨by rw [this.1]; exact wire_bob, this.2.1, opens_any (doc := bobDoc) (by rw [this.1]; rfl) this.2.2⟩

theorem bob_mine : ∀ k ∈ [b!"did:example:bob#p1", bob, bob], Mine bobEnv k := by
  intro k hk
  simp only [List.mem_cons, List.not_mem_nil, or_false] at hk
  rcases hk with rfl | rfl | rfl
  · exact ⟨[b!"did:example:bob#p1"], _, .inl ⟨by decide, rfl⟩, rfl, by decide +kernel⟩
  · exact ⟨bobDoc.keyAgreement, _, .inr ⟨by decide, bobDoc, rfl, rfl⟩, rfl, by decide +kernel⟩
  · exact ⟨bobDoc.keyAgreement, _, .inr ⟨by decide, bobDoc, rfl, rfl⟩, rfl, by decide +kernel⟩

set_option maxRecDepth 1000000 in
/-- Three forward layers. -/
theorem wrapped : ∃ tr out, Runs (wrapInForward Toy.crypto note.print none bob bobKeys .a256gcmEcdhEsA256kw) tr (.ok out) ∧
    Answers aliceEnv tr := by
  obtain ⟨tr, out, h, ha, -⟩ := of_test (E := aliceEnv)
    (p := wrapInForward Toy.crypto note.print none bob bobKeys .a256gcmEcdhEsA256kw) (P := fun _ => true) (by decide +kernel)
  exact ⟨tr, out, h, ha⟩

end World

set_option maxRecDepth 100000 in
/-- Bob unpacks a message in three forward layers for Bob's own keys; without the option Bob gets the outermost one. -/
example : ∃ out m kids v, m.id = b!"1" ∧
    Returns World.bobEnv (unpack Toy.crypto out {}) (m, {
      encrypted := true, anonymousSender := true, reWrappedInForward := true, encryptedToKids := some kids,
      encAlgAnon := some .a256gcmEcdhEsA256kw }) ∧
    Hop Toy.crypto none .a256gcmEcdhEsA256kw World.bobEnv { unwrapReWrappingForward := false } out b!"did:example:bob#p1" v := by
  obtain ⟨tr, out, h, ha⟩ := World.wrapped
  have hp : fromJson (toValue Toy.crypto.f64) World.note.print = .ok World.note :=
    C56_round_trip _ World.note_wf (by decide)
  obtain ⟨tr0, ⟨m, md0⟩, h0, ha0, hk⟩ := World.of_test (E := World.bobEnv) (p := unpack Toy.crypto World.note.print {})
    (P := fun x => decide (x.1.id = b!"1") && x.2 == {}) (by decide +kernel)
  simp only [Bool.and_eq_true, decide_eq_true_eq] at hk
  obtain ⟨k1, k2⟩ := hk
  obtain ⟨v, hv⟩ := C09_option_off World.aliceEnv World.bobEnv _ World.note none World.bob _ _ _ tr out
    { unwrapReWrappingForward := false } Toy.lawful World.uuid_utf8 World.headersOk_none hp World.note_wf (by decide) (by decide)
    World.bob_opens_any rfl ha h
  obtain ⟨kids, last, doc, -, -, -, -, hr⟩ := C09_unwrapped World.aliceEnv World.bobEnv _ World.note none World.bob
    World.bobKeys _ tr out {} m md0 Toy.lawful World.uuid_utf8 World.neverLonger World.printsFloats World.headersOk_none hp
    World.note_wf (by decide) (by decide) World.bob_opens_any World.bob_mine rfl (unpack_returns ha0 h0) ha h
  rw [eq_of_beq k2] at hr
  exact ⟨out, m, kids, v, k1, hr, hv⟩

end DIDComm
