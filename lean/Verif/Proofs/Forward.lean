import Verif.Spec.Forwarding
import Verif.Proofs.Reparse
import Verif.Props.Routing
import Verif.Props.Termination
import Verif.Props.Traces

/-! # Forward messages on their way: proofs -/

set_option autoImplicit false

namespace DIDComm

variable {C : Crypto} {pairs : Curve → C.Key → C.Key → Prop}

/-! ## The forward message -/

theorem addHeaders_exact (b : MessageBuilder) (l : List (Str × Value))
    (h : ((b.extraHeaders ++ l).map Prod.fst).Nodup) :
    addHeaders b l = { b with extraHeaders := b.extraHeaders ++ l } := by
  induction l generalizing b with
  | nil => simp [addHeaders]
  | cons p r ih =>
    obtain ⟨k, v⟩ := p
    have hk : k ∉ b.extraHeaders.map Prod.fst := by
      simp only [List.map_append, List.map_cons, List.nodup_append] at h
      exact fun hm => h.2.2 k hm k (by simp) rfl
    simp only [addHeaders, MessageBuilder.header, hmInsert_new _ _ _ hk]
    rw [ih]
    · simp
    · simpa using h

theorem forwardMessage_exact (id : Str) (v : Value) (next : Str) (headers : Option (List (Str × Value)))
    (h : ((headers.getD []).map Prod.fst).Nodup) :
    forwardMessage id v next headers =
      { id := id, type_ := b!"https://didcomm.org/routing/2.0/forward", body := .obj [(b!"next", .str next)]
        extraHeaders := headers.getD [], attachments := some [{ data := .json v none }] } := by
  simp only [forwardMessage]
  rw [addHeaders_exact _ _ (by simpa [MessageBuilder.new] using h)]
  rfl

theorem forwardMessage_wf {id : Str} {v : Value} {next : Str} {headers : Option (List (Str × Value))}
    (hh : HeadersOk C.f64 headers) (hi : validUtf8 id = true) (hn : validUtf8 next = true) (hv : v.WF C.f64)
    (hd : v.depth < 124) : (forwardMessage id v next headers).WF C.f64 := by
  rw [forwardMessage_exact _ _ _ _ hh.nodup]
  refine ⟨hi, by rfl, by rfl, ?_, by simp [Value.depth, Value.depthM], by rintro s ⟨⟩, by rintro s ⟨⟩, by rintro s ⟨⟩,
    by rintro s ⟨⟩, by rintro s ⟨⟩, hh.values, hh.depth, hh.nodup, hh.reserved, ?_⟩
  · simp only [Value.WF, Value.WFM, SortedKeys]
    exact ⟨List.pairwise_singleton _ _, by decide, hn, trivial⟩
  · rintro l ⟨⟩ a ha
    simp only [List.mem_singleton] at ha
    subst ha
    exact ⟨⟨hv, hd, by rintro s ⟨⟩⟩, by rintro s ⟨⟩, by rintro s ⟨⟩, by rintro s ⟨⟩, by rintro s ⟨⟩, by rintro s ⟨⟩⟩

theorem forwardMessage_notEnvelope {id : Str} {v : Value} {next : Str} {headers : Option (List (Str × Value))}
    (hh : HeadersOk C.f64 headers) : NotEnvelope (forwardMessage id v next headers) := by
  rw [forwardMessage_exact _ _ _ _ hh.nodup]
  exact ⟨hh.notJwe, hh.notJws⟩

theorem UnpackMetadata.Fresh.inner {md : UnpackMetadata} (h : md.Fresh) : md.inner none none none none none = md := by
  obtain ⟨a1, a2, a3, a4, a5, a6⟩ := h
  cases md
  simp only at a1 a2 a3 a4 a5 a6
  subst a1; subst a2; subst a3; subst a4; subst a5; subst a6
  simp [UnpackMetadata.inner]

/-- A message without `from_prior` is read by everybody. -/
theorem reads_plain (E : Env) {m : Message} (hw : m.WF C.f64) (ht : m.typ = plaintextTyp) (hn : NotEnvelope m)
    (hf : m.fromPrior = none) : Reads C E m.toJson.print m id ∧ messageFromStr C m.toJson.print = .ok m := by
  have hp : Runs (packPlaintext C m) [] (.ok m.toJson.print) := by
    unfold packPlaintext
    rw [hf]
    exact runs_pure.2 ⟨rfl, rfl⟩
  obtain ⟨fp, k, h1, h2, h3, h4, h5⟩ := packPlain_gives (E' := E) (fun _ _ h => h) hw ht hn (answers_nil E) hp
  rcases h1 with ⟨-, rfl, rfl⟩ | ⟨jwt, _, _, _, _, h, -⟩
  · refine ⟨⟨h3, h5, fun md hmd => ?_⟩, h4⟩
    have := h2 md hmd
    rwa [hmd.inner] at this
  · rw [hf] at h; cases h

/-! ## Whose is it? -/

theorem hasKey_gives {E : Env} {who : Str} {kids found : List Str} (hk : KeysAt E who kids)
    (hf : E.findSecrets kids = .ok found) : Gives E (hasKeyAgreementSecret who) (.ok (!found.isEmpty)) := by
  unfold hasKeyAgreementSecret
  rcases hk with ⟨h1, rfl⟩ | ⟨h1, doc, h2, rfl⟩
  · have : didOrUrl who = ((didOrUrl who).1, some who) := by
      have := (didOrUrl_isSome who).2 h1
      unfold didOrUrl at this ⊢
      split at this <;> simp_all
    rw [this]
    simp only
    exact Gives.bind Gives.pure (Gives.bind (Gives.findSecrets hf) Gives.pure)
  · have : didOrUrl who = (who, none) := by
      have hs := mt (didOrUrl_isSome who).1 h1
      unfold didOrUrl at hs ⊢
      split at hs <;> simp_all
    rw [this]
    simp only
    exact Gives.bind (Gives.bind (Gives.resolve h2) (Gives.lift_bind (a := doc) rfl Gives.pure))
      (Gives.bind (Gives.findSecrets hf) Gives.pure)

theorem unwrap_gives {E : Env} {id : Str} {v : Value} {next p : Str} {headers : Option (List (Str × Value))} {b : Bool}
    (hp : messageFromStr C p = .ok (forwardMessage id v next headers))
    (hk : Gives E (hasKeyAgreementSecret next) (.ok b)) :
    Gives E (tryUnwrapForwarded C p) (.ok (if b then some v.print else none)) := by
  unfold tryUnwrapForwarded
  refine Gives.lift_bind (a := some _) (by rw [hp]; rfl) ?_
  simp only [C41_inverse]
  refine Gives.bind hk ?_
  cases b <;> exact Gives.pure

/-! ## One layer -/

/-- The layers of `wrap_in_forward`, from the outside. -/
theorem wrap_peel {headers : Option (List (Str × Value))} {alg : AnonCryptAlg} {to msg k : Str} {ks : List Str}
    {tr : List Event} {out : Str} (h : Runs (wrapInForward C msg headers to (k :: ks) alg) tr (.ok out)) :
    ∃ mid t1 t2 v r kids, ((ks = [] ∧ mid = msg) ∨ (ks ≠ [] ∧ Runs (wrapInForward C msg headers to ks alg) t1 (.ok mid))) ∧
      (∀ e ∈ t1 ++ t2, e ∈ tr) ∧ fromJson (toValue C.f64) mid = .ok v ∧
      Runs (anoncrypt C k (forwardMessage (C.uuid r) v (ks.head?.getD to) headers).toJson.print alg) t2 (.ok (out, kids)) := by
  have hone : ∀ next mid tr, Runs (wrapLoop C headers alg [(k, next)] mid) tr (.ok out) →
      ∃ v r t2 kids, (∀ e ∈ t2, e ∈ tr) ∧ fromJson (toValue C.f64) mid = .ok v ∧
        Runs (anoncrypt C k (forwardMessage (C.uuid r) v next headers).toJson.print alg) t2 (.ok (out, kids)) := by
    intro next mid tr h
    simp only [wrapLoop, buildForwardMessage, runs_ok] at h
    obtain ⟨f, u1, u2, rfl, ⟨v, hv, r, t, rfl, rfl, rfl⟩, o, kids, u3, u4, rfl, h2, rfl, rfl⟩ := h
    exact ⟨v, r, u3, kids, by intro e he; simp [he], hv, h2⟩
  unfold wrapInForward at h
  have hz : ((k :: ks).reverse.zip (ks ++ [to]).reverse) = ((k :: ks).zip (ks ++ [to])).reverse := reverse_zip (by simp)
  simp only [hz] at h
  cases ks with
  | nil =>
    obtain ⟨v, r, t2, kids, h1, h2, h3⟩ := hone to msg tr (by simpa using h)
    exact ⟨msg, [], t2, v, r, kids, .inl ⟨rfl, rfl⟩, by simpa using h1, h2, h3⟩
  | cons k2 ks =>
    simp only [List.cons_append, List.zip_cons_cons, List.reverse_cons] at h
    rw [wrapLoop_append] at h
    obtain ⟨mid, u1, u2, rfl, ha, hb⟩ := h
    obtain ⟨v, r, t2, kids, h1, h2, h3⟩ := hone _ _ _ hb
    refine ⟨mid, u1, t2, v, r, kids, .inr ⟨by simp, ?_⟩, ?_, h2, by simpa using h3⟩
    · unfold wrapInForward
      have hz : ((k2 :: ks).reverse.zip (ks ++ [to]).reverse) = ((k2 :: ks).zip (ks ++ [to])).reverse := reverse_zip (by simp)
      simp only [hz]
      simpa using ha
    · intro e he
      rcases List.mem_append.1 he with he | he
      · simp [he]
      · simp [h1 e he]

theorem anoncrypt_kids {E : Env} {to inner : Str} {alg : AnonCryptAlg} {tr : List Event} {out : Str}
    {toKids : List Str} (ha : Answers E tr) (h : Runs (anoncrypt C to inner alg) tr (.ok (out, toKids))) :
    ∃ doc, E.resolve (didOf to) = .ok (some doc) ∧ toKids ≠ [] ∧ ∀ k ∈ toKids, k ∈ meantBy to doc.keyAgreement := by
  obtain ⟨doc, kids, vms, curve, toKeys, tr', rfl, h1, h2, h3, h4, h5, rfl, h6⟩ := anoncrypt_ok.1 h
  simp only [answers_cons, didOrUrl_fst] at ha
  obtain ⟨rfl, -⟩ := agreementKids_ok.1 h1
  rw [methodsOf_ok] at h2
  refine ⟨doc, ha.1.symm, ?_, ?_⟩
  · obtain ⟨l1, vm, l2, rfl, hv, -⟩ := List.findSome?_eq_some_iff.1 h3
    simp [hv]
  · intro k hk
    obtain ⟨vm, hv, rfl⟩ := List.mem_map.1 hk
    exact (methods_mem h2 (List.mem_filter.1 hv).1).1

theorem OpensAny.opens {E E' : Env} {who inner : Str} {alg : AnonCryptAlg} {tr : List Event} {out : Str}
    {toKids : List Str} (ho : OpensAny C pairs E' E who) (ha : Answers E tr)
    (h : Runs (anoncrypt C who inner alg) tr (.ok (out, toKids))) : Opens C pairs E' E (didOf who) toKids := by
  obtain ⟨doc, h1, h2, h3⟩ := anoncrypt_kids ha h
  intro doc' hd
  rw [h1] at hd
  cases hd
  exact ho doc h1 _ h2 h3

/-- What holds of the payload of every layer. -/
theorem wrap_layers {headers : Option (List (Str × Value))} {alg : AnonCryptAlg} {to msg : Str} {E : Env} {payload : Value}
    (hh : HeadersOk C.f64 headers) (hu : ∀ r, validUtf8 (C.uuid r) = true) (hto : validUtf8 to = true)
    (hp : fromJson (toValue C.f64) msg = .ok payload) (hpw : payload.WF C.f64) (hpd : payload.depth < 124)
    -- `P ks t`: what is wanted of the text `t` for the keys `ks`
    (P : List Str → Str → Prop)
    (hstep : ∀ (k : Str) (ks : List Str) (v : Value) (id out : Str) (kids : List Str) (tr : List Event),
      (ks = [] ∧ v = payload ∨ ks ≠ [] ∧ P ks v.print) →
      (∀ M, Reads C M (forwardMessage id v (ks.head?.getD to) headers).toJson.print
        (forwardMessage id v (ks.head?.getD to) headers) _root_.id) →
      messageFromStr C (forwardMessage id v (ks.head?.getD to) headers).toJson.print =
        .ok (forwardMessage id v (ks.head?.getD to) headers) →
      WireParty E (didOf k) → Answers E tr →
      Runs (anoncrypt C k (forwardMessage id v (ks.head?.getD to) headers).toJson.print alg) tr (.ok (out, kids)) →
      ∃ j : JWE, out = j.toJson.print ∧ j.IsPlain ∧ ∀ t', jweFromStr t' = .ok j → P (k :: ks) t')
    (keys : List Str) (hk : ∀ k ∈ keys, WireParty E (didOf k) ∧ validUtf8 k = true) (tr : List Event) (out : Str)
    (ha : Answers E tr) (h : Runs (wrapInForward C msg headers to keys alg) tr (.ok out)) :
    ∃ j : JWE, out = j.toJson.print ∧ j.IsPlain ∧ ∀ t', jweFromStr t' = .ok j → P keys t' := by
  induction keys generalizing tr out with
  | nil => cases (runs_ret.1 h).2
  | cons k ks ih =>
    obtain ⟨mid, t1, t2, v, r, kids, h1, h2, h3, h4⟩ := wrap_peel h
    have hv : v.WF C.f64 ∧ v.depth < 124 ∧ (ks = [] ∧ v = payload ∨ ks ≠ [] ∧ P ks v.print) := by
      rcases h1 with ⟨rfl, rfl⟩ | ⟨hne, h1⟩
      · rw [hp] at h3
        cases h3
        exact ⟨hpw, hpd, .inl ⟨rfl, rfl⟩⟩
      · obtain ⟨j, rfl, hj, hg⟩ := ih (fun k hk' => hk k (by simp [hk'])) t1 mid
          (fun e he => ha e (h2 e (by simp [he]))) h1
        rw [jwe_reparse j hj] at h3
        cases h3
        exact ⟨j.sorted_wf hj, j.sorted_depth, .inr ⟨hne, hg _ (j.sorted_read hj)⟩⟩
    have hnext : validUtf8 (ks.head?.getD to) = true := by
      cases ks with
      | nil => exact hto
      | cons k' ks => exact (hk k' (by simp)).2
    have hw := forwardMessage_wf hh (hu r) hnext hv.1 hv.2.1
    have ht : (forwardMessage (C.uuid r) v (ks.head?.getD to) headers).typ = plaintextTyp := by
      rw [forwardMessage_exact _ _ _ _ hh.nodup]
    have hf : (forwardMessage (C.uuid r) v (ks.head?.getD to) headers).fromPrior = none := by
      rw [forwardMessage_exact _ _ _ _ hh.nodup]
    exact hstep k ks v _ out kids t2 hv.2.2 (fun M => (reads_plain M hw ht (forwardMessage_notEnvelope hh) hf).1)
      (reads_plain E hw ht (forwardMessage_notEnvelope hh) hf).2 (hk k (by simp)).1
      (fun e he => ha e (h2 e (by simp [he]))) h4

/-! ## The metadata of layers removed before -/

/-- The metadata `md` of unpacking a text, when layers with metadata `b` were removed before it. -/
def UnpackMetadata.under (md b : UnpackMetadata) : UnpackMetadata :=
  { encrypted := md.encrypted || b.encrypted
    authenticated := md.authenticated || b.authenticated
    nonRepudiation := md.nonRepudiation || b.nonRepudiation
    anonymousSender := md.anonymousSender || b.anonymousSender
    reWrappedInForward := md.reWrappedInForward || b.reWrappedInForward
    encryptedFromKid := md.encryptedFromKid.or b.encryptedFromKid
    encryptedToKids := bif md.anonymousSender then md.encryptedToKids else b.encryptedToKids.or md.encryptedToKids
    signFrom := md.signFrom.or b.signFrom
    fromPriorIssuerKid := md.fromPriorIssuerKid.or b.fromPriorIssuerKid
    encAlgAuth := md.encAlgAuth.or b.encAlgAuth
    encAlgAnon := md.encAlgAnon.or b.encAlgAnon
    signAlg := md.signAlg.or b.signAlg
    signedMessage := md.signedMessage.or b.signedMessage
    fromPrior := md.fromPrior.or b.fromPrior }

theorem under_empty (b : UnpackMetadata) : ({} : UnpackMetadata).under b = b := by
  cases b; simp [UnpackMetadata.under]

theorem under_anon (md b : UnpackMetadata) (kids : List Str) (alg : AnonCryptAlg) :
    (md.under b).anon kids alg = (md.anon kids alg).under b := by
  simp [UnpackMetadata.under, UnpackMetadata.anon]

theorem under_auth (md b : UnpackMetadata) (kids : List Str) (kid : Str) (alg : AuthCryptAlg) :
    (md.under b).auth kids kid alg = (md.auth kids kid alg).under b := by
  simp only [UnpackMetadata.under, UnpackMetadata.auth, Bool.true_or, Option.some_or]
  cases md.anonymousSender <;> cases md.encryptedToKids <;> cases b.encryptedToKids <;> rfl

theorem under_sign (md b : UnpackMetadata) (kid : Str) (alg : SignAlg) (t : Str) :
    (md.under b).sign kid (some alg) t = (md.sign kid (some alg) t).under b := by
  simp [UnpackMetadata.under, UnpackMetadata.sign]

theorem under_rewrapped (md b : UnpackMetadata) :
    ({ md.under b with reWrappedInForward := true } : UnpackMetadata) = ({ md with reWrappedInForward := true } : UnpackMetadata).under b := by
  simp [UnpackMetadata.under]

variable {t : Str} {opts : UnpackOptions} {md md' : UnpackMetadata} {tr : List Event}

theorem tryAnon_under {o : Option Str} (b : UnpackMetadata) (h : Runs (tryUnpackAnoncrypt C t opts md) tr (.ok (o, md'))) :
    Runs (tryUnpackAnoncrypt C t opts (md.under b)) tr (.ok (o, md'.under b)) := by
  rw [tryUnpackAnoncrypt_ok] at h ⊢
  rcases h with ⟨h1, rfl, h2⟩ | ⟨jwe, p, found, tr', alg, payload, h1, h2, h3, h4, h5, h6, h7, h8, h9, h10, rfl⟩
  · exact .inl ⟨h1, rfl, h2⟩
  · exact .inr ⟨jwe, p, found, tr', alg, payload, h1, h2, h3, h4, h5, h6, h7, h8, h9, h10, (under_anon _ _ _ _).symm⟩

theorem tryAuth_under {o : Option Str} (b : UnpackMetadata) (h : Runs (tryUnpackAuthcrypt C t opts md) tr (.ok (o, md'))) :
    Runs (tryUnpackAuthcrypt C t opts (md.under b)) tr (.ok (o, md'.under b)) := by
  rw [tryUnpackAuthcrypt_ok] at h ⊢
  rcases h with ⟨h1, rfl, h2⟩ | ⟨a1, a2, a3, a4, a5, a6, a7, a8, a9, a10, h1, h2, h3, h4, h5, h6, h7, h8, h9, h10, h11,
    h12, h13, h14, h15, h16, rfl⟩
  · exact .inl ⟨h1, rfl, h2⟩
  · exact .inr ⟨a1, a2, a3, a4, a5, a6, a7, a8, a9, a10, h1, h2, h3, h4, h5, h6, h7, h8, h9, h10, h11,
      h12, h13, h14, h15, h16, (under_auth _ _ _ _ _).symm⟩

theorem trySign_under {o : Option Str} (b : UnpackMetadata) (h : Runs (tryUnpackSign C t md) tr (.ok (o, md'))) :
    Runs (tryUnpackSign C t (md.under b)) tr (.ok (o, md'.under b)) := by
  rw [tryUnpackSign_ok] at h ⊢
  rcases h with ⟨h1, rfl, h2⟩ | ⟨a1, a2, a3, a4, a5, a6, a7, a8, h1, h2, h3, h4, h5, h6, h7, h8, h9, h10, h11,
    h12, h13, h14, rfl⟩
  · exact .inl ⟨h1, rfl, h2⟩
  · refine .inr ⟨a1, a2, a3, a4, a5, a6, a7, a8, h1, h2, h3, h4, h5, h6, h7, h8, h9, h10, h11,
      h12, h13, h14, ?_⟩
    cases ha : a3.alg with
    | other s => rw [ha] at h10; cases h10
    | _ => exact (under_sign _ _ _ _ _).symm

theorem tryPlain_under {o : Option Message} (b : UnpackMetadata) (h : Runs (tryUnpackPlaintext C t md) tr (.ok (o, md'))) :
    Runs (tryUnpackPlaintext C t (md.under b)) tr (.ok (o, md'.under b)) := by
  rw [tryUnpackPlaintext_ok] at h ⊢
  rcases h with ⟨h1, rfl, h2⟩ | ⟨m, h1, h2, h3, ⟨h4, h5, rfl⟩ | ⟨jwt, fp, kid, h4, h5, rfl⟩⟩
  · exact .inl ⟨h1, rfl, h2⟩
  · exact .inr ⟨m, h1, h2, h3, .inl ⟨h4, h5, rfl⟩⟩
  · exact .inr ⟨m, h1, h2, h3, .inr ⟨jwt, fp, kid, h4, h5, by simp [UnpackMetadata.under]⟩⟩

theorem unwrapLoop_under {u : Str} (b : UnpackMetadata) (n : Nat) (t : Str) (md : UnpackMetadata) (tr : List Event)
    (h : Runs (unwrapLoop C opts n t md) tr (.ok (u, md'))) :
    Runs (unwrapLoop C opts n t (md.under b)) tr (.ok (u, md'.under b)) := by
  induction n generalizing t md tr with
  | zero => cases (runs_ret.1 h).2
  | succ n ih =>
    unfold unwrapLoop at h ⊢
    rw [runs_bind_ok] at h ⊢
    obtain ⟨⟨anon, md1⟩, t1, t2, rfl, ha, h⟩ := h
    refine ⟨_, t1, t2, rfl, tryAnon_under b ha, ?_⟩
    cases anon with
    | none =>
      obtain ⟨h1, h2⟩ := runs_pure.1 h
      cases h2
      exact runs_pure.2 ⟨h1, rfl⟩
    | some p =>
      simp only at h ⊢
      split at h
      · rename_i hu
        rw [if_pos hu, runs_bind_ok]
        rw [runs_bind_ok] at h
        obtain ⟨f, t3, t4, rfl, hf, h⟩ := h
        refine ⟨f, t3, t4, rfl, hf, ?_⟩
        cases f with
        | none =>
          obtain ⟨h1, h2⟩ := runs_pure.1 h
          cases h2
          exact runs_pure.2 ⟨h1, rfl⟩
        | some i =>
          simp only at h ⊢
          rw [under_rewrapped]
          exact ih _ _ _ h
      · rename_i hu
        rw [if_neg hu]
        obtain ⟨h1, h2⟩ := runs_pure.1 h
        cases h2
        exact runs_pure.2 ⟨h1, rfl⟩

theorem afterAnon_under {m : Message} (b : UnpackMetadata) (h : Runs (afterAnon C opts t md) tr (.ok (m, md'))) :
    Runs (afterAnon C opts t (md.under b)) tr (.ok (m, md'.under b)) := by
  unfold afterAnon at h ⊢
  simp only [runs_bind_ok] at h ⊢
  obtain ⟨⟨a, m1⟩, t1, t2, rfl, h1, ⟨s, m2⟩, t3, t4, rfl, h2, ⟨p, m3⟩, t5, t6, rfl, h3, q, t7, t8, rfl, h4, h5⟩ := h
  obtain ⟨rfl, h5⟩ := runs_pure.1 h5
  cases h5
  exact ⟨_, t1, _, rfl, tryAuth_under b h1, _, t3, _, rfl, trySign_under b h2, _, t5, _, rfl, tryPlain_under b h3,
    _, t7, [], rfl, h4, runs_pure.2 ⟨rfl, rfl⟩⟩

/-! ## Runs of unpacking -/

theorem unpack_no_random {tr : List Event} {r : Res (Message × UnpackMetadata)} (h : Runs (unpack C t opts) tr r) :
    ∀ ev ∈ tr, ev.query ≠ .random := by
  intro ev he hq
  obtain ⟨pre, post, ht⟩ := List.append_of_mem he
  have := C32_unpack_asks t opts tr r h pre ev post ht
  rw [hq] at this
  cases this

theorem unpack_returns {E : Env} {tr : List Event} {x : Message × UnpackMetadata} (ha : Answers E tr)
    (h : Runs (unpack C t opts) tr (.ok x)) : Returns E (unpack C t opts) x :=
  (gives_of_run h ha (unpack_no_random h)).returns

theorem unpackWithin_eq (n : Nat) : unpackWithin C n t opts =
    (unwrapLoop C opts n t {} >>= fun x => afterAnon C opts x.1 x.2) := rfl

/-! ## What is printed -/

theorem anoncrypt_printed {E : Env} {to inner : Str} {alg : AnonCryptAlg} {tr : List Event} {out : Str} {toKids : List Str}
    (hwire : WireParty E (didOf to)) (ha : Answers E tr) (h : Runs (anoncrypt C to inner alg) tr (.ok (out, toKids))) :
    ∃ j : JWE, out = j.toJson.print ∧ j.IsPlain := by
  obtain ⟨doc, kids, vms, curve, toKeys, tr', rfl, g1, g2, g3, g4, g5, rfl, g6⟩ := anoncrypt_ok.1 h
  refine jwe_printed (fun k' hk' => ?_) g6
  rw [keysOf_fst g5] at hk'
  obtain ⟨vm, hvm, rfl⟩ := List.mem_map.1 hk'
  obtain ⟨rfl, -⟩ := agreementKids_ok.1 g1
  rw [methodsOf_ok] at g2
  simp only [answers_cons, didOrUrl_fst] at ha
  exact (hwire doc ha.1.symm _ (List.mem_append.2 (.inl (meantBy_mem (methods_mem g2 (List.mem_filter.1 hvm).1).1)))).2.2

theorem authcrypt_printed {E : Env} {to from_ inner : Str} {encAuth : AuthCryptAlg} {alg : AnonCryptAlg} {ps : Bool}
    {tr : List Event} {out fromKid : Str} {toKids : List Str} (hwire : WireParty E (didOf to))
    (ha : Answers E tr) (h : Runs (authcrypt C to from_ inner encAuth alg ps) tr (.ok (out, fromKid, toKids))) :
    ∃ j : JWE, out = j.toJson.print ∧ j.IsPlain := by
  obtain ⟨doc, fromDoc, fromKids, found, fromVms, kids, vms, fromVm, secret, curve, toKeys, sk, tr', rfl, h1, -, h2,
    h3, h4, h5, rfl, h6, h7, h8, rfl, h9, h10⟩ := authcrypt_ok.1 h
  simp only [answers_cons, didOrUrl_fst] at ha
  obtain ⟨rfl, -⟩ := agreementKids_ok.1 h3
  rw [methodsOf_ok] at h4
  have hw : ∀ k ∈ toKeys.map Prod.fst, Plain k := by
    intro k hk'
    rw [keysOf_fst h8] at hk'
    obtain ⟨vm, hv, rfl⟩ := List.mem_map.1 hk'
    exact (hwire doc ha.1.symm _ (List.mem_append.2 (.inl (meantBy_mem (methods_mem h4 (List.mem_filter.1 hv).1).1)))).2.2
  unfold authEncrypt at h10
  rw [runs_bind_ok] at h10
  obtain ⟨o1, t1, t2, rfl, e1, e2⟩ := h10
  cases ps with
  | false =>
    obtain ⟨rfl, e2⟩ := runs_pure.1 e2
    cases e2
    exact jwe_printed hw e1
  | true =>
    simp only [if_true] at e2
    exact jwe_printed hw e2

/-- Printing an envelope again does not change how it is unpacked. -/
theorem unpack_reprint (hd : NeverLonger C) (hf : PrintsFloats C) {j : JWE} (hj : j.IsPlain) {x : Message × UnpackMetadata}
    {tr : List Event} (h : Runs (unpack C j.toJson.print opts) tr (.ok x)) :
    Runs (unpack C j.sorted.print opts) tr (.ok x) := by
  have hread : jweFromStr j.sorted.print = jweFromStr j.toJson.print := (j.sorted_read hj).trans hj.read.symm
  obtain ⟨n, h1, h2⟩ : ∃ n, j.toJson.print.length + 1 ≤ n + 1 ∧ j.sorted.print.length + 1 ≤ n + 1 :=
    ⟨max j.toJson.print.length j.sorted.print.length, by omega, by omega⟩
  rw [← C25_no_limit hd hf _ _ _ h1, unpackWithin_eq] at h
  rw [← C25_no_limit hd hf _ _ _ h2, unpackWithin_eq]
  rw [runs_bind_ok] at h ⊢
  obtain ⟨⟨u, md⟩, t1, t2, rfl, h, h3⟩ := h
  unfold unwrapLoop at h ⊢
  rw [tryAnon_congr hread]
  simp only [runs_bind_ok] at h ⊢
  obtain ⟨⟨anon, md1⟩, u1, u2, rfl, ha, h⟩ := h
  cases anon with
  | some p => exact ⟨(u, md), u1 ++ u2, t2, rfl, ⟨_, u1, u2, rfl, ha, h⟩, h3⟩
  | none =>
    obtain ⟨rfl, h⟩ := runs_pure.1 h
    cases h
    refine ⟨(_, md1), u1 ++ [], t2, rfl, ⟨_, u1, [], rfl, ha, runs_pure.2 ⟨rfl, rfl⟩⟩, ?_⟩
    simp only at h3 ⊢
    rw [afterAnon_eq] at h3 ⊢
    rw [tryAuth_congr hread]
    rw [runs_bind_ok] at h3 ⊢
    obtain ⟨⟨auth, md2⟩, v1, v2, rfl, h3, h4⟩ := h3
    refine ⟨_, v1, v2, rfl, h3, ?_⟩
    cases auth with
    | some p => exact h4
    | none =>
      simp only [Option.getD_none] at h4
      exfalso
      rw [afterAuth_eq, trySign_not_jws (jwe_not_jws j)] at h4
      have h4 : Runs (afterSign C j.toJson.print md2) v2 (.ok x) := h4
      unfold afterSign at h4
      rw [runs_bind_ok] at h4
      obtain ⟨⟨o, md3⟩, w1, w2, rfl, h5, h6⟩ := h4
      rcases tryUnpackPlaintext_ok.1 h5 with ⟨rfl, -⟩ | ⟨m, -, h7, -⟩
      · simp only [runs_lift_bind_ok] at h6
        obtain ⟨m, h6, -⟩ := h6
        cases h6
      · have h7 : fromJson (dMessage C.f64) j.toJson.print = .ok m := h7
        rw [jwe_not_message] at h7
        cases h7

end DIDComm
