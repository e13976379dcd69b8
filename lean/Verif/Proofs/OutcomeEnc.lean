import Verif.Proofs.Outcome
import Verif.Props.Routing
import Verif.Props.Validation

/-! # Outcomes of encryption and forwarding -/

set_option autoImplicit false

namespace DIDComm

variable {C : Crypto} {E : Env} {α β : Type}

/-! ## The envelope as JSON value -/

theorem recipient_value' {f64 : Str → Option Str} (r : JweRecipient) (h1 : validUtf8 r.kid = true) (h2 : validUtf8 r.encryptedKey = true)
    (n : Nat) (hn : 2 < n) : toValue f64 n r.toJson.tree = some r.sorted := by
  obtain ⟨n, rfl⟩ : ∃ m, n = m + 3 := ⟨n - 3, by omega⟩
  have k1 : (strTokOf b!"header").val = some b!"header" := by decide
  have k2 : (strTokOf b!"encrypted_key").val = some b!"encrypted_key" := by decide
  have k3 : (strTokOf b!"kid").val = some b!"kid" := by decide
  simp [JweRecipient.toJson, JweRecipient.sorted, Value.tree, Value.treeMembers, toValue, toMembers, k1, k2, k3,
    strTokOf_val h1, strTokOf_val h2, btInsert]
  decide

theorem wrapAll_recipients {kdf : Kdf} {curve : Curve} {epk : C.Key} {skey : Option C.Key} {alg apu apv tag cek : Bytes}
    {rcps : List (Str × C.Key)} {rs : List JweRecipient} (h : wrapAll C kdf curve epk skey alg apu apv tag cek rcps = .ok rs) :
    ∀ r ∈ rs, r.kid ∈ rcps.map Prod.fst ∧ ∃ b, r.encryptedKey = B64.encode b := by
  induction rcps generalizing rs with
  | nil => cases h; simp
  | cons p l ih =>
    obtain ⟨kid, key⟩ := p
    simp only [wrapAll, res_bind_ok, okOr_eq_ok, Except.ok.injEq] at h
    obtain ⟨kw, _, ek, _, l', h, rfl⟩ := h
    intro r hr
    rcases List.mem_cons.1 hr with rfl | hr
    · exact ⟨by simp, _, rfl⟩
    · obtain ⟨h1, h2⟩ := ih h r hr
      exact ⟨by simp only [List.map_cons, List.mem_cons]; exact .inr h1, h2⟩

theorem wrapAll_error {kdf : Kdf} {curve : Curve} {epk : C.Key} {skey : Option C.Key} {alg apu apv tag cek : Bytes}
    {rcps : List (Str × C.Key)} {e : Err} {agrees : C.Key → C.Key → Option Bytes → Prop}
    (hag : ∀ k, ∃ x, agrees epk k x ∧ deriveKey C kdf curve epk skey k alg apu apv tag false = okOr .invalidState x)
    (h : wrapAll C kdf curve epk skey alg apu apv tag cek rcps = .error e) :
    e = .kind .invalidState ∧ ∃ k ∈ rcps.map Prod.snd, agrees epk k none ∨ ∃ kw, agrees epk k (some kw) ∧ C.wrap kw cek = none := by
  induction rcps with
  | nil => cases h
  | cons p l ih =>
    obtain ⟨kid, key⟩ := p
    simp only [wrapAll] at h
    obtain ⟨x, hx, hd⟩ := hag key
    rw [hd] at h
    cases x with
    | none =>
      cases h
      exact ⟨rfl, key, by simp, .inl hx⟩
    | some kw =>
      rcases res_bind_error.1 h with h' | ⟨kw', h1, h'⟩
      · cases h'
      · cases h1
        rcases res_bind_error.1 h' with h2 | ⟨ek, _, h2⟩
        · obtain ⟨h3, rfl⟩ := okOr_eq_error.1 h2
          exact ⟨rfl, key, by simp, .inr ⟨kw, hx, h3⟩⟩
        · rcases res_bind_error.1 h2 with h3 | ⟨_, _, h3⟩
          · obtain ⟨he, k, hk, h4⟩ := ih h3
            exact ⟨he, k, by simp only [List.map_cons, List.mem_cons]; exact .inr hk, h4⟩
          · cases h3

/-- The text of an envelope is JSON if the key ids are text. -/
def IsJson (C : Crypto) (s : Str) : Prop := ∃ v, fromJson (toValue C.f64) s = .ok v

theorem jweText_json (j : JWE) (h1 : validUtf8 j.protected_ = true) (h2 : validUtf8 j.iv = true) (h3 : validUtf8 j.ciphertext = true)
    (h4 : validUtf8 j.tag = true) (h5 : ∀ r ∈ j.recipients, validUtf8 r.kid = true ∧ validUtf8 r.encryptedKey = true) :
    IsJson C j.toJson.print := by
  refine ⟨j.sorted, fromJson_print j.numsOk ?_⟩
  have k1 : (strTokOf b!"protected").val = some b!"protected" := by decide
  have k2 : (strTokOf b!"recipients").val = some b!"recipients" := by decide
  have k3 : (strTokOf b!"iv").val = some b!"iv" := by decide
  have k4 : (strTokOf b!"ciphertext").val = some b!"ciphertext" := by decide
  have k5 : (strTokOf b!"tag").val = some b!"tag" := by decide
  have hr := toValues_map (f64 := C.f64) JweRecipient.toJson JweRecipient.sorted 126 j.recipients
    (fun r hr => recipient_value' r (h5 r hr).1 (h5 r hr).2 _ (by decide))
  simp [JWE.toJson, JWE.sorted, Value.tree, Value.treeMembers, toValue, toMembers, k1, k2, k3, k4, k5,
    strTokOf_val h1, strTokOf_val h2, strTokOf_val h3, strTokOf_val h4, depthLimit, hr]
  rfl

theorem jweEncrypted {ce : ContentEnc} {kdf : Kdf} {curve : Curve} {pt : Bytes} {alg : JweAlg} {enc : EncAlg}
    {sender : Option (Str × C.Key)} {rcps : List (Str × C.Key)} {agrees : C.Key → C.Key → Option Bytes → Prop}
    (hag : ∀ epk alg apu apv tag k, ∃ x, agrees epk k x ∧
      deriveKey C kdf curve epk (sender.map Prod.snd) k alg apu apv tag false = okOr .invalidState x) :
    Yields E (jweEncrypt C ce kdf curve pt alg enc sender rcps) (fun r =>
      (∃ out, r = .ok out ∧ ((∀ k ∈ rcps.map Prod.fst, IsUtf8 k) → IsJson C out)) ∨
      (r = .error (.kind .invalidState) ∧ EncryptRefused C ce curve (fun k => k ∈ rcps.map Prod.snd) agrees)) := by
  unfold jweEncrypt
  dsimp only
  refine Yields.randomBind fun r1 => Yields.liftBind (fun e h => ?_) (fun cek h1 => ?_)
  · obtain ⟨h, rfl⟩ := okOr_eq_error.1 h
    exact .inr ⟨rfl, .content (okOr_eq_error.1 ‹_›).1⟩
  have h1 := okOr_eq_ok.1 h1
  refine Yields.randomBind fun r2 => Yields.liftBind (fun e h => ?_) (fun epk h2 => ?_)
  · obtain ⟨h, rfl⟩ := okOr_eq_error.1 h
    exact .inr ⟨rfl, .ephemeral (okOr_eq_error.1 ‹_›).1⟩
  have h2 := okOr_eq_ok.1 h2
  refine Yields.liftBind (fun e h => ?_) (fun jwk h3 => ?_)
  · obtain ⟨h, rfl⟩ := okOr_eq_error.1 h
    exact .inr ⟨rfl, .export h2 (okOr_eq_error.1 ‹_›).1⟩
  refine Yields.randomBind fun r3 => Yields.liftBind (fun e h => ?_) (fun x h4 => ?_)
  · obtain ⟨h, rfl⟩ := okOr_eq_error.1 h
    exact .inr ⟨rfl, .encrypt h1 (okOr_eq_error.1 ‹_›).1⟩
  obtain ⟨ct, tag⟩ := x
  refine Yields.liftBind (fun e h => ?_) (fun rs h5 => ?_)
  · obtain ⟨rfl, k, hk, h⟩ := wrapAll_error (fun k => hag epk _ _ _ _ k) h
    rcases h with h | ⟨kw, h, hw⟩
    · exact .inr ⟨rfl, .agree h2 hk h⟩
    · exact .inr ⟨rfl, .wrap h2 hk h h1 hw⟩
  · refine Yields.lift (.inl ⟨_, rfl, fun hu => ?_⟩)
    refine jweText_json _ (B64.plain_encode _).1 (B64.plain_encode _).1 (B64.plain_encode _).1 (B64.plain_encode _).1 fun r hr => ?_
    obtain ⟨a, b, hb⟩ := wrapAll_recipients h5 r hr
    exact ⟨(validUtf8_iff _).2 (hu _ a), by rw [hb]; exact (B64.plain_encode _).1⟩

theorem agreesEs (curve : Curve) : ∀ epk alg apu apv tag k, ∃ x, AgreesEs C curve epk k x ∧
    deriveKey C .ecdhEs curve epk ((none : Option (Str × C.Key)).map Prod.snd) k alg apu apv tag false = okOr .invalidState x :=
  fun _ alg apu apv _ _ => ⟨_, ⟨alg, apu, apv, rfl⟩, rfl⟩

theorem agrees1pu (curve : Curve) (kid : Str) (s : C.Key) : ∀ epk alg apu apv tag k, ∃ x, Agrees1pu C curve s epk k x ∧
    deriveKey C .ecdh1pu curve epk ((some (kid, s)).map Prod.snd) k alg apu apv tag false = okOr .invalidState x :=
  fun _ alg apu apv tag _ => ⟨_, ⟨alg, apu, apv, tag, rfl⟩, rfl⟩

theorem EncryptRefused.mono {ce : ContentEnc} {c : Curve} {R R' : C.Key → Prop} {agrees : C.Key → C.Key → Option Bytes → Prop}
    (h : EncryptRefused C ce c R agrees) (hr : ∀ k, R k → R' k) : EncryptRefused C ce c R' agrees := by
  cases h with
  | content h => exact .content h
  | ephemeral h => exact .ephemeral h
  | «export» he h => exact .export he h
  | encrypt hc h => exact .encrypt hc h
  | agree he hk h => exact .agree he (hr _ hk) h
  | wrap he hk ha hc h => exact .wrap he (hr _ hk) ha hc h

/-! ## The recipient's keys -/

theorem methodsOf_cases (k : ErrorKind) (doc : DIDDoc) (kids : List Str) :
    (∃ vms, methodsOf k doc kids = .ok vms ∧ kids.map (methodOf doc) = vms.map some ∧ ∀ k ∈ kids, methodOf doc k ≠ none) ∨
    (methodsOf k doc kids = .error (.kind k) ∧ ∃ kid ∈ kids, methodOf doc kid = none) := by
  by_cases h : ∃ kid ∈ kids, methodOf doc kid = none
  · exact .inr ⟨methodsOf_error h, h⟩
  · replace h : ∀ k ∈ kids, methodOf doc k ≠ none := fun k hk hn => h ⟨k, hk, hn⟩
    left
    have : ∃ vms : List VerificationMethod, kids.map (methodOf doc) = vms.map some := by
      clear k
      induction kids with
      | nil => exact ⟨[], rfl⟩
      | cons kid r ih =>
        obtain ⟨l, hl⟩ := ih (fun k hk => h k (by simp [hk]))
        cases hm : methodOf doc kid with
        | none => exact absurd hm (h kid (by simp))
        | some vm => exact ⟨vm :: l, by simp [hm, hl]⟩
    obtain ⟨vms, hv⟩ := this
    exact ⟨vms, methodsOf_ok.2 hv, hv, h⟩

theorem ofType_eq {doc : DIDDoc} {kids : List Str} {vms : List VerificationMethod} (h : kids.map (methodOf doc) = vms.map some) (c : Curve) :
    (vms.filter (fun vm => decide (vm.keyAlg = some c))).map VerificationMethod.id = ofType doc c kids := methods_ids h (some c)

theorem keysOf_cases {doc : DIDDoc} {c : Curve} {vms : List VerificationMethod} (h : ∀ vm ∈ vms, vm.keyAlg = some c ∧ methodOf doc vm.id = some vm) :
    (∃ l, keysOf C c vms = .ok l ∧ Readable C doc (vms.map VerificationMethod.id)) ∨
    (∃ e, keysOf C c vms = .error e ∧ FirstUnreadable C doc (vms.map VerificationMethod.id) e) := by
  induction vms with
  | nil => exact .inl ⟨[], rfl, fun _ h => by cases h⟩
  | cons vm r ih =>
    obtain ⟨ht, hm⟩ := h vm (by simp)
    simp only [keysOf]
    cases ha : vm.as C c with
    | error e =>
      refine .inr ⟨e, rfl, ?_⟩
      rcases as_error ha with ⟨h, _⟩ | ⟨_, h⟩
      · exact absurd ht h
      · exact ⟨[], vm.id, r.map VerificationMethod.id, vm, rfl, (fun _ h => by cases h), hm, h⟩
    | ok k =>
      have hp := as_iff.1 ha
      rcases ih (fun v hv => h v (by simp [hv])) with ⟨l, h1, h2⟩ | ⟨e, h1, pre, kid, post, v, h2, h3, h4, h5⟩
      · refine .inl ⟨_, by rw [h1]; rfl, fun kid hk => ?_⟩
        rcases List.mem_cons.1 hk with rfl | hk
        · exact ⟨vm, _, hm, hp⟩
        · exact h2 kid hk
      · refine .inr ⟨e, by rw [h1]; rfl, vm.id :: pre, kid, post, v, by rw [List.map_cons, h2]; rfl, fun kid hk => ?_, h4, h5⟩
        rcases List.mem_cons.1 hk with rfl | hk
        · exact ⟨vm, _, hm, hp⟩
        · exact h3 kid hk

theorem typed_methods {doc : DIDDoc} {kids : List Str} {vms : List VerificationMethod} (h : kids.map (methodOf doc) = vms.map some) (c : Curve) :
    ∀ vm ∈ vms.filter (fun vm => decide (vm.keyAlg = some c)), vm.keyAlg = some c ∧ methodOf doc vm.id = some vm := by
  intro vm hv
  obtain ⟨h1, h2⟩ := List.mem_filter.1 hv
  exact ⟨of_decide_eq_true h2, (methods_mem h h1).2⟩

/-- The keys handed to the encryption are those of the key ids. -/
theorem keysOf_among {doc : DIDDoc} {kids : List Str} {vms : List VerificationMethod} (h : kids.map (methodOf doc) = vms.map some) {c : Curve}
    {l : List (Str × C.Key)} (hl : keysOf C c (vms.filter (fun vm => decide (vm.keyAlg = some c))) = .ok l) :
    ∀ k, k ∈ l.map Prod.snd → KeyAmong C doc (ofType doc c kids) c k := by
  intro k hk
  obtain ⟨p, hp, rfl⟩ := List.mem_map.1 hk
  obtain ⟨vm, hv, h1, h2⟩ := keysOf_mem hl hp
  refine ⟨vm.id, ?_, vm, (typed_methods h c vm hv).2, as_iff.1 h2⟩
  rw [← ofType_eq h c]
  exact List.mem_map.2 ⟨vm, hv, rfl⟩

theorem meantBy_sub {who : Str} {l : List Str} {k : Str} (h : k ∈ meantBy who l) : k ∈ l := by
  unfold meantBy at h
  split at h
  · exact (List.mem_filter.1 h).1
  · exact h

theorem keysOf_text {doc : DIDDoc} {who : Str} {vms : List VerificationMethod}
    (h : (meantBy who doc.keyAgreement).map (methodOf doc) = vms.map some) {c : Curve} (ht : TextKeys doc)
    {l : List (Str × C.Key)} (hl : keysOf C c (vms.filter (fun vm => decide (vm.keyAlg = some c))) = .ok l) :
    ∀ k ∈ l.map Prod.fst, IsUtf8 k := by
  intro k hk
  rw [keysOf_fst hl, ofType_eq h] at hk
  exact ht k (meantBy_sub (List.mem_filter.1 hk).1)

theorem agreementKids_cases (who : Str) (doc : DIDDoc) :
    (agreementKids (didOrUrl who).2 doc = .ok (meantBy who doc.keyAgreement) ∧ meantBy who doc.keyAgreement ≠ []) ∨
    (agreementKids (didOrUrl who).2 doc = .error (.kind .didUrlNotFound) ∧ meantBy who doc.keyAgreement = []) := by
  by_cases h : meantBy who doc.keyAgreement = []
  · exact .inr ⟨agreementKids_error h, h⟩
  · exact .inl ⟨agreementKids_ok.2 ⟨rfl, h⟩, h⟩

theorem cipher_eq (alg : AnonCryptAlg) : alg.ce = alg.cipher := by cases alg <;> rfl

/-! ## Anonymous encryption -/

theorem anoncrypted (ht : ∀ did doc, E.resolve did = .ok (some doc) → TextKeys doc) (to : Str) (msg : Bytes) (alg : AnonCryptAlg) :
    Yields E (anoncrypt C to msg alg) (fun r => Anoncrypted C E to alg (r.map Prod.snd) ∧ ∀ x, r = .ok x → IsJson C x.1) := by
  unfold anoncrypt
  rw [didOrUrl_fst]
  refine Yields.docBind (fun e h => ⟨.noDocument h, fun _ h => by cases h⟩) (fun doc hd => ?_)
  have htext : TextKeys doc := by cases hd with | found h => exact ht _ _ h
  rcases agreementKids_cases to doc with ⟨h1, h2⟩ | ⟨h1, h2⟩
  case inr =>
    rw [h1]
    exact Yields.liftBind (fun e h => by cases h; exact ⟨.document hd (.notListed h2), fun _ h => by cases h⟩) (fun _ h => by cases h)
  rw [h1, lift_ok_bind rfl]
  rcases methodsOf_cases .unsupported doc (meantBy to doc.keyAgreement) with ⟨vms, h3, h4, hm⟩ | ⟨h3, k, h4, h5⟩
  case inr =>
    rw [h3]
    exact Yields.liftBind (fun e h => by cases h; exact ⟨.document hd (.noMethod h4 h5), fun _ h => by cases h⟩) (fun _ h => by cases h)
  rw [h3, lift_ok_bind rfl, methods_findSome h4]
  cases hc : (meantBy to doc.keyAgreement).findSome? (keyTypeOf doc) with
  | none =>
    refine Yields.liftBind (fun e h => ?_) (fun _ h => by cases h)
    cases h
    exact ⟨.document hd (.noType h2 hm (fun k hk => List.findSome?_eq_none_iff.1 hc k hk)), fun _ h => by cases h⟩
  | some c =>
    rw [okOr, lift_ok_bind rfl]
    dsimp only
    split
    case isFalse hf => exact Yields.fail ⟨.document hd (.otherType hm hc hf), fun _ h => by cases h⟩
    rename_i hf
    rcases keysOf_cases (C := C) (typed_methods h4 c) with ⟨l, h5, h6⟩ | ⟨e, h5, h6⟩
    case inr =>
      rw [h5, ofType_eq h4] at *
      exact Yields.liftBind (fun e' h => by cases h; exact ⟨.document hd (.unreadable hm hc hf h6), fun _ h => by cases h⟩) (fun _ h => by cases h)
    rw [ofType_eq h4] at h6 ⊢
    rw [h5, lift_ok_bind rfl]
    refine Yields.bind (jweEncrypted (agreesEs c)) ?_ ?_
    · rintro e (⟨out, h, _⟩ | ⟨h, hr⟩)
      · cases h
      · cases h
        rw [cipher_eq] at hr
        exact ⟨.document hd (.refused hm hc hf h6 (hr.mono (keysOf_among h4 h5))), fun _ h => by cases h⟩
    · rintro out (⟨out', h, hj⟩ | ⟨h, _⟩)
      · cases h
        exact Yields.lift ⟨.document hd (.sealed hm hc hf h6), fun _ h => by cases h; exact hj (keysOf_text h4 htext h5)⟩
      · cases h

/-! ## Authenticated encryption -/

theorem authcrypted (ht : ∀ did doc, E.resolve did = .ok (some doc) → TextKeys doc) (to from_ : Str) (msg : Bytes) (a : AuthCryptAlg)
    (alg : AnonCryptAlg) (ps : Bool) :
    Yields E (authcrypt C to from_ msg a alg ps) (fun r => Authcrypted C E to from_ alg ps (r.map Prod.snd) ∧ ∀ x, r = .ok x → IsJson C x.1) := by
  unfold authcrypt
  rw [didOrUrl_fst, didOrUrl_fst]
  refine Yields.docBind (fun e h => ⟨.noRecipient h, fun _ h => by cases h⟩) (fun toDoc hd => ?_)
  refine Yields.docBind (fun e h => ⟨.noSender hd h, fun _ h => by cases h⟩) (fun fromDoc hfd => ?_)
  have htext : TextKeys toDoc := by cases hd with | found h => exact ht _ _ h
  rcases agreementKids_cases from_ fromDoc with ⟨h1, hl⟩ | ⟨h1, h2⟩
  case inr =>
    rw [h1]
    exact Yields.liftBind (fun e h => by cases h; exact ⟨.notListed hd hfd h2, fun _ h => by cases h⟩) (fun _ h => by cases h)
  rw [h1, lift_ok_bind rfl]
  refine Yields.findBind (fun k h => ⟨.failed hd hfd hl h, fun _ h => by cases h⟩) (fun found hs => ?_)
  split
  · rename_i hn
    have hn : found = [] := by simpa using hn
    subst hn
    exact Yields.fail ⟨.nothing hd hfd hl hs, fun _ h => by cases h⟩
  rename_i hn
  have hn : found ≠ [] := by simpa using hn
  suffices hneg : Yields E _ (fun r : Res (Str × Str × List Str) => Negotiated C E toDoc fromDoc to found alg ps (r.map Prod.snd) ∧
      ∀ x, r = .ok x → IsJson C x.1) from hneg.mono fun r h => ⟨.found hd hfd hl hs hn h.1, h.2⟩
  rcases methodsOf_cases .malformed fromDoc found with ⟨fvms, h3, hf4, hf⟩ | ⟨h3, k, h4, h5⟩
  case inr =>
    rw [h3]
    exact Yields.liftBind (fun e h => by cases h; exact ⟨.noSenderMethod h4 h5, fun _ h => by cases h⟩) (fun _ h => by cases h)
  rw [h3, lift_ok_bind rfl]
  rcases agreementKids_cases to toDoc with ⟨h1, hne⟩ | ⟨h1, h2⟩
  case inr =>
    rw [h1]
    exact Yields.liftBind (fun e h => by cases h; exact ⟨.notListed hf h2, fun _ h => by cases h⟩) (fun _ h => by cases h)
  rw [h1, lift_ok_bind rfl]
  rcases methodsOf_cases .malformed toDoc (meantBy to toDoc.keyAgreement) with ⟨vms, h3, h4, hm⟩ | ⟨h3, k, h4, h5⟩
  case inr =>
    rw [h3]
    exact Yields.liftBind (fun e h => by cases h; exact ⟨.noMethod hf h4 h5, fun _ h => by cases h⟩) (fun _ h => by cases h)
  rw [h3, lift_ok_bind rfl]
  have hch := chooseSender_eq hf4 h4
  cases hcs : chooseSender fvms vms with
  | error e =>
    rw [hcs] at hch
    refine Yields.liftBind (fun e' h => ?_) (fun _ h => by cases h)
    cases h
    have : (okOr .noCompatibleCrypto (found.find? (fun s => decide (Compatible fromDoc toDoc to s)))) = .error e := hch.symm
    obtain ⟨h, rfl⟩ := okOr_eq_error.1 this
    refine ⟨.incompatible hf hne hm fun k hk hc => ?_, fun _ h => by cases h⟩
    have := List.find?_eq_none.1 (okOr_eq_error.1 ‹_›).1 k hk
    simp [hc] at this
  | ok vm =>
    rw [hcs] at hch
    have hk : found.find? (fun k => Compatible fromDoc toDoc to k) = some vm.id := okOr_eq_ok.1 hch.symm
    have hcomp : Compatible fromDoc toDoc to vm.id := by simpa using List.find?_some hk
    have hvm : methodOf fromDoc vm.id = some vm := by
      unfold chooseSender at hcs
      have := List.mem_of_find?_eq_some (okOr_eq_ok.1 hcs)
      exact (methods_mem hf4 (List.mem_filter.1 this).1).2
    obtain ⟨c, hc, _⟩ := hcomp
    have hvc : vm.keyAlg = some c := by simpa [keyTypeOf, hvm] using hc
    rw [lift_ok_bind rfl]
    suffices hseal : Yields E _ (fun r : Res (Str × Str × List Str) =>
        AuthSealed C E toDoc (ofType toDoc c (meantBy to toDoc.keyAgreement)) vm.id c alg ps (r.map Prod.snd) ∧
        ∀ x, r = .ok x → IsJson C x.1) from hseal.mono fun r h => ⟨.chosen hf hm hk hc h.1, h.2⟩
    refine Yields.getBind (fun k h => ⟨.failed h, fun _ h => by cases h⟩) ?_
    rintro (_ | s) hg
    · exact Yields.liftBind (fun e h => by cases h; exact ⟨.gone hg, fun _ h => by cases h⟩) (fun _ h => by cases h)
    rw [okOr, lift_ok_bind rfl]
    dsimp only
    rw [hvc]
    dsimp only
    split
    case isFalse hfa => exact Yields.fail ⟨.otherType hg hfa, fun _ h => by cases h⟩
    rename_i hfa
    rcases keysOf_cases (C := C) (typed_methods h4 c) with ⟨l, h5, h6⟩ | ⟨e, h5, h6⟩
    case inr =>
      rw [ofType_eq h4] at h6
      rw [h5]
      exact Yields.liftBind (fun e' h => by cases h; exact ⟨.unreadable hg hfa h6, fun _ h => by cases h⟩) (fun _ h => by cases h)
    rw [ofType_eq h4] at h6 ⊢
    rw [h5, lift_ok_bind rfl]
    refine Yields.liftBind (fun e h => ?_) (fun sk hsk => ?_)
    · rcases secretAs_error h with ⟨h, rfl⟩ | ⟨h, h'⟩
      · exact ⟨.otherSecret hg hfa h6 ‹_›, fun _ h => by cases h⟩
      · exact ⟨.badSecret hg hfa h6 h h', fun _ h => by cases h⟩
    have hsk := secret_as_ok hsk
    refine Yields.bind (jweEncrypted (agrees1pu c vm.id sk)) ?_ ?_
    · rintro e (⟨out, h, _⟩ | ⟨h, hr⟩)
      · cases h
      · cases h
        exact ⟨.refused hg hfa h6 hsk (.inl (hr.mono (keysOf_among h4 h5))), fun _ h => by cases h⟩
    rintro out (⟨out', h, hj⟩ | ⟨h, _⟩)
    case inr => cases h
    cases h
    split
    · rename_i hp
      refine Yields.bind (jweEncrypted (agreesEs c)) ?_ ?_
      · rintro e (⟨out, h, _⟩ | ⟨h, hr⟩)
        · cases h
        · cases h
          rw [cipher_eq] at hr
          exact ⟨.refused hg hfa h6 hsk (.inr ⟨hp, hr.mono (keysOf_among h4 h5)⟩), fun _ h => by cases h⟩
      · rintro out (⟨out', h, hj⟩ | ⟨h, _⟩)
        · cases h
          exact Yields.lift ⟨.sealed hg hfa h6 hsk, fun _ h => by cases h; exact hj (keysOf_text h4 htext h5)⟩
        · cases h
    · exact Yields.lift ⟨.sealed hg hfa h6 hsk, fun _ h => by cases h; exact hj (keysOf_text h4 htext h5)⟩

/-! ## Routing -/

theorem servicesRouted (to : Str) (sid : Option Str) : Yields E (servicesChain to sid) (Routed E to sid) := by
  unfold servicesChain
  rw [didOrUrl_fst]
  have hfind : ∀ (did : Str) (sid : Option Str), Yields E (findDidCommService did sid) (fun r =>
      (∃ e, r = .error e ∧ Document E did (.error e)) ∨ (∃ doc, Document E did (.ok doc) ∧ Selects doc.service sid r)) := by
    intro did sid
    unfold findDidCommService
    exact Yields.docBind (fun e h => .inl ⟨e, rfl, h⟩) (fun doc h => Yields.lift (.inr ⟨doc, h, selectService_spec _ _⟩))
  refine Yields.bind (hfind _ _) ?_ ?_
  · rintro e (⟨_, h, hd⟩ | ⟨doc, hd, hs⟩)
    · cases h; exact .noDocument hd
    · exact .badService hd hs
  · rintro s (⟨_, h, hd⟩ | ⟨doc, hd, hs⟩)
    · cases h
    cases s with
    | none => exact Yields.pure (.noService hd hs)
    | some s =>
      dsimp only
      rw [chainLoop]
      split
      case isFalse hf => exact Yields.pure (.direct hd hs (fun h => hf ((C46_is_did _).2 h)))
      rename_i hl
      have hl := (C46_is_did _).1 hl
      rw [if_neg (by simp)]
      refine Yields.bind (hfind _ _) ?_ ?_
      · rintro e (⟨_, h, hm⟩ | ⟨doc', hm, hs'⟩)
        · cases h; exact .noMediator hd hs hl hm
        · cases hs'
      · rintro s' (⟨_, h, hm⟩ | ⟨doc', hm, hs'⟩)
        · cases h
        cases s' with
        | none => exact Yields.liftBind (fun e h => by cases h; exact .noMediatorService hd hs hl hm hs') (fun _ h => by cases h)
        | some s' =>
          refine Yields.liftBind (fun e h => by cases h) (fun a h => ?_)
          cases h
          rw [chainLoop]
          split
          · rename_i hl'
            rw [if_pos (by simp)]
            exact Yields.fail (.nested hd hs hl hm hs' ((C46_is_did _).1 hl'))
          · rename_i hl'
            exact Yields.pure (.mediated hd hs hl hm hs' (fun h => hl' ((C46_is_did _).2 h)))

theorem Routed.short {to : Str} {sid : Option Str} {chain : List (Str × DIDCommMessagingService)}
    (h : Routed E to sid (.ok chain)) : chain.length ≤ 2 := by
  cases h <;> simp

theorem loopWrapped (ht : TextEnv E) (headers : Option (List (Str × Value))) (alg : AnonCryptAlg) (stops : List (Str × Str)) :
    ∀ (msg : Str), IsJson C msg → Yields E (wrapLoop C headers alg stops msg) (fun r => Wrapped C E alg (stops.map Prod.fst) (r.map fun _ => ())) := by
  induction stops with
  | nil => exact fun msg _ => Yields.pure .done
  | cons p l ih =>
    obtain ⟨k, next⟩ := p
    rintro msg ⟨v, hj⟩
    simp only [wrapLoop, buildForwardMessage]
    refine Yields.bind (Q := fun r => ∃ fwd, r = .ok fwd) ?_ (fun e h => by obtain ⟨_, h⟩ := h; cases h) (fun fwd _ => ?_)
    · refine Yields.liftBind (fun e h => ?_) (fun v' _ => Yields.randomBind fun n => Yields.lift ⟨_, rfl⟩)
      rw [hj] at h; cases h
    · refine Yields.bind (anoncrypted ht k fwd alg) (fun e h => .failed h.1) ?_
      rintro ⟨out, kids⟩ ⟨h, hi⟩
      exact (ih out (hi _ rfl)).mono fun r hr => .step h hr

theorem zip_keys (k to : Str) (r : List Str) : (((k :: r).reverse.zip (r ++ [to]).reverse).map Prod.fst) = (k :: r).reverse := by
  rw [List.map_fst_zip]
  simp

theorem forwardWrapped (ht : TextEnv E) (msg : Str) (headers : Option (List (Str × Value))) (to : Str) (keys : List Str) (alg : AnonCryptAlg) :
    Yields E (wrapInForward C msg headers to keys alg) (fun r => ForwardWrapped C E msg keys alg (r.map fun _ => ())) := by
  unfold wrapInForward
  cases keys with
  | nil => exact Yields.ret (.noKeys rfl)
  | cons k l =>
    dsimp only
    by_cases hj : ∃ v, fromJson (toValue C.f64) msg = .ok v
    · obtain ⟨v, hj⟩ := hj
      refine (loopWrapped ht headers alg _ msg ⟨v, hj⟩).mono fun r h => ?_
      rw [zip_keys] at h
      exact .json (by simp) hj h
    · have hne : (k :: l).reverse.zip (l ++ [to]).reverse ≠ [] := by
        intro h
        have := congrArg (List.map Prod.fst) h
        rw [zip_keys] at this
        simp at this
      cases hz : (k :: l).reverse.zip (l ++ [to]).reverse with
      | nil => exact absurd hz hne
      | cons p z =>
        obtain ⟨a, b⟩ := p
        simp only [wrapLoop, buildForwardMessage]
        have hn : ∀ v, fromJson (toValue C.f64) msg ≠ .ok v := fun v h => hj ⟨v, h⟩
        refine Yields.bind (Q := fun r => r = .error (.kind .malformed)) ?_ (fun e h => ?_) (fun fwd h => by cases h)
        · refine Yields.liftBind (fun e h => ?_) (fun v h => ?_)
          · rw [withKind_error fromJson_kind h]
          · exact absurd (withKind_eq_ok.1 h) (hn v)
        · cases h
          exact .notJson (by simp) hn

theorem forwarded (ht : TextEnv E) (msg to : Str) (opts : PackEncryptedOptions) (hj : IsJson C msg) :
    Yields E (wrapInForwardIfNeeded C msg to opts) (fun r => Forwarded C E to opts (r.map fun x => x.map Prod.snd)) := by
  unfold wrapInForwardIfNeeded
  split
  · exact Yields.pure (.off ‹_›)
  rename_i hf
  have hf : opts.forward = true := by simpa using hf
  refine Yields.bind (servicesRouted to opts.messagingService) (fun e h => .noRoute hf h) (fun chain hr => ?_)
  rcases chain with _ | ⟨first, rest⟩
  · exact Yields.pure (.notNeeded hf hr rfl)
  · obtain ⟨last, hl⟩ : ∃ last, (first :: rest).getLast? = some last := ⟨_, List.getLast?_eq_some_getLast (by simp)⟩
    rw [hl, chainRoutingKeys_eq hr.short]
    dsimp only [List.head?]
    split
    · rename_i he
      exact Yields.pure (.notNeeded hf hr (by simpa using he))
    · rename_i he
      have he : routeOf (first :: rest) ≠ [] := by simpa using he
      have hw : Yields E (wrapInForward C msg opts.forwardHeaders to (routeOf (first :: rest)) opts.encAlgAnon)
          (fun r => Wrapped C E opts.encAlgAnon (routeOf (first :: rest)).reverse (r.map fun _ => ())) := by
        refine (forwardWrapped ht msg opts.forwardHeaders to _ opts.encAlgAnon).mono fun r h => ?_
        obtain ⟨v, hv⟩ := hj
        generalize hx : (r.map fun _ => ()) = x at h
        cases h with
        | noKeys h => exact absurd h he
        | notJson h hn => exact absurd hv (hn v)
        | json _ _ h => exact h
      refine Yields.bind hw (fun e h => ?_) (fun fwd h => ?_)
      · exact .wrapped hf hr he rfl hl h
      · exact Yields.pure (.wrapped hf hr he rfl hl h)

/-! ## `pack_encrypted` -/

theorem innerPacked (m : Message) (signBy : Option Str) :
    Yields E (packInner C m signBy) (fun r => InnerPacked C E m signBy (r.map Prod.snd)) := by
  cases signBy with
  | none => exact Yields.bind (plaintextPacked m) (fun e h => .plain h) (fun a h => Yields.pure (.plain h))
  | some s => exact Yields.bind (signedPacked m s) (fun e h => .signed h) (fun a h => Yields.pure (.signed h))

theorem crypted (ht : TextEnv E) (to : Str) (from_ : Option Str) (msg : Str) (opts : PackEncryptedOptions) :
    Yields E (packCrypt C to from_ msg opts) (fun r => Crypted C E to opts from_ (r.map Prod.snd) ∧ ∀ x, r = .ok x → IsJson C x.1) := by
  cases from_ with
  | none =>
    refine Yields.bind (anoncrypted ht to msg opts.encAlgAnon) (fun e h => ⟨.anon h.1, fun _ h => by cases h⟩) ?_
    rintro ⟨out, tk⟩ ⟨h, hi⟩
    exact Yields.pure ⟨.anon h, fun x h => by cases h; exact hi _ rfl⟩
  | some f =>
    refine Yields.bind (authcrypted ht to f msg opts.encAlgAuth opts.encAlgAnon opts.protectSender) (fun e h => ⟨.auth h.1, fun _ h => by cases h⟩) ?_
    rintro ⟨out, fk, tk⟩ ⟨h, hi⟩
    exact Yields.pure ⟨.auth h, fun x h => by cases h; exact hi _ rfl⟩

theorem encryptedPacked (ht : TextEnv E) (m : Message) (to : Str) (from_ signBy : Option Str) (opts : PackEncryptedOptions) :
    Yields E (packEncrypted C m to from_ signBy opts) (fun r => EncryptedPacked C E m to from_ signBy opts (r.map Prod.snd)) := by
  unfold packEncrypted
  refine Yields.liftBind (fun e h => ?_) (fun _ h => ?_)
  · have hi : IllegalArguments m to from_ signBy := illegalArguments_iff.1 (by rw [h]; intro h; cases h)
    have := validatePackEncrypted_error (illegalArguments_iff.2 hi)
    rw [h] at this
    cases this
    exact .illegal hi
  have hn : ¬ IllegalArguments m to from_ signBy := fun hi => illegalArguments_iff.2 hi h
  refine Yields.bind (innerPacked m signBy) (fun e h => .inner hn h) ?_
  rintro ⟨msg, sk⟩ hi
  refine Yields.bind (crypted ht to from_ msg opts) (fun e h => .crypt hn hi h.1) ?_
  rintro ⟨out, fk, tk⟩ ⟨hc, hj⟩
  refine Yields.bind (forwarded ht out to opts (hj _ rfl)) (fun e h => .forward hn hi hc h) ?_
  rintro (_ | ⟨fwd, svc⟩) hw
  · exact Yields.pure (.packed hn hi hc hw)
  · exact Yields.pure (.packed hn hi hc hw)

end DIDComm
