import Verif.Spec.Size
import Verif.Spec.Outcome
import Verif.Proofs.Inv
import Verif.Proofs.Reparse
import Verif.Proofs.RoundTrip
import Verif.Proofs.OutcomeEnc
import Verif.Proofs.Secrecy
import Verif.Props.Fresh

/-! # The lengths of packed texts -/

set_option autoImplicit false

namespace DIDComm

variable {C : Crypto} {E : Env}

theorem Grows.id (s : Nat) : Grows s (fun n => n) := ⟨fun h => h, fun _ => Nat.le_refl _⟩

theorem Grows.comp {s : Nat} {f g : Nat → Nat} (hf : Grows s f) (hg : Grows s g) : Grows s (fun n => f (g n)) :=
  ⟨fun h => hf.mono (hg.mono h), fun n => Nat.le_trans (hf.more (g n)) (hf.mono (hg.more n))⟩

theorem Grows.add {s : Nat} {f : Nat → Nat} (hf : Grows s f) (k : Nat) : Grows s (fun n => k + f n) :=
  ⟨fun h => Nat.add_le_add_left (hf.mono h) k, fun n => by have := hf.more n; omega⟩

/-- The length of base64url. -/
def b64Len (n : Nat) : Nat := (4 * n + 2) / 3

theorem b64Len_grows (s : Nat) : Grows s b64Len := ⟨fun h => by unfold b64Len; omega, fun n => by unfold b64Len; omega⟩

theorem B64.length_encode (b : Bytes) : (B64.encode b).length = b64Len b.length := by
  induction b using B64.encode.induct with
  | case1 => rfl
  | case2 a => simp [B64.encode, b64Len]
  | case3 a b => simp [B64.encode, b64Len]
  | case4 a b c r ih =>
    simp only [B64.encode, List.length_cons, ih]
    unfold b64Len
    omega

theorem Plain.escStr {s : Str} (h : Plain s) : DIDComm.escStr s = s := by
  have : ∀ s : Str, (∀ b ∈ s, b ≠ 0x22 ∧ b ≠ 0x5C ∧ (0x20 : UInt8) ≤ b) → DIDComm.escStr s = s := by
    intro s
    induction s with
    | nil => intro _; rfl
    | cons b r ih =>
      intro h
      obtain ⟨h1, h2, h3⟩ := h b (by simp)
      have h4 : ¬ b < 0x20 := fun hb => absurd (UInt8.lt_of_lt_of_le hb h3) (UInt8.lt_irrefl _)
      have n1 : b ≠ 0x08 := fun e => by subst e; exact absurd h3 (by decide)
      have n2 : b ≠ 0x09 := fun e => by subst e; exact absurd h3 (by decide)
      have n3 : b ≠ 0x0A := fun e => by subst e; exact absurd h3 (by decide)
      have n4 : b ≠ 0x0C := fun e => by subst e; exact absurd h3 (by decide)
      have n5 : b ≠ 0x0D := fun e => by subst e; exact absurd h3 (by decide)
      simp only [DIDComm.escStr, escByte, h1, h2, h4, n1, n2, n3, n4, n5, if_false, ih (fun x hx => h x (by simp [hx])), List.cons_append,
        List.nil_append]
  exact this s h.2

theorem Plain.quoted {s : Str} (h : Plain s) : (quoteStr s).length = s.length + 2 := by
  simp [quoteStr, h.escStr]

/-- A text of a given length. -/
def blank (n : Nat) : Str := List.replicate n 0x41

theorem blank_plain (n : Nat) : Plain (blank n) := by
  apply plain_of_ascii
  intro b hb
  rw [List.eq_of_mem_replicate hb]
  decide

theorem blank_length (n : Nat) : (blank n).length = n := List.length_replicate

/-! ## Envelopes -/

theorem rcps_size (k : Nat) : ∀ (l l' : List JweRecipient), l.map JweRecipient.kid = l'.map JweRecipient.kid →
    (∀ r ∈ l, Plain r.encryptedKey ∧ r.encryptedKey.length = k) → (∀ r ∈ l', Plain r.encryptedKey ∧ r.encryptedKey.length = k) →
    (Value.arr (l.map JweRecipient.toJson)).print.length = (Value.arr (l'.map JweRecipient.toJson)).print.length ∧
    (Value.arr (l.map JweRecipient.sorted)).print.length = (Value.arr (l.map JweRecipient.toJson)).print.length ∧
    (Value.printTail (l.map JweRecipient.toJson)).length = (Value.printTail (l'.map JweRecipient.toJson)).length ∧
    (Value.printTail (l.map JweRecipient.sorted)).length = (Value.printTail (l.map JweRecipient.toJson)).length
  | [], [], _, _, _ => ⟨rfl, rfl, rfl, rfl⟩
  | [], _ :: _, h, _, _ => by simp at h
  | _ :: _, [], h, _, _ => by simp at h
  | r :: l, r' :: l', h, h1, h2 => by
    simp only [List.map_cons, List.cons.injEq] at h
    obtain ⟨-, -, i1, i2⟩ := rcps_size k l l' h.2 (fun x hx => h1 x (by simp [hx])) (fun x hx => h2 x (by simp [hx]))
    have a1 := (h1 r (by simp)).1.quoted
    have a2 := (h2 r' (by simp)).1.quoted
    rw [(h1 r (by simp)).2] at a1
    rw [(h2 r' (by simp)).2] at a2
    have e : r.toJson.print.length = r'.toJson.print.length := by
      simp only [JweRecipient.toJson, Value.print, Value.printMembers, List.length_cons, List.length_append, h.1, a1, a2]
    have e' : r.sorted.print.length = r.toJson.print.length := by
      simp only [JweRecipient.toJson, JweRecipient.sorted, Value.print, Value.printMembers, List.length_cons, List.length_append]
      omega
    refine ⟨?_, ?_, ?_, ?_⟩ <;>
    · simp only [List.map_cons, Value.print, Value.printTail, List.length_cons, List.length_append]
      omega

/-- Printing an envelope again after reading does not change its length. -/
theorem sorted_length (j : JWE) (k : Nat) (h : ∀ r ∈ j.recipients, Plain r.encryptedKey ∧ r.encryptedKey.length = k) :
    j.sorted.print.length = j.toJson.print.length := by
  have := (rcps_size k j.recipients j.recipients rfl h h).2.1
  simp only [JWE.toJson, JWE.sorted]
  simp only [Value.print, Value.printMembers, List.length_cons, List.length_append] at this ⊢
  omega

/-- The header's length, but for the generated key. -/
def hdrSize (C : Crypto) (alg : JweAlg) (enc : EncAlg) (skid : Option Str) (kids : List Str) : Nat :=
  (JweHeader.toJson { typ := some encryptedTyp, alg := alg, enc := enc, skid := skid, apu := skid.map B64.encode, apv := B64.encode (apvOf C kids), epk := .null }).print.length - 4

theorem printMembers_append (a b : List (Str × Value)) :
    (Value.printMembers (a ++ b)).length + 1 = (Value.printMembers a).length + (Value.printMembers b).length := by
  induction a with
  | nil => simp [Value.printMembers]; omega
  | cons x a ih =>
    obtain ⟨k, v⟩ := x
    simp only [List.cons_append, Value.printMembers, List.length_cons, List.length_append]
    omega

theorem hdr_length (alg : JweAlg) (enc : EncAlg) (skid : Option Str) (kids : List Str) (v : Value) :
    (JweHeader.toJson { typ := some encryptedTyp, alg := alg, enc := enc, skid := skid, apu := skid.map B64.encode, apv := B64.encode (apvOf C kids), epk := v }).print.length = hdrSize C alg enc skid kids + v.print.length := by
  cases skid <;>
  · simp only [hdrSize, JweHeader.toJson, optMember, Option.map_none, Option.map_some, List.cons_append, List.nil_append, List.append_nil, Value.print,
      Value.printMembers, List.length_cons, List.length_append]
    have : (b!"null").length = 4 := rfl
    omega

/-- Everything in an envelope but the ciphertext. -/
def Sizes.frame (S : Sizes C) (ce : ContentEnc) (alg : JweAlg) (enc : EncAlg) (curve : Curve) (skid : Option Str) (kids : List Str) : Nat :=
  (JWE.toJson ⟨blank (b64Len (hdrSize C alg enc skid kids + S.epk curve)),
    kids.map (fun k => ⟨k, blank (b64Len (S.wrapped (S.cek ce)))⟩), blank (b64Len (S.nonce ce)), [], blank (b64Len (S.tag ce))⟩).print.length

theorem wrapAll_sizes (S : Sizes C) {kdf : Kdf} {curve : Curve} {epk : C.Key} {skey : Option C.Key} {alg apu apv tag cek : Bytes} :
    ∀ {rcps : List (Str × C.Key)} {rs : List JweRecipient}, wrapAll C kdf curve epk skey alg apu apv tag cek rcps = .ok rs →
      rs.map JweRecipient.kid = rcps.map Prod.fst ∧
      ∀ r ∈ rs, Plain r.encryptedKey ∧ r.encryptedKey.length = b64Len (S.wrapped cek.length)
  | [], rs, h => by cases h; exact ⟨rfl, fun _ h => by cases h⟩
  | (kid, key) :: rcps, rs, h => by
    simp only [wrapAll, res_bind_ok, okOr_eq_ok, Except.ok.injEq] at h
    obtain ⟨kw, -, ek, h2, l, h3, rfl⟩ := h
    obtain ⟨i1, i2⟩ := wrapAll_sizes S h3
    refine ⟨by simp [i1], fun r hr => ?_⟩
    rcases List.mem_cons.1 hr with rfl | hr
    · exact ⟨B64.plain_encode _, by rw [B64.length_encode, S.wrap h2]⟩
    · exact i2 r hr

/-- What encryption returns: an envelope of this length, which is printed with the same length again when it is forwarded. -/
theorem jweEncrypt_size (S : Sizes C) {ce : ContentEnc} {kdf : Kdf} {curve : Curve} {pt : Bytes} {alg : JweAlg} {enc : EncAlg}
    {sender : Option (Str × C.Key)} {rcps : List (Str × C.Key)} {tr : List Event} {out : Str}
    (h : Runs (jweEncrypt C ce kdf curve pt alg enc sender rcps) tr (.ok out)) :
    out.length = S.frame ce alg enc curve (sender.map Prod.fst) (rcps.map Prod.fst) + b64Len (S.content ce pt.length) ∧
    ∃ j : JWE, out = j.toJson.print ∧ j.sorted.print.length = out.length ∧ j.recipients.map JweRecipient.kid = rcps.map Prod.fst ∧
      Plain j.protected_ ∧ Plain j.iv ∧ Plain j.ciphertext ∧ Plain j.tag ∧ ∀ r ∈ j.recipients, Plain r.encryptedKey := by
  obtain ⟨r1, r2, r3, cek, epk, epkJwk, ct, tag, rs, -, h1, h2, h3, h4, h5, rfl⟩ := jweEncrypt_ok.1 h
  obtain ⟨w1, w2⟩ := wrapAll_sizes S h5
  rw [S.genCek h1] at w2
  obtain ⟨s1, s2⟩ := S.aeadEnc h4
  refine ⟨?_, _, rfl, sorted_length _ _ w2, w1, B64.plain_encode _, B64.plain_encode _, B64.plain_encode _, B64.plain_encode _,
    fun r hr => (w2 r hr).1⟩
  have hp : (jweProtected C alg enc (sender.map Prod.fst) (rcps.map Prod.fst) epkJwk).length =
      b64Len (hdrSize C alg enc (sender.map Prod.fst) (rcps.map Prod.fst) + S.epk curve) := by
    unfold jweProtected
    rw [B64.length_encode, hdr_length, S.toJwk h2 h3]
  have hp' : Plain (jweProtected C alg enc (sender.map Prod.fst) (rcps.map Prod.fst) epkJwk) := B64.plain_encode _
  have hr := (rcps_size (b64Len (S.wrapped (S.cek ce))) rs ((rcps.map Prod.fst).map (fun k => ⟨k, blank (b64Len (S.wrapped (S.cek ce)))⟩))
    (by rw [w1]; simp [Function.comp_def]) w2 (fun r hr => by
      obtain ⟨k, -, rfl⟩ := List.mem_map.1 hr
      exact ⟨blank_plain _, blank_length _⟩)).1
  have q1 := hp'.quoted
  rw [hp] at q1
  have q2 := (B64.plain_encode (C.genNonce ce r3)).quoted
  rw [B64.length_encode, S.genNonce] at q2
  have q3 := (B64.plain_encode ct).quoted
  rw [B64.length_encode, s1] at q3
  have q4 := (B64.plain_encode tag).quoted
  rw [B64.length_encode, s2] at q4
  have q0 : (quoteStr []).length = 2 := rfl
  simp only [Sizes.frame, JWE.toJson]
  generalize (rcps.map Prod.fst).map (fun k => (⟨k, blank (b64Len (S.wrapped (S.cek ce)))⟩ : JweRecipient)) = rs' at hr ⊢
  generalize Value.arr (rs.map JweRecipient.toJson) = v at hr ⊢
  generalize Value.arr (rs'.map JweRecipient.toJson) = v' at hr ⊢
  simp only [Value.print, Value.printMembers, List.length_cons, List.length_append, q1, q2, q3, q4, q0, (blank_plain _).quoted, blank_length]
  omega

/-! ## Reading an envelope to forward it -/

/-- The text is printed with the same length again after reading. -/
def KeepsLength (C : Crypto) (t : Str) : Prop := ∃ v, fromJson (toValue C.f64) t = .ok v ∧ v.print.length = t.length

theorem recipient_value_text {f64 : Str → Option Str} (r : JweRecipient) (h1 : validUtf8 r.kid = true) (h2 : Plain r.encryptedKey) (n : Nat)
    (hn : 2 < n) : toValue f64 n r.toJson.tree = some r.sorted := by
  obtain ⟨n, rfl⟩ : ∃ m, n = m + 3 := ⟨n - 3, by omega⟩
  have k1 : (strTokOf b!"header").val = some b!"header" := by decide
  have k2 : (strTokOf b!"encrypted_key").val = some b!"encrypted_key" := by decide
  have k3 : (strTokOf b!"kid").val = some b!"kid" := by decide
  simp [JweRecipient.toJson, JweRecipient.sorted, Value.tree, Value.treeMembers, toValue, toMembers, k1, k2, k3,
    strTokOf_val h1, strTokOf_val h2.1, btInsert]
  decide

theorem jwe_value_text {f64 : Str → Option Str} (j : JWE) (h1 : Plain j.protected_) (h2 : Plain j.iv) (h3 : Plain j.ciphertext) (h4 : Plain j.tag)
    (h5 : ∀ r ∈ j.recipients, validUtf8 r.kid = true ∧ Plain r.encryptedKey) : toValue f64 depthLimit j.toJson.tree = some j.sorted := by
  have k1 : (strTokOf b!"protected").val = some b!"protected" := by decide
  have k2 : (strTokOf b!"recipients").val = some b!"recipients" := by decide
  have k3 : (strTokOf b!"iv").val = some b!"iv" := by decide
  have k4 : (strTokOf b!"ciphertext").val = some b!"ciphertext" := by decide
  have k5 : (strTokOf b!"tag").val = some b!"tag" := by decide
  have hr := toValues_map (f64 := f64) JweRecipient.toJson JweRecipient.sorted 126 j.recipients
    (fun r hr => recipient_value_text r (h5 r hr).1 (h5 r hr).2 _ (by decide))
  simp [JWE.toJson, JWE.sorted, Value.tree, Value.treeMembers, toValue, toMembers, k1, k2, k3, k4, k5,
    strTokOf_val h1.1, strTokOf_val h2.1, strTokOf_val h3.1, strTokOf_val h4.1, depthLimit, hr]
  rfl

theorem jweEncrypt_steady (S : Sizes C) {ce : ContentEnc} {kdf : Kdf} {curve : Curve} {pt : Bytes} {alg : JweAlg} {enc : EncAlg}
    {sender : Option (Str × C.Key)} {rcps : List (Str × C.Key)} {tr : List Event} {out : Str} (hk : ∀ k ∈ rcps.map Prod.fst, IsUtf8 k)
    (h : Runs (jweEncrypt C ce kdf curve pt alg enc sender rcps) tr (.ok out)) : KeepsLength C out := by
  obtain ⟨-, j, rfl, h1, h2, a1, a2, a3, a4, a5⟩ := jweEncrypt_size S h
  refine ⟨j.sorted, fromJson_print j.numsOk (jwe_value_text j a1 a2 a3 a4 fun r hr => ⟨?_, a5 r hr⟩), h1⟩
  exact (validUtf8_iff _).2 (hk _ (by rw [← h2]; exact List.mem_map_of_mem hr))

/-! ## Operations -/

/-- The length of the result is a function, growing with the length of the input if those of the ciphertexts do. -/
def SizedBy (S : Sizes C) (uses : ContentEnc → Prop) (f : Nat → Nat) : Prop :=
  ∀ s, (∀ ce, uses ce → Grows s (S.content ce)) → Grows s f

theorem layer_grows {S : Sizes C} {uses : ContentEnc → Prop} {ce : ContentEnc} (h : uses ce) (k : Nat) :
    SizedBy S uses (fun n => k + b64Len (S.content ce n)) :=
  fun s hs => ((b64Len_grows s).comp (hs ce h)).add k

theorem anoncrypt_sized (S : Sizes C) (ht : TextEnv E) (to : Str) (alg : AnonCryptAlg) :
    ∃ f, SizedBy S (· = alg.ce) f ∧ ∀ msg tr out kids, Runs (anoncrypt C to msg alg) tr (.ok (out, kids)) → Answers E tr →
      out.length = f msg.length ∧ KeepsLength C out := by
  by_cases h : ∃ doc kids vms curve toKeys, E.resolve (didOrUrl to).1 = .ok (some doc) ∧
    agreementKids (didOrUrl to).2 doc = .ok kids ∧ methodsOf .unsupported doc kids = .ok vms ∧
    vms.findSome? VerificationMethod.keyAlg = some curve ∧ keysOf C curve (vms.filter (fun vm => decide (vm.keyAlg = some curve))) = .ok toKeys
  · obtain ⟨doc, kids, vms, curve, toKeys, e1, e2, e3, e4, e5⟩ := h
    refine ⟨_, layer_grows (S := S) (uses := (· = alg.ce)) (ce := alg.ce) rfl (S.frame alg.ce .ecdhEs alg.enc curve none (toKeys.map Prod.fst)), fun msg tr out kids' hr ha => ?_⟩
    obtain ⟨doc', kids2, vms', curve', toKeys', tr', rfl, g2, g3, g4, -, g5, -, g6⟩ := anoncrypt_ok.1 hr
    have hd : (.ok (some doc') : Except ErrorKind (Option DIDDoc)) = E.resolve (didOrUrl to).1 := (answers_cons.1 ha).1
    rw [e1] at hd
    cases hd
    cases e2.symm.trans g2
    cases e3.symm.trans g3
    cases e4.symm.trans g4
    cases e5.symm.trans g5
    refine ⟨(jweEncrypt_size S g6).1, jweEncrypt_steady S ?_ g6⟩
    obtain ⟨rfl, -⟩ := agreementKids_ok.1 e2
    exact keysOf_text (methodsOf_ok.1 e3) (ht _ _ e1) e5
  · refine ⟨fun n => n, fun s _ => Grows.id s, fun msg tr out kids' hr ha => absurd ?_ h⟩
    obtain ⟨doc', kids2, vms', curve', toKeys', tr', rfl, g2, g3, g4, -, g5, -, g6⟩ := anoncrypt_ok.1 hr
    have hd : (.ok (some doc') : Except ErrorKind (Option DIDDoc)) = E.resolve (didOrUrl to).1 := (answers_cons.1 ha).1
    exact ⟨doc', kids2, vms', curve', toKeys', hd.symm, g2, g3, g4, g5⟩

theorem authcrypt_sized (S : Sizes C) (ht : TextEnv E) (to from_ : Str) (a : AuthCryptAlg) (alg : AnonCryptAlg) (ps : Bool) :
    ∃ f, SizedBy S (fun ce => ce = .a256cbcHs512 ∨ (ps = true ∧ ce = alg.ce)) f ∧ ∀ msg tr out fk kids,
      Runs (authcrypt C to from_ msg a alg ps) tr (.ok (out, fk, kids)) → Answers E tr → out.length = f msg.length ∧ KeepsLength C out := by
  have key : ∀ msg tr out fk kids, Runs (authcrypt C to from_ msg a alg ps) tr (.ok (out, fk, kids)) → Answers E tr →
      ∃ toDoc fromDoc fromKids found fromVms kids vms fromVm curve toKeys, (E.resolve (didOrUrl to).1 = .ok (some toDoc) ∧
        E.resolve (didOrUrl from_).1 = .ok (some fromDoc) ∧ agreementKids (didOrUrl from_).2 fromDoc = .ok fromKids ∧
        E.findSecrets fromKids = .ok found ∧ methodsOf .malformed fromDoc found = .ok fromVms ∧
        agreementKids (didOrUrl to).2 toDoc = .ok kids ∧ methodsOf .malformed toDoc kids = .ok vms ∧
        chooseSender fromVms vms = .ok fromVm ∧ fromVm.keyAlg = some curve ∧
        keysOf C curve (vms.filter (fun vm => decide (vm.keyAlg = some curve))) = .ok toKeys) ∧
        ∃ senderKey tr', Runs (authEncrypt C curve msg fromVm.id senderKey toKeys alg ps) tr' (.ok out) := by
    intro msg tr out fk kids hr ha
    obtain ⟨toDoc, fromDoc, fromKids, found, fromVms, kids, vms, fromVm, secret, curve, toKeys, senderKey, tr', rfl, g1, -, g2, g3, g4, g5, rfl, g6,
      -, g7, -, -, g8⟩ := authcrypt_ok.1 hr
    simp only [answers_cons] at ha
    have d1 : (.ok (some toDoc) : Except ErrorKind (Option DIDDoc)) = E.resolve (didOrUrl to).1 := ha.1
    have d2 : (.ok (some fromDoc) : Except ErrorKind (Option DIDDoc)) = E.resolve (didOrUrl from_).1 := ha.2.1
    have d3 : (.ok found : Except ErrorKind (List Str)) = E.findSecrets fromKids := ha.2.2.1
    exact ⟨toDoc, fromDoc, fromKids, found, fromVms, kids, vms, fromVm, curve, toKeys,
      ⟨d1.symm, d2.symm, g1, d3.symm, g2, g3, g4, g5, g6, g7⟩, senderKey, tr', g8⟩
  by_cases h : ∃ toDoc fromDoc fromKids found fromVms kids vms fromVm curve toKeys, (E.resolve (didOrUrl to).1 = .ok (some toDoc) ∧
        E.resolve (didOrUrl from_).1 = .ok (some fromDoc) ∧ agreementKids (didOrUrl from_).2 fromDoc = .ok fromKids ∧
        E.findSecrets fromKids = .ok found ∧ methodsOf .malformed fromDoc found = .ok fromVms ∧
        agreementKids (didOrUrl to).2 toDoc = .ok kids ∧ methodsOf .malformed toDoc kids = .ok vms ∧
        chooseSender fromVms vms = .ok fromVm ∧ fromVm.keyAlg = some curve ∧
        keysOf C curve (vms.filter (fun vm => decide (vm.keyAlg = some curve))) = .ok toKeys)
  · obtain ⟨toDoc, fromDoc, fromKids, found, fromVms, kids, vms, fromVm, curve, toKeys, e1, e2, e3, e4, e5, e6, e7, e8, e9, e10⟩ := h
    have htext : ∀ k ∈ toKeys.map Prod.fst, IsUtf8 k := by
      obtain ⟨rfl, -⟩ := agreementKids_ok.1 e6
      exact keysOf_text (methodsOf_ok.1 e7) (ht _ _ e1) e10
    have key' : ∀ msg tr out fk kids, Runs (authcrypt C to from_ msg a alg ps) tr (.ok (out, fk, kids)) → Answers E tr →
        ∃ senderKey tr', Runs (authEncrypt C curve msg fromVm.id senderKey toKeys alg ps) tr' (.ok out) := by
      intro msg tr out fk kids' hr ha
      obtain ⟨toDoc', fromDoc', fromKids', found', fromVms', kids', vms', fromVm', curve', toKeys', ⟨g1, g2, g3, g4, g5, g6, g7, g8, g9, g10⟩, g⟩ :=
        key msg tr out fk kids' hr ha
      cases e1.symm.trans g1
      cases e2.symm.trans g2
      cases e3.symm.trans g3
      cases e4.symm.trans g4
      cases e5.symm.trans g5
      cases e6.symm.trans g6
      cases e7.symm.trans g7
      cases e8.symm.trans g8
      cases e9.symm.trans g9
      cases e10.symm.trans g10
      exact g
    cases ps with
    | false =>
      refine ⟨_, layer_grows (.inl rfl) (S.frame .a256cbcHs512 .ecdh1pu .a256cbcHs512 curve (some fromVm.id) (toKeys.map Prod.fst)),
        fun msg tr out fk kids' hr ha => ?_⟩
      obtain ⟨sk, tr', g⟩ := key' msg tr out fk kids' hr ha
      unfold authEncrypt at g
      obtain ⟨o1, t1, t2, -, g1, g2⟩ := runs_bind_ok.1 g
      cases (runs_pure.1 g2).2
      exact ⟨(jweEncrypt_size S g1).1, jweEncrypt_steady S htext g1⟩
    | true =>
      refine ⟨fun n => S.frame alg.ce .ecdhEs alg.enc curve none (toKeys.map Prod.fst) + b64Len (S.content alg.ce
        (S.frame .a256cbcHs512 .ecdh1pu .a256cbcHs512 curve (some fromVm.id) (toKeys.map Prod.fst) + b64Len (S.content .a256cbcHs512 n))),
        fun s hs => (layer_grows (S := S) (uses := fun ce => ce = .a256cbcHs512 ∨ (true = true ∧ ce = alg.ce)) (.inr ⟨rfl, rfl⟩) _ s hs).comp
          (layer_grows (S := S) (uses := fun ce => ce = .a256cbcHs512 ∨ (true = true ∧ ce = alg.ce)) (.inl rfl) _ s hs),
        fun msg tr out fk kids' hr ha => ?_⟩
      obtain ⟨sk, tr', g⟩ := key' msg tr out fk kids' hr ha
      unfold authEncrypt at g
      obtain ⟨o1, t1, t2, -, g1, g2⟩ := runs_bind_ok.1 g
      rw [if_pos rfl] at g2
      refine ⟨?_, jweEncrypt_steady S htext g2⟩
      have := (jweEncrypt_size S g1).1
      rw [(jweEncrypt_size S g2).1, this]
      rfl
  · refine ⟨fun n => n, fun s _ => Grows.id s, fun msg tr out fk kids' hr ha => absurd ?_ h⟩
    obtain ⟨toDoc', fromDoc', fromKids', found', fromVms', kids', vms', fromVm', curve', toKeys', g, -⟩ := key msg tr out fk kids' hr ha
    exact ⟨toDoc', fromDoc', fromKids', found', fromVms', kids', vms', fromVm', curve', toKeys', g⟩

theorem signed_sized (S : Sizes C) (signBy : Str) :
    ∃ k, ∀ m tr out kid, Runs (packSigned C m signBy) tr (.ok (out, kid)) → Answers E tr →
      out.length = k + b64Len m.toJson.print.length := by
  have key : ∀ m tr out kid, Runs (packSigned C m signBy) tr (.ok (out, kid)) → Answers E tr →
      ∃ doc kids found secret pair alg st, (E.resolve (didOrUrl signBy).1 = .ok (some doc) ∧ signKids signBy doc = .ok kids ∧
        E.findSecrets kids = .ok found ∧ found.head? = some kid ∧ E.getSecret kid = .ok (some secret) ∧ secret.asKeyPair C = .ok pair ∧
        signAlgFor pair.curve = .ok alg ∧ alg.sigType = .ok st) ∧
        ∃ sig, C.sign pair.curve pair.key (dotJoin (jwsProtected alg) (B64.encode m.toJson.print)) st = some sig ∧
          out = (JWS.toJson ⟨[⟨kid, jwsProtected alg, B64.encode sig⟩], B64.encode m.toJson.print⟩).print := by
    intro m tr out kid hr ha
    obtain ⟨doc, kids, found, secret, pair, tr', payload, alg, -, rfl, g1, g2, g3, g4, g5, g6⟩ := packSigned_ok.1 hr
    obtain ⟨-, -, -, rfl⟩ := packPlaintext_ok.1 g4
    obtain ⟨st, sig, g7, g8, g9⟩ := jwsSign_ok.1 g6
    simp only [answers_cons] at ha
    have d1 : (.ok (some doc) : Except ErrorKind (Option DIDDoc)) = E.resolve (didOrUrl signBy).1 := ha.1
    have d2 : (.ok found : Except ErrorKind (List Str)) = E.findSecrets kids := ha.2.1
    have d3 : (.ok (some secret) : Except ErrorKind (Option Secret)) = E.getSecret kid := ha.2.2.1
    exact ⟨doc, kids, found, secret, pair, alg, st, ⟨d1.symm, g1, d2.symm, g2, d3.symm, g3, g5, g7⟩, sig, g8, g9⟩
  by_cases h : ∃ kid doc kids found secret pair alg st, (E.resolve (didOrUrl signBy).1 = .ok (some doc) ∧ signKids signBy doc = .ok kids ∧
        E.findSecrets kids = .ok found ∧ found.head? = some kid ∧ E.getSecret kid = .ok (some secret) ∧ secret.asKeyPair C = .ok pair ∧
        signAlgFor pair.curve = .ok alg ∧ alg.sigType = .ok st)
  · obtain ⟨kid, doc, kids, found, secret, pair, alg, st, e1, e2, e3, e4, e5, e6, e7, e8⟩ := h
    refine ⟨(JWS.toJson ⟨[⟨kid, jwsProtected alg, blank (b64Len (S.signature st))⟩], []⟩).print.length, fun m tr out kid' hr ha => ?_⟩
    obtain ⟨doc', kids', found', secret', pair', alg', st', ⟨g1, g2, g3, g4, g5, g6, g7, g8⟩, sig, g9, rfl⟩ := key m tr out kid' hr ha
    cases e1.symm.trans g1
    cases e2.symm.trans g2
    cases e3.symm.trans g3
    cases e4.symm.trans g4
    cases e5.symm.trans g5
    cases e6.symm.trans g6
    cases e7.symm.trans g7
    cases e8.symm.trans g8
    have q1 := (B64.plain_encode sig).quoted
    rw [B64.length_encode, S.sign g9] at q1
    have q2 := (B64.plain_encode m.toJson.print).quoted
    rw [B64.length_encode] at q2
    have q0 : (quoteStr []).length = 2 := rfl
    simp only [JWS.toJson, JwsSig.toJson, List.map_cons, List.map_nil]
    generalize m.toJson.print = t at q2 ⊢
    simp only [Value.print, Value.printTail, Value.printMembers, List.length_cons, List.length_append, q0, q1, q2, (blank_plain _).quoted, blank_length]
    omega
  · refine ⟨0, fun m tr out kid' hr ha => absurd ?_ h⟩
    obtain ⟨doc', kids', found', secret', pair', alg', st', g, -⟩ := key m tr out kid' hr ha
    exact ⟨kid', doc', kids', found', secret', pair', alg', st', g⟩

theorem addHeaders_frame (ty : Str) (body : Value) (hs : List (Str × Value)) : ∀ X : List (Str × Value), ∃ Y : List (Str × Value), ∀ id,
    addHeaders { id := id, type_ := ty, body := body, extraHeaders := X } hs = { id := id, type_ := ty, body := body, extraHeaders := Y } := by
  induction hs with
  | nil => exact fun X => ⟨X, fun _ => rfl⟩
  | cons h hs ih =>
    intro X
    obtain ⟨k, v⟩ := h
    obtain ⟨Y, hY⟩ := ih (hmInsert k v X)
    exact ⟨Y, fun id => hY id⟩

theorem forward_length (next : Str) (hs : Option (List (Str × Value))) :
    ∃ k, ∀ id v, (forwardMessage id v next hs).toJson.print.length = k + (quoteStr id).length + v.print.length := by
  obtain ⟨Y, hY⟩ := addHeaders_frame forwardMsgType (.obj [(b!"next", .str next)]) (hs.getD []) []
  have e : ∀ id v, forwardMessage id v next hs = { id := id, type_ := forwardMsgType, body := .obj [(b!"next", .str next)], extraHeaders := Y, attachments := some [(AttachmentBuilder.json v).finalize] } := by
    intro id v
    unfold forwardMessage MessageBuilder.new
    simp only [hY]
    rfl
  have hatt : ∃ c, ∀ v : Value, (Value.printMembers [(b!"attachments", Value.arr [(AttachmentBuilder.json v).finalize.toJson])]).length = c + v.print.length := by
    refine ⟨(Value.printMembers [(b!"attachments", Value.arr [(AttachmentBuilder.json .null).finalize.toJson])]).length - 4, fun v => ?_⟩
    have q1 : (Value.null).print.length = 4 := rfl
    simp only [AttachmentBuilder.json, AttachmentBuilder.finalize, Attachment.toJson, AttachmentData.toJson, optMember, List.append_nil, Value.print, Value.printTail,
      Value.printMembers, List.length_cons, List.length_append, List.length_nil] at q1 ⊢
    omega
  obtain ⟨c, hc⟩ := hatt
  refine ⟨1 + (quoteStr b!"id").length + (Value.printMembers ([(b!"typ", .str plaintextTyp), (b!"type", .str forwardMsgType),
    (b!"body", .obj [(b!"next", .str next)])] ++ Y)).length + c, fun id v => ?_⟩
  have h1 := printMembers_append ([(b!"typ", .str plaintextTyp), (b!"type", .str forwardMsgType), (b!"body", .obj [(b!"next", .str next)])] ++ Y)
    [(b!"attachments", Value.arr [(AttachmentBuilder.json v).finalize.toJson])]
  rw [hc] at h1
  have h2 : (forwardMessage id v next hs).toJson.print.length = 1 + (quoteStr b!"id").length + 1 + (quoteStr id).length +
      (Value.printMembers (([(b!"typ", .str plaintextTyp), (b!"type", .str forwardMsgType), (b!"body", .obj [(b!"next", .str next)])] ++ Y) ++
        [(b!"attachments", Value.arr [(AttachmentBuilder.json v).finalize.toJson])])).length := by
    rw [e]
    simp only [Message.toJson, optMember, List.append_nil, List.cons_append, List.nil_append, List.map_cons, List.map_nil]
    rw [Value.print]
    simp only [Value.print, List.length_cons, List.length_append]
    omega
  omega

/-- One layer of forwarding. -/
theorem step_sized (S : Sizes C) (ht : TextEnv E) (hs : Option (List (Str × Value))) (alg : AnonCryptAlg) (to next : Str) :
    ∃ f, SizedBy S (· = alg.ce) f ∧ ∀ msg v tr fwd tr' out kids, fromJson (toValue C.f64) msg = .ok v →
      Runs (buildForwardMessage C msg next hs) tr (.ok fwd) → Runs (anoncrypt C to fwd alg) tr' (.ok (out, kids)) → Answers E tr' →
      out.length = f v.print.length ∧ KeepsLength C out := by
  obtain ⟨f, hf, hr⟩ := anoncrypt_sized S ht to alg
  obtain ⟨k, hk⟩ := forward_length next hs
  refine ⟨fun n => f (k + (S.id + 2) + n), fun s h => (hf s h).comp ((Grows.id s).add _), fun msg v tr fwd tr' out kids hv h1 h2 ha => ?_⟩
  simp only [buildForwardMessage, runs_ok] at h1
  obtain ⟨v', hv', r, t, rfl, rfl, h1⟩ := h1
  simp only [withKind, hv] at hv'
  cases hv'
  cases h1
  have := hr _ _ _ _ h2 ha
  rw [hk, (S.uuid r).2.quoted, (S.uuid r).1] at this
  exact this

theorem loop_sized (S : Sizes C) (ht : TextEnv E) (hs : Option (List (Str × Value))) (alg : AnonCryptAlg) : ∀ stops : List (Str × Str),
    ∃ f, SizedBy S (· = alg.ce) f ∧ ∀ msg tr out, KeepsLength C msg → Runs (wrapLoop C hs alg stops msg) tr (.ok out) → Answers E tr →
      out.length = f msg.length
  | [] => ⟨fun n => n, fun s _ => Grows.id s, fun msg tr out _ h _ => by
      simp only [wrapLoop] at h
      cases (runs_pure.1 h).2
      rfl⟩
  | (to, next) :: stops => by
    obtain ⟨f, hf, hr⟩ := step_sized S ht hs alg to next
    obtain ⟨g, hg, hl⟩ := loop_sized S ht hs alg stops
    refine ⟨fun n => g (f n), fun s h => (hg s h).comp (hf s h), fun msg tr out ⟨v, hv, hlen⟩ h ha => ?_⟩
    simp only [wrapLoop, runs_bind_ok, Prod.exists] at h
    obtain ⟨fwd, t1, _, rfl, h1, o, kids, t2, t3, rfl, h2, h3⟩ := h
    simp only [answers_append] at ha
    obtain ⟨e1, e2⟩ := hr msg v t1 fwd t2 o kids hv h1 h2 ha.2.1
    rw [hl o t3 out e2 h3 ha.2.2, e1, hlen]

theorem wrap_sized (S : Sizes C) (ht : TextEnv E) (hs : Option (List (Str × Value))) (to : Str) (keys : List Str) (alg : AnonCryptAlg) :
    ∃ f, SizedBy S (· = alg.ce) f ∧ ∀ msg v tr out, fromJson (toValue C.f64) msg = .ok v →
      Runs (wrapInForward C msg hs to keys alg) tr (.ok out) → Answers E tr → out.length = f v.print.length := by
  cases keys with
  | nil => exact ⟨fun n => n, fun s _ => Grows.id s, fun msg v tr out _ h _ => by cases (runs_ret.1 h).2⟩
  | cons k ks =>
    have hz : ∃ a b r, ((k :: ks).reverse.zip (ks ++ [to]).reverse) = (a, b) :: r := by
      rcases h : (k :: ks).reverse.zip (ks ++ [to]).reverse with _ | ⟨⟨a, b⟩, r⟩
      · have := congrArg List.length h
        simp at this
      · exact ⟨a, b, r, rfl⟩
    obtain ⟨to', next, stops, hz⟩ := hz
    obtain ⟨f, hf, hr⟩ := step_sized S ht hs alg to' next
    obtain ⟨g, hg, hl⟩ := loop_sized S ht hs alg stops
    refine ⟨fun n => g (f n), fun s h => (hg s h).comp (hf s h), fun msg v tr out hv h ha => ?_⟩
    simp only [wrapInForward, hz, wrapLoop, runs_bind_ok, Prod.exists] at h
    obtain ⟨fwd, t1, _, rfl, h1, o, kids, t2, t3, rfl, h2, h3⟩ := h
    simp only [answers_append] at ha
    obtain ⟨e1, e2⟩ := hr msg v t1 fwd t2 o kids hv h1 h2 ha.2.1
    rw [hl o t3 out e2 h3 ha.2.2, e1]

theorem wrapIfNeeded_sized (S : Sizes C) (ht : TextEnv E) (to : Str) (opts : PackEncryptedOptions) :
    ∃ f, SizedBy S (· = opts.encAlgAnon.ce) f ∧ ∀ msg tr w, KeepsLength C msg → Runs (wrapInForwardIfNeeded C msg to opts) tr (.ok w) → Answers E tr →
      ((w.map Prod.fst).getD msg).length = f msg.length := by
  by_cases hf : opts.forward = false
  · refine ⟨fun n => n, fun s _ => Grows.id s, fun msg tr w _ h _ => ?_⟩
    simp only [wrapInForwardIfNeeded, hf, if_true] at h
    cases (runs_pure.1 h).2
    rfl
  by_cases hc : ∃ tr chain, Runs (servicesChain to opts.messagingService) tr (.ok chain) ∧ Answers E tr
  · obtain ⟨tr0, chain, c1, c2⟩ := hc
    obtain ⟨f, hf', hr⟩ := wrap_sized S ht opts.forwardHeaders to (chainRoutingKeys chain) opts.encAlgAnon
    by_cases hk : chain.head?.isSome = true ∧ chainRoutingKeys chain ≠ []
    · refine ⟨f, hf', fun msg tr w hst h ha => ?_⟩
      unfold wrapInForwardIfNeeded at h
      rw [if_neg hf, runs_bind_ok] at h
      obtain ⟨chain', t1, t2, rfl, h1, h2⟩ := h
      obtain ⟨-, e, -⟩ := runs_det (a := []) (b := []) h1 c1 (answers_append.1 ha).1 c2 (by rw [servicesChain_draws h1, servicesChain_draws c1])
      cases e
      obtain ⟨first, h3⟩ := Option.isSome_iff_exists.1 hk.1
      obtain ⟨last, h4⟩ : ∃ last, chain.getLast? = some last := by
        cases chain with
        | nil => cases h3
        | cons a l => exact ⟨_, List.getLast?_eq_some_getLast (by simp)⟩
      rw [h3, h4] at h2
      have he : (chainRoutingKeys chain).isEmpty = false := by simpa using hk.2
      simp only [he, Bool.false_eq_true, if_false, runs_bind_ok] at h2
      obtain ⟨fwd, t3, t4, rfl, h5, h6⟩ := h2
      cases (runs_pure.1 h6).2
      obtain ⟨v, hv, hl⟩ := hst
      simp only [answers_append] at ha
      have := hr msg v t3 fwd hv h5 ha.2.1
      rw [hl] at this
      exact this
    · refine ⟨fun n => n, fun s _ => Grows.id s, fun msg tr w hst h ha => ?_⟩
      unfold wrapInForwardIfNeeded at h
      rw [if_neg hf, runs_bind_ok] at h
      obtain ⟨chain', t1, t2, rfl, h1, h2⟩ := h
      obtain ⟨-, e, -⟩ := runs_det (a := []) (b := []) h1 c1 (answers_append.1 ha).1 c2 (by rw [servicesChain_draws h1, servicesChain_draws c1])
      cases e
      split at h2
      · rename_i first last h3 h4
        dsimp only at h2
        split at h2
        · cases (runs_pure.1 h2).2
          rfl
        · rename_i hne
          exact absurd ⟨by rw [h3]; rfl, by simpa using hne⟩ hk
      · cases (runs_pure.1 h2).2
        rfl
  · refine ⟨fun n => n, fun s _ => Grows.id s, fun msg tr w hst h ha => absurd ?_ hc⟩
    unfold wrapInForwardIfNeeded at h
    rw [if_neg hf, runs_bind_ok] at h
    obtain ⟨chain', t1, t2, rfl, h1, h2⟩ := h
    exact ⟨t1, chain', h1, (answers_append.1 ha).1⟩

theorem inner_sized (S : Sizes C) (signBy : Option Str) :
    ∃ f, (∀ s, Grows s f) ∧ ∀ m tr out kid, Runs (packInner C m signBy) tr (.ok (out, kid)) → Answers E tr → out.length = f m.toJson.print.length := by
  cases signBy with
  | none =>
    refine ⟨fun n => n, Grows.id, fun m tr out kid h _ => ?_⟩
    rcases packInner_ok.1 h with ⟨-, -, h⟩ | ⟨_, _, h, -⟩
    · obtain ⟨-, -, -, rfl⟩ := packPlaintext_ok.1 h
      rfl
    · cases h
  | some signBy =>
    obtain ⟨k, hk⟩ := signed_sized (E := E) S signBy
    refine ⟨fun n => k + b64Len n, fun s => (b64Len_grows s).add k, fun m tr out kid h ha => ?_⟩
    rcases packInner_ok.1 h with ⟨h, -, -⟩ | ⟨_, _, h, -, h'⟩
    · cases h
    · cases h
      exact hk m tr out _ h' ha

theorem crypt_sized (S : Sizes C) (ht : TextEnv E) (to : Str) (from_ : Option Str) (opts : PackEncryptedOptions) :
    ∃ f, SizedBy S (fun ce => ce = opts.encAlgAnon.ce ∨ (from_ ≠ none ∧ ce = .a256cbcHs512)) f ∧ ∀ msg tr out fk tk,
      Runs (packCrypt C to from_ msg opts) tr (.ok (out, fk, tk)) → Answers E tr → out.length = f msg.length ∧ KeepsLength C out := by
  cases from_ with
  | none =>
    obtain ⟨f, hf, hr⟩ := anoncrypt_sized S ht to opts.encAlgAnon
    refine ⟨f, fun s h => hf s fun ce hce => h ce (.inl hce), fun msg tr out fk tk h ha => ?_⟩
    rcases packCrypt_ok.1 h with ⟨-, -, h⟩ | ⟨_, _, h, -⟩
    · exact hr _ _ _ _ h ha
    · cases h
  | some from_ =>
    obtain ⟨f, hf, hr⟩ := authcrypt_sized S ht to from_ opts.encAlgAuth opts.encAlgAnon opts.protectSender
    refine ⟨f, fun s h => hf s fun ce hce => ?_, fun msg tr out fk tk h ha => ?_⟩
    · rcases hce with rfl | ⟨-, rfl⟩
      · exact h _ (.inr ⟨by simp, rfl⟩)
      · exact h _ (.inl rfl)
    · rcases packCrypt_ok.1 h with ⟨h, -, -⟩ | ⟨_, _, h, -, h'⟩
      · cases h
      · cases h
        exact hr _ _ _ _ _ h' ha

end DIDComm
