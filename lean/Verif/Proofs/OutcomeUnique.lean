import Verif.Proofs.OutcomeEnc

/-! # Outcomes are unique when the library refuses nothing -/

set_option autoImplicit false

namespace DIDComm

variable {C : Crypto} {E : Env} {α β : Type}

theorem Document.unique {did : Str} {r r' : Res DIDDoc} (h : Document E did r) (h' : Document E did r') : r = r' := by
  cases h <;> cases h' <;> simp_all

theorem Document.conflict {did : Str} {doc : DIDDoc} {e : Err} (h : Document E did (.ok doc)) (h' : Document E did (.error e)) : False := by
  cases h.unique h'

theorem Document.same {did : Str} {doc doc' : DIDDoc} (h : Document E did (.ok doc)) (h' : Document E did (.ok doc')) : doc = doc' := by
  cases h.unique h'; rfl

theorem Document.sameError {did : Str} {e e' : Err} (h : Document E did (.error e)) (h' : Document E did (.error e')) : e = e' := by
  cases h.unique h'; rfl

theorem OwnKey.unique {kids : List Str} {r r' : Res (Str × KeyPair C)} (h : OwnKey C E kids r) (h' : OwnKey C E kids r') : r = r' := by
  cases h <;> cases h' <;> simp_all

theorem OwnKey.get {kids : List Str} {kid : Str} {p : KeyPair C} (h : OwnKey C E kids (.ok (kid, p))) :
    ∃ s, E.getSecret kid = .ok (some s) ∧ s.asKeyPair C = .ok p := by
  cases h with
  | key _ hg hs => exact ⟨_, hg, hs⟩

theorem JwtForm.unique {jwt h pl sig h' pl' sig' : Str} {hdr hdr' : CompactHeader} (a : JwtForm jwt h pl sig hdr)
    (b : JwtForm jwt h' pl' sig' hdr') : h = h' ∧ pl = pl' ∧ sig = sig' ∧ hdr = hdr' := by
  have h1 := parseCompact_ok.2 (show CompactForm jwt ⟨h, hdr, pl, sig⟩ from ⟨a.parts, a.dots, a.header⟩)
  have h2 := parseCompact_ok.2 (show CompactForm jwt ⟨h', hdr', pl', sig'⟩ from ⟨b.parts, b.dots, b.header⟩)
  rw [h1] at h2
  cases h2
  exact ⟨rfl, rfl, rfl, rfl⟩

theorem SignersKey.unique {doc : DIDDoc} {kid : Str} {alg : JwsAlg} {r r' : Res (Curve × SigType × C.Key)}
    (h : SignersKey C doc kid alg r) (h' : SignersKey C doc kid alg r') : r = r' := by
  have hu : ∀ {c c' st st' sa sa'}, Scheme alg c st sa → Scheme alg c' st' sa' → c = c' ∧ st = st' := by
    intro c c' st st' sa sa' a b
    cases a <;> cases b <;> exact ⟨rfl, rfl⟩
  have hk : ∀ {vm : VerificationMethod} {c : Curve} {k : C.Key}, vm.asKeyPair C = .ok ⟨c, k⟩ → vm.keyAlg = some c :=
    fun h => by simpa using asKeyPair_keyAlg h
  cases h with
  | notListed a => cases h' <;> first | rfl | exact absurd ‹kid ∈ doc.authentication› a
  | noMethod a b => cases h' <;> first | rfl | simp_all
  | unknownAlg a b s => cases h' with
    | notListed _ => simp_all
    | noMethod _ _ => simp_all
    | unknownAlg _ _ _ => rfl
    | otherType _ _ s' _ => exact absurd s' (s _ _ _)
    | unreadable _ _ s' _ _ => exact absurd s' (s _ _ _)
    | key _ _ s' _ => exact absurd s' (s _ _ _)
  | otherType a b s t => cases h' with
    | notListed _ => simp_all
    | noMethod _ _ => simp_all
    | unknownAlg _ _ s' => exact absurd s (s' _ _ _)
    | otherType _ _ _ _ => rfl
    | unreadable _ _ s' t' _ => obtain ⟨rfl, _⟩ := hu s s'; simp_all
    | key _ _ s' k => obtain ⟨rfl, _⟩ := hu s s'; have := hk k; simp_all
  | unreadable a b s t k => cases h' with
    | notListed _ => simp_all
    | noMethod _ _ => simp_all
    | unknownAlg _ _ s' => exact absurd s (s' _ _ _)
    | otherType _ _ s' t' => obtain ⟨rfl, _⟩ := hu s s'; simp_all
    | unreadable _ _ _ _ _ => simp_all
    | key _ _ _ k => simp_all
  | key a b s k => cases h' with
    | notListed _ => simp_all
    | noMethod _ _ => simp_all
    | unknownAlg _ _ s' => exact absurd s (s' _ _ _)
    | otherType _ _ s' t' => obtain ⟨rfl, _⟩ := hu s s'; have := hk k; simp_all
    | unreadable _ _ _ _ _ => simp_all
    | key _ _ s' k' => obtain ⟨rfl, rfl⟩ := hu s s'; simp_all

theorem PriorRead.unique {jwt : Str} {r r' : Res (FromPrior × Str)} (h : PriorRead C E jwt r) (h' : PriorRead C E jwt r') : r = r' := by
  by_cases hn : ∃ h pl sig hdr, JwtForm jwt h pl sig hdr
  case neg =>
    have hn : ∀ h pl sig hdr, ¬ JwtForm jwt h pl sig hdr := fun _ _ _ _ hf => hn ⟨_, _, _, _, hf⟩
    have : ∀ {r}, PriorRead C E jwt r → r = .error (.kind .malformed) := by
      intro r h
      cases h <;> first | rfl | exact absurd ‹JwtForm jwt _ _ _ _› (hn _ _ _ _)
    rw [this h, this h']
  obtain ⟨hd, pl, sig, hdr, hf⟩ := hn
  have key : ∀ {r}, PriorRead C E jwt r →
      (∃ e, Document E (didOf hdr.kid) (.error e) ∧ r = .error e) ∨
      ∃ doc, Document E (didOf hdr.kid) (.ok doc) ∧ ((∃ e, SignersKey C doc hdr.kid hdr.alg (.error e) ∧ r = .error e) ∨
        ∃ c st k, SignersKey C doc hdr.kid hdr.alg (.ok (c, st, k)) ∧
          (((∀ raw, B64.decode sig = some raw → C.verify c k (hd ++ b!"." ++ pl) raw st ≠ some true) ∧ r = .error (.kind .malformed)) ∨
          ∃ raw, B64.decode sig = some raw ∧ C.verify c k (hd ++ b!"." ++ pl) raw st = some true ∧
          (((∀ payload fp, B64.decode pl = some payload → IsUtf8 payload → fromJson dFromPrior payload ≠ .ok fp) ∧ r = .error (.kind .malformed)) ∨
           ∃ payload fp, B64.decode pl = some payload ∧ IsUtf8 payload ∧ fromJson dFromPrior payload = .ok fp ∧ r = .ok (fp, hdr.kid)))) := by
    intro r h
    cases h with
    | notJwt h => exact absurd hf (h _ _ _ _)
    | noDocument hf' h => obtain ⟨rfl, rfl, rfl, rfl⟩ := hf.unique hf'; exact .inl ⟨_, h, rfl⟩
    | noKey hf' h hk => obtain ⟨rfl, rfl, rfl, rfl⟩ := hf.unique hf'; exact .inr ⟨_, h, .inl ⟨_, hk, rfl⟩⟩
    | notVerified hf' h hk hv => obtain ⟨rfl, rfl, rfl, rfl⟩ := hf.unique hf'; exact .inr ⟨_, h, .inr ⟨_, _, _, hk, .inl ⟨hv, rfl⟩⟩⟩
    | notClaims hf' h hk hr hv hp =>
      obtain ⟨rfl, rfl, rfl, rfl⟩ := hf.unique hf'
      exact .inr ⟨_, h, .inr ⟨_, _, _, hk, .inr ⟨_, hr, hv, .inl ⟨hp, rfl⟩⟩⟩⟩
    | read hf' h hk hr hv hp hu hc =>
      obtain ⟨rfl, rfl, rfl, rfl⟩ := hf.unique hf'
      exact .inr ⟨_, h, .inr ⟨_, _, _, hk, .inr ⟨_, hr, hv, .inr ⟨_, _, hp, hu, hc, rfl⟩⟩⟩⟩
  rcases key h with ⟨e, a1, rfl⟩ | ⟨doc, a1, a⟩ <;> rcases key h' with ⟨e', b1, rfl⟩ | ⟨doc', b1, b⟩
  · rw [a1.sameError b1]
  · exact (b1.conflict a1).elim
  · exact (a1.conflict b1).elim
  cases a1.same b1
  rcases a with ⟨e, a2, rfl⟩ | ⟨c, st, k, a2, a⟩ <;> rcases b with ⟨e', b2, rfl⟩ | ⟨c', st', k', b2, b⟩ <;> have hs := a2.unique b2 <;> cases hs
  · rfl
  rcases a with ⟨a3, rfl⟩ | ⟨raw, a3, a4, a⟩ <;> rcases b with ⟨b3, rfl⟩ | ⟨raw', b3, b4, b⟩
  · rfl
  · exact absurd b4 (a3 _ b3)
  · exact absurd a4 (b3 _ a3)
  rcases a with ⟨a5, rfl⟩ | ⟨p, fp, a5, a6, a7, rfl⟩ <;> rcases b with ⟨b5, rfl⟩ | ⟨p', fp', b5, b6, b7, rfl⟩
  · rfl
  · exact absurd b7 (a5 _ _ b5 b6)
  · exact absurd a7 (b5 _ _ a5 a6)
  · rw [a5] at b5; cases b5; rw [a7] at b7; cases b7; rfl

theorem Signs.unique {p : KeyPair C} (hs : CanSign p.curve → ¬ SignRefused C p) {r r' : Res Unit} (h : Signs C p r) (h' : Signs C p r') : r = r' := by
  cases h <;> cases h' <;> simp_all

theorem PriorIssued.unique (hw : Willing C E) {f : FromPrior} {k : Option Str} {r r' : Res Str} (h : PriorIssued C E f k r)
    (h' : PriorIssued C E f k r') : r = r' := by
  have key : ∀ {r}, PriorIssued C E f k r → (¬ TwoDids f ∧ r = .error (.kind .malformed)) ∨ (TwoDids f ∧
      ((∃ k', k = some k' ∧ ¬ (HasFragment k' ∧ didOf k' = f.iss) ∧ r = .error (.kind .illegalArgument)) ∨
      ((∀ k', k = some k' → HasFragment k' ∧ didOf k' = f.iss) ∧
        ((∃ e, Document E f.iss (.error e) ∧ r = .error e) ∨ ∃ doc, Document E f.iss (.ok doc) ∧
          ((∃ k', k = some k' ∧ k' ∉ doc.authentication ∧ r = .error (.kind .didUrlNotFound)) ∨
           ((∀ k', k = some k' → k' ∈ doc.authentication) ∧
            ((∃ e, OwnKey C E (k.elim doc.authentication (fun k => [k])) (.error e) ∧ r = .error e) ∨
             ∃ kid p s, OwnKey C E (k.elim doc.authentication (fun k => [k])) (.ok (kid, p)) ∧ Signs C p s ∧ r = s.map fun _ => kid))))))) := by
    intro r h
    cases h with
    | badClaims h => exact .inl ⟨h, rfl⟩
    | badKid h hk hb => exact .inr ⟨h, .inl ⟨_, hk, hb, rfl⟩⟩
    | noDocument h hk hd => exact .inr ⟨h, .inr ⟨hk, .inl ⟨_, hd, rfl⟩⟩⟩
    | notListed h hk hb hd hl =>
      exact .inr ⟨h, .inr ⟨fun k' h => by rw [hk] at h; cases h; exact hb, .inr ⟨_, hd, .inl ⟨_, hk, hl, rfl⟩⟩⟩⟩
    | noKey h hd hl ho => exact .inr ⟨h, .inr ⟨fun k' h => (hl k' h).1, .inr ⟨_, hd, .inr ⟨fun k' h => (hl k' h).2, .inl ⟨_, ho, rfl⟩⟩⟩⟩⟩
    | issued h hd hl ho hs =>
      exact .inr ⟨h, .inr ⟨fun k' h => (hl k' h).1, .inr ⟨_, hd, .inr ⟨fun k' h => (hl k' h).2, .inr ⟨_, _, _, ho, hs, rfl⟩⟩⟩⟩⟩
  rcases key h with ⟨a, rfl⟩ | ⟨a, ha⟩ <;> rcases key h' with ⟨b, rfl⟩ | ⟨b, hb⟩
  · rfl
  · exact absurd b a
  · exact absurd a b
  rcases ha with ⟨k1, a1, a2, rfl⟩ | ⟨a2, ha⟩ <;> rcases hb with ⟨k2, b1, b2, rfl⟩ | ⟨b2, hb⟩
  · rfl
  · exact absurd (b2 _ a1) a2
  · exact absurd (a2 _ b1) b2
  rcases ha with ⟨e, a1, rfl⟩ | ⟨doc, a1, ha⟩ <;> rcases hb with ⟨e', b1, rfl⟩ | ⟨doc', b1, hb⟩
  · rw [a1.sameError b1]
  · exact (b1.conflict a1).elim
  · exact (a1.conflict b1).elim
  cases a1.same b1
  rcases ha with ⟨k1, a1, a2, rfl⟩ | ⟨a2, ha⟩ <;> rcases hb with ⟨k2, b1, b2, rfl⟩ | ⟨b2, hb⟩
  · rfl
  · exact absurd (b2 _ a1) a2
  · exact absurd (a2 _ b1) b2
  rcases ha with ⟨e, a1, rfl⟩ | ⟨kid, p, s, a1, a3, rfl⟩ <;> rcases hb with ⟨e', b1, rfl⟩ | ⟨kid', p', s', b1, b3, rfl⟩ <;>
    have hs := a1.unique b1 <;> cases hs
  · rfl
  · obtain ⟨sec, h1, h2⟩ := a1.get
    rw [a3.unique (hw.sign _ _ _ h1 h2) b3]

theorem PlaintextPacked.unique {m : Message} {r r' : Res Unit} (h : PlaintextPacked C E m r) (h' : PlaintextPacked C E m r') : r = r' := by
  cases hm : m.fromPrior with
  | none =>
    have : ∀ {r}, PlaintextPacked C E m r → r = .ok () := by
      intro r h
      cases h <;> simp_all
    rw [this h, this h']
  | some jwt =>
    have key : ∀ {r}, PlaintextPacked C E m r → (∃ e, PriorRead C E jwt (.error e) ∧ r = .error e) ∨
        ∃ f kid, PriorRead C E jwt (.ok (f, kid)) ∧ ((¬ TwoDids f ∧ r = .error (.kind .malformed)) ∨ (TwoDids f ∧
          ((didOf kid ≠ f.iss ∧ r = .error (.kind .illegalArgument)) ∨ (didOf kid = f.iss ∧
            (((∃ x, m.from_ = some x ∧ f.sub ≠ x) ∧ r = .error (.kind .malformed)) ∨ ((∀ x, m.from_ = some x → f.sub = x) ∧ r = .ok ())))))) := by
      intro r h
      cases h with
      | without h => rw [hm] at h; cases h
      | unreadable h hp => rw [hm] at h; cases h; exact .inl ⟨_, hp, rfl⟩
      | badClaims h hp hb => rw [hm] at h; cases h; exact .inr ⟨_, _, hp, .inl ⟨hb, rfl⟩⟩
      | otherIssuer h hp hb hi => rw [hm] at h; cases h; exact .inr ⟨_, _, hp, .inr ⟨hb, .inl ⟨hi, rfl⟩⟩⟩
      | otherSender h hp hb hi hf hs => rw [hm] at h; cases h; exact .inr ⟨_, _, hp, .inr ⟨hb, .inr ⟨hi, .inl ⟨⟨_, hf, hs⟩, rfl⟩⟩⟩⟩
      | good h hp hb hi hf => rw [hm] at h; cases h; exact .inr ⟨_, _, hp, .inr ⟨hb, .inr ⟨hi, .inr ⟨hf, rfl⟩⟩⟩⟩
    rcases key h with ⟨e, a1, rfl⟩ | ⟨f, kid, a1, a⟩ <;> rcases key h' with ⟨e', b1, rfl⟩ | ⟨f', kid', b1, b⟩ <;>
      have hs := a1.unique b1 <;> cases hs
    · rfl
    rcases a with ⟨a2, rfl⟩ | ⟨a2, a⟩ <;> rcases b with ⟨b2, rfl⟩ | ⟨b2, b⟩
    · rfl
    · exact absurd b2 a2
    · exact absurd a2 b2
    rcases a with ⟨a3, rfl⟩ | ⟨a3, a⟩ <;> rcases b with ⟨b3, rfl⟩ | ⟨b3, b⟩
    · rfl
    · exact absurd b3 a3
    · exact absurd a3 b3
    rcases a with ⟨⟨x, a4, a5⟩, rfl⟩ | ⟨a4, rfl⟩ <;> rcases b with ⟨⟨y, b4, b5⟩, rfl⟩ | ⟨b4, rfl⟩
    · rfl
    · exact absurd (b4 _ a4) a5
    · exact absurd (a4 _ b4) b5
    · rfl

theorem SignedPacked.unique (hw : Willing C E) {m : Message} {signBy : Str} {r r' : Res Str} (h : SignedPacked C E m signBy r)
    (h' : SignedPacked C E m signBy r') : r = r' := by
  have key : ∀ {r}, SignedPacked C E m signBy r → (¬ LooksLikeDid signBy ∧ r = .error (.kind .illegalArgument)) ∨ (LooksLikeDid signBy ∧
      ((∃ e, Document E (didOf signBy) (.error e) ∧ r = .error e) ∨ ∃ doc, Document E (didOf signBy) (.ok doc) ∧
        ((HasFragment signBy ∧ signBy ∉ doc.authentication ∧ r = .error (.kind .didUrlNotFound)) ∨
         ((HasFragment signBy → signBy ∈ doc.authentication) ∧
          ((∃ e, OwnKey C E (signersMeant signBy doc) (.error e) ∧ r = .error e) ∨
           ∃ kid p, OwnKey C E (signersMeant signBy doc) (.ok (kid, p)) ∧
            ((∃ e, PlaintextPacked C E m (.error e) ∧ r = .error e) ∨
             (PlaintextPacked C E m (.ok ()) ∧ ∃ s, Signs C p s ∧ r = s.map fun _ => kid))))))) := by
    intro r h
    cases h with
    | notDid h => exact .inl ⟨h, rfl⟩
    | noDocument h hd => exact .inr ⟨h, .inl ⟨_, hd, rfl⟩⟩
    | notListed h hd hf hl => exact .inr ⟨h, .inr ⟨_, hd, .inl ⟨hf, hl, rfl⟩⟩⟩
    | noKey h hd hl ho => exact .inr ⟨h, .inr ⟨_, hd, .inr ⟨hl, .inl ⟨_, ho, rfl⟩⟩⟩⟩
    | badMessage h hd hl ho hm => exact .inr ⟨h, .inr ⟨_, hd, .inr ⟨hl, .inr ⟨_, _, ho, .inl ⟨_, hm, rfl⟩⟩⟩⟩⟩
    | signed h hd hl ho hm hs => exact .inr ⟨h, .inr ⟨_, hd, .inr ⟨hl, .inr ⟨_, _, ho, .inr ⟨hm, _, hs, rfl⟩⟩⟩⟩⟩
  rcases key h with ⟨a, rfl⟩ | ⟨a, ha⟩ <;> rcases key h' with ⟨b, rfl⟩ | ⟨b, hb⟩
  · rfl
  · exact absurd b a
  · exact absurd a b
  rcases ha with ⟨e, a1, rfl⟩ | ⟨doc, a1, ha⟩ <;> rcases hb with ⟨e', b1, rfl⟩ | ⟨doc', b1, hb⟩
  · rw [a1.sameError b1]
  · exact (b1.conflict a1).elim
  · exact (a1.conflict b1).elim
  cases a1.same b1
  rcases ha with ⟨a1, a2, rfl⟩ | ⟨a2, ha⟩ <;> rcases hb with ⟨b1, b2, rfl⟩ | ⟨b2, hb⟩
  · rfl
  · exact absurd (b2 a1) a2
  · exact absurd (a2 b1) b2
  rcases ha with ⟨e, a1, rfl⟩ | ⟨kid, p, a1, ha⟩ <;> rcases hb with ⟨e', b1, rfl⟩ | ⟨kid', p', b1, hb⟩ <;>
    have hs := a1.unique b1 <;> cases hs
  · rfl
  rcases ha with ⟨e, a3, rfl⟩ | ⟨a3, s, a4, rfl⟩ <;> rcases hb with ⟨e', b3, rfl⟩ | ⟨b3, s', b4, rfl⟩ <;>
    have hs := a3.unique b3 <;> cases hs
  · rfl
  · obtain ⟨sec, h1, h2⟩ := a1.get
    rw [a4.unique (hw.sign _ _ _ h1 h2) b4]

/-! ## Encryption -/

theorem FirstUnreadable.notReadable {doc : DIDDoc} {kids : List Str} {e : Err} (h : FirstUnreadable C doc kids e) (h' : Readable C doc kids) : False := by
  obtain ⟨pre, kid, post, vm, rfl, _, hm, hk⟩ := h
  obtain ⟨vm', p, hm', hk'⟩ := h' kid (by simp)
  rw [hm] at hm'; cases hm'
  rw [hk] at hk'; cases hk'

theorem FirstUnreadable.unique {doc : DIDDoc} {kids : List Str} {e e' : Err} (h : FirstUnreadable C doc kids e)
    (h' : FirstUnreadable C doc kids e') : e = e' := by
  obtain ⟨pre, kid, post, vm, rfl, hr, hm, hk⟩ := h
  obtain ⟨pre', kid', post', vm', he, hr', hm', hk'⟩ := h'
  let P : Str → Prop := fun kid => ¬ ∃ vm p, methodOf doc kid = some vm ∧ vm.asKeyPair C = .ok p
  obtain ⟨_, rfl, _⟩ := append_cons_unique (P := P) he (fun a ha hn => hn (hr a ha)) (fun a ha hn => hn (hr' a ha))
    (by rintro ⟨v, p, h1, h2⟩; rw [hm] at h1; cases h1; rw [hk] at h2; cases h2)
    (by rintro ⟨v, p, h1, h2⟩; rw [hm'] at h1; cases h1; rw [hk'] at h2; cases h2)
  rw [hm] at hm'; cases hm'
  rw [hk] at hk'; cases hk'
  rfl

theorem AnonSealed.unique {doc : DIDDoc} {kids : List Str} {alg : AnonCryptAlg}
    (hw : ∀ c ce kids, ForAgreement c → ¬ EncryptRefused C ce c (KeyAmong C doc kids c) (AgreesEs C c))
    {r r' : Res (List Str)} (h : AnonSealed C doc kids alg r) (h' : AnonSealed C doc kids alg r') : r = r' := by
  have key : ∀ {r}, AnonSealed C doc kids alg r → (kids = [] ∧ r = .error (.kind .didUrlNotFound)) ∨
      ((∃ k ∈ kids, methodOf doc k = none) ∧ r = .error (.kind .unsupported)) ∨
      ((∀ k ∈ kids, methodOf doc k ≠ none) ∧ kids ≠ [] ∧
       ((kids.findSome? (keyTypeOf doc) = none ∧ r = .error (.kind .invalidState)) ∨ ∃ c, kids.findSome? (keyTypeOf doc) = some c ∧
        ((¬ ForAgreement c ∧ r = .error (.kind .invalidState)) ∨ (ForAgreement c ∧
         ((∃ e, FirstUnreadable C doc (ofType doc c kids) e ∧ r = .error e) ∨ (Readable C doc (ofType doc c kids) ∧ r = .ok (ofType doc c kids))))))) := by
    intro r h
    have hne : ∀ {c}, kids.findSome? (keyTypeOf doc) = some c → kids ≠ [] := by rintro c h rfl; cases h
    cases h with
    | notListed h => exact .inl ⟨h, rfl⟩
    | noMethod h hm => exact .inr (.inl ⟨⟨_, h, hm⟩, rfl⟩)
    | noType h hm ht => exact .inr (.inr ⟨hm, h, .inl ⟨List.findSome?_eq_none_iff.2 ht, rfl⟩⟩)
    | otherType hm ht hc => exact .inr (.inr ⟨hm, hne ht, .inr ⟨_, ht, .inl ⟨hc, rfl⟩⟩⟩)
    | unreadable hm ht hc hr => exact .inr (.inr ⟨hm, hne ht, .inr ⟨_, ht, .inr ⟨hc, .inl ⟨_, hr, rfl⟩⟩⟩⟩)
    | refused hm ht hc hr hx => exact absurd hx (hw _ _ _ hc)
    | sealed hm ht hc hr => exact .inr (.inr ⟨hm, hne ht, .inr ⟨_, ht, .inr ⟨hc, .inr ⟨hr, rfl⟩⟩⟩⟩)
  rcases key h with ⟨a1, rfl⟩ | ⟨⟨k, a1, a2⟩, rfl⟩ | ⟨a1, a2, a⟩ <;> rcases key h' with ⟨b1, rfl⟩ | ⟨⟨k', b1, b2⟩, rfl⟩ | ⟨b1, b2, b⟩
  · rfl
  · rw [a1] at b1; cases b1
  · exact absurd a1 b2
  · rw [b1] at a1; cases a1
  · rfl
  · exact absurd a2 (b1 _ a1)
  · exact absurd b1 a2
  · exact absurd b2 (a1 _ b1)
  rcases a with ⟨a3, rfl⟩ | ⟨c, a3, a⟩ <;> rcases b with ⟨b3, rfl⟩ | ⟨c', b3, b⟩
  · rfl
  · rw [a3] at b3; cases b3
  · rw [a3] at b3; cases b3
  rw [a3] at b3; cases b3
  rcases a with ⟨a4, rfl⟩ | ⟨a4, a⟩ <;> rcases b with ⟨b4, rfl⟩ | ⟨b4, b⟩
  · rfl
  · exact absurd b4 a4
  · exact absurd a4 b4
  rcases a with ⟨e, a5, rfl⟩ | ⟨a5, rfl⟩ <;> rcases b with ⟨e', b5, rfl⟩ | ⟨b5, rfl⟩
  · rw [a5.unique b5]
  · exact (a5.notReadable b5).elim
  · exact (b5.notReadable a5).elim
  · rfl

theorem Anoncrypted.unique (hw : Willing C E) {to : Str} {alg : AnonCryptAlg} {r r' : Res (List Str)} (h : Anoncrypted C E to alg r)
    (h' : Anoncrypted C E to alg r') : r = r' := by
  cases h with
  | noDocument a => cases h' with
    | noDocument b => rw [a.sameError b]
    | document b _ => exact (b.conflict a).elim
  | document a as => cases h' with
    | noDocument b => exact (a.conflict b).elim
    | document b bs =>
      cases a.same b
      cases a with
      | found a => exact as.unique (fun c ce kids hc => hw.anon _ _ kids c ce a hc) bs

theorem AuthSealed.unique {toDoc : DIDDoc} {kids : List Str} {kid : Str} {c : Curve} {alg : AnonCryptAlg} {ps : Bool}
    (hw : Willing C E) {did : Str} (hd : E.resolve did = .ok (some toDoc))
    {r r' : Res (Str × List Str)} (h : AuthSealed C E toDoc kids kid c alg ps r) (h' : AuthSealed C E toDoc kids kid c alg ps r') : r = r' := by
  have key : ∀ {r}, AuthSealed C E toDoc kids kid c alg ps r → (∃ k, E.getSecret kid = .error k ∧ r = .error (.kind k)) ∨
      (E.getSecret kid = .ok none ∧ r = .error (.kind .invalidState)) ∨
      ∃ s, E.getSecret kid = .ok (some s) ∧ ((¬ ForAgreement c ∧ r = .error (.kind .unsupported)) ∨ (ForAgreement c ∧
        ((∃ e, FirstUnreadable C toDoc kids e ∧ r = .error e) ∨ (Readable C toDoc kids ∧
          ((s.keyAlg ≠ some c ∧ r = .error (.kind .invalidState)) ∨ (s.keyAlg = some c ∧
            ((∃ e, s.asKeyPair C = .error e ∧ r = .error e) ∨ ((∃ p, s.asKeyPair C = .ok p) ∧ r = .ok (kid, kids))))))))) := by
    intro r h
    cases h with
    | failed h => exact .inl ⟨_, h, rfl⟩
    | gone h => exact .inr (.inl ⟨h, rfl⟩)
    | otherType h hc => exact .inr (.inr ⟨_, h, .inl ⟨hc, rfl⟩⟩)
    | unreadable h hc hr => exact .inr (.inr ⟨_, h, .inr ⟨hc, .inl ⟨_, hr, rfl⟩⟩⟩)
    | otherSecret h hc hr ht => exact .inr (.inr ⟨_, h, .inr ⟨hc, .inr ⟨hr, .inl ⟨ht, rfl⟩⟩⟩⟩)
    | badSecret h hc hr ht hs => exact .inr (.inr ⟨_, h, .inr ⟨hc, .inr ⟨hr, .inr ⟨ht, .inl ⟨_, hs, rfl⟩⟩⟩⟩⟩)
    | refused h hc hr hs hx =>
      rcases hx with hx | ⟨_, hx⟩
      · exact absurd hx (hw.auth _ _ _ _ _ _ _ hd hc h hs)
      · exact absurd hx (hw.anon _ _ _ _ _ hd hc)
    | sealed h hc hr hs => exact .inr (.inr ⟨_, h, .inr ⟨hc, .inr ⟨hr, .inr ⟨by simpa using secret_keyAlg hs, .inr ⟨⟨_, hs⟩, rfl⟩⟩⟩⟩⟩)
  rcases key h with ⟨k, a1, rfl⟩ | ⟨a1, rfl⟩ | ⟨s, a1, a⟩ <;> rcases key h' with ⟨k', b1, rfl⟩ | ⟨b1, rfl⟩ | ⟨s', b1, b⟩ <;>
    have hs := a1.symm.trans b1 <;> cases hs
  · rfl
  · rfl
  rcases a with ⟨a4, rfl⟩ | ⟨a4, a⟩ <;> rcases b with ⟨b4, rfl⟩ | ⟨b4, b⟩
  · rfl
  · exact absurd b4 a4
  · exact absurd a4 b4
  rcases a with ⟨e, a5, rfl⟩ | ⟨a5, a⟩ <;> rcases b with ⟨e', b5, rfl⟩ | ⟨b5, b⟩
  · rw [a5.unique b5]
  · exact (a5.notReadable b5).elim
  · exact (b5.notReadable a5).elim
  rcases a with ⟨a6, rfl⟩ | ⟨a6, a⟩ <;> rcases b with ⟨b6, rfl⟩ | ⟨b6, b⟩
  · rfl
  · exact absurd b6 a6
  · exact absurd a6 b6
  rcases a with ⟨e, a7, rfl⟩ | ⟨⟨p, a7⟩, rfl⟩ <;> rcases b with ⟨e', b7, rfl⟩ | ⟨⟨p', b7⟩, rfl⟩ <;>
    have hs := a7.symm.trans b7 <;> cases hs <;> rfl

theorem Negotiated.unique {toDoc fromDoc : DIDDoc} {to : Str} {found : List Str} {alg : AnonCryptAlg} {ps : Bool} (hn : found ≠ [])
    (hw : Willing C E) {did : Str} (hd : E.resolve did = .ok (some toDoc))
    {r r' : Res (Str × List Str)} (h : Negotiated C E toDoc fromDoc to found alg ps r) (h' : Negotiated C E toDoc fromDoc to found alg ps r') :
    r = r' := by
  have key : ∀ {r}, Negotiated C E toDoc fromDoc to found alg ps r → ((∃ k ∈ found, methodOf fromDoc k = none) ∧ r = .error (.kind .malformed)) ∨
      ((∀ k ∈ found, methodOf fromDoc k ≠ none) ∧ ((meantBy to toDoc.keyAgreement = [] ∧ r = .error (.kind .didUrlNotFound)) ∨
       (meantBy to toDoc.keyAgreement ≠ [] ∧ (((∃ k ∈ meantBy to toDoc.keyAgreement, methodOf toDoc k = none) ∧ r = .error (.kind .malformed)) ∨
        ((∀ k ∈ meantBy to toDoc.keyAgreement, methodOf toDoc k ≠ none) ∧
         ((found.find? (fun k => Compatible fromDoc toDoc to k) = none ∧ r = .error (.kind .noCompatibleCrypto)) ∨
          ∃ kid c, found.find? (fun k => Compatible fromDoc toDoc to k) = some kid ∧ keyTypeOf fromDoc kid = some c ∧
            AuthSealed C E toDoc (ofType toDoc c (meantBy to toDoc.keyAgreement)) kid c alg ps r)))))) := by
    intro r h
    cases h with
    | noSenderMethod h hm => exact .inl ⟨⟨_, h, hm⟩, rfl⟩
    | notListed hf h => exact .inr ⟨hf, .inl ⟨h, rfl⟩⟩
    | noMethod hf h hm => exact .inr ⟨hf, .inr ⟨(by rintro he; rw [he] at h; cases h), .inl ⟨⟨_, h, hm⟩, rfl⟩⟩⟩
    | incompatible hf h hm hc => exact .inr ⟨hf, .inr ⟨h, .inr ⟨hm, .inl ⟨by simpa using hc, rfl⟩⟩⟩⟩
    | chosen hf hm hk hc hs =>
      rename_i kid c
      refine .inr ⟨hf, .inr ⟨?_, .inr ⟨hm, .inr ⟨_, _, hk, hc, hs⟩⟩⟩⟩
      intro he
      have : Compatible fromDoc toDoc to kid := by simpa using List.find?_some hk
      obtain ⟨c, _, k, hk, _⟩ := this
      rw [he] at hk; cases hk
  rcases key h with ⟨⟨k, a1, a2⟩, rfl⟩ | ⟨a1, a⟩ <;> rcases key h' with ⟨⟨k', b1, b2⟩, rfl⟩ | ⟨b1, b⟩
  · rfl
  · exact absurd a2 (b1 _ a1)
  · exact absurd b2 (a1 _ b1)
  rcases a with ⟨a2, rfl⟩ | ⟨a2, a⟩ <;> rcases b with ⟨b2, rfl⟩ | ⟨b2, b⟩
  · rfl
  · exact absurd a2 b2
  · exact absurd b2 a2
  rcases a with ⟨⟨k, a3, a4⟩, rfl⟩ | ⟨a3, a⟩ <;> rcases b with ⟨⟨k', b3, b4⟩, rfl⟩ | ⟨b3, b⟩
  · rfl
  · exact absurd a4 (b3 _ a3)
  · exact absurd b4 (a3 _ b3)
  rcases a with ⟨a4, rfl⟩ | ⟨kid, c, a4, a5, a6⟩ <;> rcases b with ⟨b4, rfl⟩ | ⟨kid', c', b4, b5, b6⟩ <;>
    have hs := a4.symm.trans b4 <;> cases hs
  · rfl
  · have hs := a5.symm.trans b5
    cases hs
    exact a6.unique hw hd b6

theorem Authcrypted.unique (hw : Willing C E) {to from_ : Str} {alg : AnonCryptAlg} {ps : Bool} {r r' : Res (Str × List Str)}
    (h : Authcrypted C E to from_ alg ps r) (h' : Authcrypted C E to from_ alg ps r') : r = r' := by
  have key : ∀ {r}, Authcrypted C E to from_ alg ps r → (∃ e, Document E (didOf to) (.error e) ∧ r = .error e) ∨
      ∃ toDoc, Document E (didOf to) (.ok toDoc) ∧ ((∃ e, Document E (didOf from_) (.error e) ∧ r = .error e) ∨
      ∃ fromDoc, Document E (didOf from_) (.ok fromDoc) ∧ ((meantBy from_ fromDoc.keyAgreement = [] ∧ r = .error (.kind .didUrlNotFound)) ∨
       (meantBy from_ fromDoc.keyAgreement ≠ [] ∧ ((∃ k, E.findSecrets (meantBy from_ fromDoc.keyAgreement) = .error k ∧ r = .error (.kind k)) ∨
        (E.findSecrets (meantBy from_ fromDoc.keyAgreement) = .ok [] ∧ r = .error (.kind .secretNotFound)) ∨
        ∃ found, E.findSecrets (meantBy from_ fromDoc.keyAgreement) = .ok found ∧ found ≠ [] ∧ Negotiated C E toDoc fromDoc to found alg ps r)))) := by
    intro r h
    cases h with
    | noRecipient h => exact .inl ⟨_, h, rfl⟩
    | noSender h hf => exact .inr ⟨_, h, .inl ⟨_, hf, rfl⟩⟩
    | notListed h hf hl => exact .inr ⟨_, h, .inr ⟨_, hf, .inl ⟨hl, rfl⟩⟩⟩
    | failed h hf hl hs => exact .inr ⟨_, h, .inr ⟨_, hf, .inr ⟨hl, .inl ⟨_, hs, rfl⟩⟩⟩⟩
    | nothing h hf hl hs => exact .inr ⟨_, h, .inr ⟨_, hf, .inr ⟨hl, .inr (.inl ⟨hs, rfl⟩)⟩⟩⟩
    | found h hf hl hs hn hr => exact .inr ⟨_, h, .inr ⟨_, hf, .inr ⟨hl, .inr (.inr ⟨_, hs, hn, hr⟩)⟩⟩⟩
  rcases key h with ⟨e, a1, rfl⟩ | ⟨doc, a1, a⟩ <;> rcases key h' with ⟨e', b1, rfl⟩ | ⟨doc', b1, b⟩
  · rw [a1.sameError b1]
  · exact (b1.conflict a1).elim
  · exact (a1.conflict b1).elim
  cases a1.same b1
  rcases a with ⟨e, a2, rfl⟩ | ⟨fdoc, a2, a⟩ <;> rcases b with ⟨e', b2, rfl⟩ | ⟨fdoc', b2, b⟩
  · rw [a2.sameError b2]
  · exact (b2.conflict a2).elim
  · exact (a2.conflict b2).elim
  cases a2.same b2
  rcases a with ⟨a3, rfl⟩ | ⟨a3, a⟩ <;> rcases b with ⟨b3, rfl⟩ | ⟨b3, b⟩
  · rfl
  · exact absurd a3 b3
  · exact absurd b3 a3
  rcases a with ⟨k, a4, rfl⟩ | ⟨a4, rfl⟩ | ⟨found, a4, a5, a⟩ <;> rcases b with ⟨k', b4, rfl⟩ | ⟨b4, rfl⟩ | ⟨found', b4, b5, b⟩ <;>
    have hs := a4.symm.trans b4 <;> cases hs
  · rfl
  · rfl
  · exact absurd rfl b5
  · exact absurd rfl a5
  · cases a1 with
    | found a1 => exact a.unique a5 hw a1 b

/-! ## Forwarding -/

theorem Routed.unique {to : Str} {sid : Option Str} {r r' : Res (List (Str × DIDCommMessagingService))} (h : Routed E to sid r)
    (h' : Routed E to sid r') : r = r' := by
  have key : ∀ {r}, Routed E to sid r → (∃ e, Document E (didOf to) (.error e) ∧ r = .error e) ∨
      ∃ doc, Document E (didOf to) (.ok doc) ∧ ((∃ e, Selects doc.service sid (.error e) ∧ r = .error e) ∨
        (Selects doc.service sid (.ok none) ∧ r = .ok []) ∨
        ∃ s, Selects doc.service sid (.ok (some s)) ∧ ((¬ LooksLikeDid s.2.uri ∧ r = .ok [s]) ∨ (LooksLikeDid s.2.uri ∧
         ((∃ e, Document E s.2.uri (.error e) ∧ r = .error e) ∨ ∃ doc', Document E s.2.uri (.ok doc') ∧
          ((Selects doc'.service none (.ok none) ∧ r = .error (.kind .invalidState)) ∨
           ∃ s', Selects doc'.service none (.ok (some s')) ∧ ((LooksLikeDid s'.2.uri ∧ r = .error (.kind .invalidState)) ∨
            (¬ LooksLikeDid s'.2.uri ∧ r = .ok [s', s]))))))) := by
    intro r h
    cases h with
    | noDocument h => exact .inl ⟨_, h, rfl⟩
    | badService h hs => exact .inr ⟨_, h, .inl ⟨_, hs, rfl⟩⟩
    | noService h hs => exact .inr ⟨_, h, .inr (.inl ⟨hs, rfl⟩)⟩
    | direct h hs hd => exact .inr ⟨_, h, .inr (.inr ⟨_, hs, .inl ⟨hd, rfl⟩⟩)⟩
    | noMediator h hs hd hm => exact .inr ⟨_, h, .inr (.inr ⟨_, hs, .inr ⟨hd, .inl ⟨_, hm, rfl⟩⟩⟩)⟩
    | noMediatorService h hs hd hm hs' => exact .inr ⟨_, h, .inr (.inr ⟨_, hs, .inr ⟨hd, .inr ⟨_, hm, .inl ⟨hs', rfl⟩⟩⟩⟩)⟩
    | nested h hs hd hm hs' hd' => exact .inr ⟨_, h, .inr (.inr ⟨_, hs, .inr ⟨hd, .inr ⟨_, hm, .inr ⟨_, hs', .inl ⟨hd', rfl⟩⟩⟩⟩⟩)⟩
    | mediated h hs hd hm hs' hd' => exact .inr ⟨_, h, .inr (.inr ⟨_, hs, .inr ⟨hd, .inr ⟨_, hm, .inr ⟨_, hs', .inr ⟨hd', rfl⟩⟩⟩⟩⟩)⟩
  rcases key h with ⟨e, a1, rfl⟩ | ⟨doc, a1, a⟩ <;> rcases key h' with ⟨e', b1, rfl⟩ | ⟨doc', b1, b⟩
  · rw [a1.sameError b1]
  · exact (b1.conflict a1).elim
  · exact (a1.conflict b1).elim
  cases a1.same b1
  rcases a with ⟨e, a2, rfl⟩ | ⟨a2, rfl⟩ | ⟨s, a2, a⟩ <;> rcases b with ⟨e', b2, rfl⟩ | ⟨b2, rfl⟩ | ⟨s', b2, b⟩ <;>
    have hs := a2.unique b2 <;> cases hs
  · rfl
  · rfl
  rcases a with ⟨a3, rfl⟩ | ⟨a3, a⟩ <;> rcases b with ⟨b3, rfl⟩ | ⟨b3, b⟩
  · rfl
  · exact absurd b3 a3
  · exact absurd a3 b3
  rcases a with ⟨e, a4, rfl⟩ | ⟨d, a4, a⟩ <;> rcases b with ⟨e', b4, rfl⟩ | ⟨d', b4, b⟩
  · rw [a4.sameError b4]
  · exact (b4.conflict a4).elim
  · exact (a4.conflict b4).elim
  cases a4.same b4
  rcases a with ⟨a5, rfl⟩ | ⟨s, a5, a⟩ <;> rcases b with ⟨b5, rfl⟩ | ⟨s', b5, b⟩ <;> have hs := a5.unique b5 <;> cases hs
  · rfl
  rcases a with ⟨a6, rfl⟩ | ⟨a6, rfl⟩ <;> rcases b with ⟨b6, rfl⟩ | ⟨b6, rfl⟩
  · rfl
  · exact absurd a6 b6
  · exact absurd b6 a6
  · rfl

theorem Wrapped.unique (hw : Willing C E) {alg : AnonCryptAlg} {keys : List Str} {r r' : Res Unit} (h : Wrapped C E alg keys r)
    (h' : Wrapped C E alg keys r') : r = r' := by
  induction keys generalizing r r' with
  | nil => cases h; cases h'; rfl
  | cons k ks ih =>
    cases h with
    | failed a => cases h' with
      | failed b => have hs := a.unique hw b; cases hs; rfl
      | step b _ => have hs := a.unique hw b; cases hs
    | step a ar => cases h' with
      | failed b => have hs := a.unique hw b; cases hs
      | step b br => exact ih ar br

theorem ForwardWrapped.unique (hw : Willing C E) {msg : Str} {keys : List Str} {alg : AnonCryptAlg} {r r' : Res Unit}
    (h : ForwardWrapped C E msg keys alg r) (h' : ForwardWrapped C E msg keys alg r') : r = r' := by
  cases h with
  | noKeys h => cases h' <;> first | rfl | exact absurd h ‹_›
  | notJson h hj => cases h' with
    | noKeys h' => exact absurd h' h
    | notJson _ _ => rfl
    | json _ hj' _ => exact absurd hj' (hj _)
  | json h hj hr => cases h' with
    | noKeys h' => exact absurd h' h
    | notJson _ hj' => exact absurd hj (hj' _)
    | json _ _ hr' => exact hr.unique hw hr'

theorem Forwarded.unique (hw : Willing C E) {to : Str} {opts : PackEncryptedOptions} {r r' : Res (Option MessagingServiceMetadata)}
    (h : Forwarded C E to opts r) (h' : Forwarded C E to opts r') : r = r' := by
  have key : ∀ {r}, Forwarded C E to opts r → (opts.forward = false ∧ r = .ok none) ∨ (opts.forward = true ∧
      ((∃ e, Routed E to opts.messagingService (.error e) ∧ r = .error e) ∨ ∃ chain, Routed E to opts.messagingService (.ok chain) ∧
       ((routeOf chain = [] ∧ r = .ok none) ∨ (routeOf chain ≠ [] ∧ ∃ first last x, chain.head? = some first ∧ chain.getLast? = some last ∧
         Wrapped C E opts.encAlgAnon (routeOf chain).reverse x ∧ r = x.map fun _ => some ⟨last.1, first.2.uri⟩)))) := by
    intro r h
    cases h with
    | off h => exact .inl ⟨h, rfl⟩
    | noRoute h hr => exact .inr ⟨h, .inl ⟨_, hr, rfl⟩⟩
    | notNeeded h hr hk => exact .inr ⟨h, .inr ⟨_, hr, .inl ⟨hk, rfl⟩⟩⟩
    | wrapped h hr hk h1 h2 hw => exact .inr ⟨h, .inr ⟨_, hr, .inr ⟨hk, _, _, _, h1, h2, hw, rfl⟩⟩⟩
  rcases key h with ⟨a1, rfl⟩ | ⟨a1, a⟩ <;> rcases key h' with ⟨b1, rfl⟩ | ⟨b1, b⟩
  · rfl
  · rw [a1] at b1; cases b1
  · rw [a1] at b1; cases b1
  rcases a with ⟨e, a2, rfl⟩ | ⟨chain, a2, a⟩ <;> rcases b with ⟨e', b2, rfl⟩ | ⟨chain', b2, b⟩ <;> have hs := a2.unique b2 <;> cases hs
  · rfl
  rcases a with ⟨a3, rfl⟩ | ⟨a3, f, l, x, a4, a5, a6, rfl⟩ <;> rcases b with ⟨b3, rfl⟩ | ⟨b3, f', l', x', b4, b5, b6, rfl⟩
  · rfl
  · exact absurd a3 b3
  · exact absurd b3 a3
  · rw [a4] at b4; cases b4
    rw [a5] at b5; cases b5
    rw [a6.unique hw b6]

theorem InnerPacked.unique (hw : Willing C E) {m : Message} {signBy : Option Str} {r r' : Res (Option Str)}
    (h : InnerPacked C E m signBy r) (h' : InnerPacked C E m signBy r') : r = r' := by
  cases h with
  | plain a => cases h' with | plain b => rw [a.unique b]
  | signed a => cases h' with | signed b => rw [a.unique hw b]

theorem Crypted.unique (hw : Willing C E) {to : Str} {opts : PackEncryptedOptions} {from_ : Option Str} {r r' : Res (Option Str × List Str)}
    (h : Crypted C E to opts from_ r) (h' : Crypted C E to opts from_ r') : r = r' := by
  cases h with
  | anon a => cases h' with | anon b => rw [a.unique hw b]
  | auth a => cases h' with | auth b => rw [a.unique hw b]

theorem EncryptedPacked.unique (hw : Willing C E) {m : Message} {to : Str} {from_ signBy : Option Str} {opts : PackEncryptedOptions}
    {r r' : Res PackEncryptedMetadata} (h : EncryptedPacked C E m to from_ signBy opts r) (h' : EncryptedPacked C E m to from_ signBy opts r') :
    r = r' := by
  cases h with
  | illegal a => cases h' <;> first | rfl | exact absurd a ‹_›
  | inner a ai => cases h' with
    | illegal b => exact absurd b a
    | inner b bi | crypt b bi _ | forward b bi _ _ | packed b bi _ _ => have hs := ai.unique hw bi; cases hs <;> rfl
  | crypt a ai ac => cases h' with
    | illegal b => exact absurd b a
    | inner b bi => have hs := ai.unique hw bi; cases hs
    | crypt b bi bc | forward b bi bc _ | packed b bi bc _ => have hs := ac.unique hw bc; cases hs <;> rfl
  | forward a ai ac af => cases h' with
    | illegal b => exact absurd b a
    | inner b bi => have hs := ai.unique hw bi; cases hs
    | crypt b bi bc => have hs := ac.unique hw bc; cases hs
    | forward b bi bc bf | packed b bi bc bf => have hs := af.unique hw bf; cases hs <;> rfl
  | packed a ai ac af => cases h' with
    | illegal b => exact absurd b a
    | inner b bi => have hs := ai.unique hw bi; cases hs
    | crypt b bi bc => have hs := ac.unique hw bc; cases hs
    | forward b bi bc bf => have hs := af.unique hw bf; cases hs
    | packed b bi bc bf =>
      have h1 := ai.unique hw bi
      have h2 := ac.unique hw bc
      have h3 := af.unique hw bf
      cases h1; cases h2; cases h3; rfl

end DIDComm
