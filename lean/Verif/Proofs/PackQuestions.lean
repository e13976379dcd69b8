import Verif.Spec.PackQuestions
import Verif.Proofs.Questions
import Verif.Proofs.OutcomeUnique

/-! # How the questions of packing are proved -/

set_option autoImplicit false

namespace DIDComm

variable {C : Crypto} {E : Env} {α β : Type}

/-- Every run with the answers of `E` puts a list of questions to the resolvers and ends as `P` says. -/
def Consults (E : Env) (p : Prog α) (P : List Query → Res α → Prop) : Prop :=
  ∀ tr r, Runs p tr r → Answers E tr → P (questionsOf tr) r

theorem questionsOf_append (t t' : List Event) : questionsOf (t ++ t') = questionsOf t ++ questionsOf t' := by
  simp [questionsOf]

namespace Consults

theorem of {p : Prog α} {P : List Query → Res α → Prop} (h : Asks E p (fun qs r => P (qs.filter Query.toResolver) r)) : Consults E p P :=
  fun tr r hr ha => h tr r hr ha

theorem lift {x : Res α} {P : List Query → Res α → Prop} (h : P [] x) : Consults E (Prog.lift x) P := of (Asks.lift h)

theorem pure {x : α} {P : List Query → Res α → Prop} (h : P [] (.ok x)) : Consults E (Pure.pure x : Prog α) P := of (Asks.pure h)

theorem ret {x : Res α} {P : List Query → Res α → Prop} (h : P [] x) : Consults E (.ret x) P := of (Asks.ret h)

theorem fail {k : ErrorKind} {P : List Query → Res α → Prop} (h : P [] (.error (.kind k))) : Consults E (Prog.fail k : Prog α) P :=
  of (Asks.fail h)

theorem mono {p : Prog α} {P Q : List Query → Res α → Prop} (h : Consults E p P) (hi : ∀ qs r, P qs r → Q qs r) : Consults E p Q :=
  fun tr r hr ha => hi _ r (h tr r hr ha)

theorem and {p : Prog α} {P : List Query → Res α → Prop} {Q : Res α → Prop} (h : Consults E p P) (hy : Yields E p Q) :
    Consults E p (fun qs r => P qs r ∧ Q r) := fun tr r hr ha => ⟨h tr r hr ha, hy tr r hr ha⟩

theorem bind {p : Prog α} {f : α → Prog β} {Q : List Query → Res α → Prop} {P : List Query → Res β → Prop} (hp : Consults E p Q)
    (he : ∀ qs e, Q qs (.error e) → P qs (.error e)) (ho : ∀ qs a, Q qs (.ok a) → Consults E (f a) (fun qs' r => P (qs ++ qs') r)) :
    Consults E (p >>= f) P := by
  intro tr r hr ha
  rcases runs_bind.1 hr with ⟨e, h, rfl⟩ | ⟨a, t1, t2, rfl, h1, h2⟩
  · exact he _ e (hp _ _ h ha)
  · obtain ⟨ha1, ha2⟩ := answers_append.1 ha
    rw [questionsOf_append]
    exact ho _ a (hp _ _ h1 ha1) _ _ h2 ha2

theorem liftBind {x : Res α} {f : α → Prog β} {P : List Query → Res β → Prop} (he : ∀ e, x = .error e → P [] (.error e))
    (ho : ∀ a, x = .ok a → Consults E (f a) P) : Consults E (Prog.lift x >>= f) P := by
  refine bind (Q := fun qs r => qs = [] ∧ x = r) (lift ⟨rfl, rfl⟩) ?_ ?_
  · rintro qs e ⟨rfl, h⟩; exact he e h
  · rintro qs a ⟨rfl, h⟩; exact ho a h

theorem randomBind {f : Nat → Prog β} {P : List Query → Res β → Prop} (h : ∀ n, Consults E (f n) P) : Consults E (random >>= f) P := by
  refine bind (Q := fun qs r => qs = [] ∧ ∃ n, r = .ok n) ?_ ?_ ?_
  · intro tr r hr _
    obtain ⟨n, rfl, rfl⟩ := runs_random.1 hr
    exact ⟨rfl, n, rfl⟩
  · rintro qs e ⟨-, n, h⟩; cases h
  · rintro qs a ⟨rfl, n, h'⟩; exact h a

theorem findBind {d : List Str} {f : List Str → Prog β} {P : List Query → Res β → Prop}
    (he : ∀ k, E.findSecrets d = .error k → P [.findSecrets d] (.error (.kind k)))
    (ho : ∀ l, E.findSecrets d = .ok l → Consults E (f l) (fun qs r => P (.findSecrets d :: qs) r)) :
    Consults E (findSecrets d >>= f) P := by
  refine bind (Q := fun qs r => qs = [.findSecrets d] ∧ _) ((of (Asks.find.mono ?_)).and Yields.find') ?_ ?_
  · rintro qs r rfl; rfl
  · rintro qs e ⟨rfl, ⟨x, _, h⟩ | ⟨k, h, h'⟩⟩
    · cases h
    · cases h'; exact he k h
  · rintro qs a ⟨rfl, ⟨x, h, h'⟩ | ⟨k, _, h'⟩⟩
    · cases h'; exact ho _ h
    · cases h'

theorem getBind {d : Str} {f : Option Secret → Prog β} {P : List Query → Res β → Prop}
    (he : ∀ k, E.getSecret d = .error k → P [.getSecret d] (.error (.kind k)))
    (ho : ∀ l, E.getSecret d = .ok l → Consults E (f l) (fun qs r => P (.getSecret d :: qs) r)) : Consults E (getSecret d >>= f) P := by
  refine bind (Q := fun qs r => qs = [.getSecret d] ∧ _) ((of (Asks.get.mono ?_)).and Yields.get') ?_ ?_
  · rintro qs r rfl; rfl
  · rintro qs e ⟨rfl, ⟨x, _, h⟩ | ⟨k, h, h'⟩⟩
    · cases h
    · cases h'; exact he k h
  · rintro qs a ⟨rfl, ⟨x, h, h'⟩ | ⟨k, _, h'⟩⟩
    · cases h'; exact ho _ h
    · cases h'

theorem docBind {d : Str} {f : DIDDoc → Prog β} {P : List Query → Res β → Prop}
    (he : ∀ e, Document E d (.error e) → P [.resolve d] (.error e))
    (ho : ∀ doc, Document E d (.ok doc) → Consults E (f doc) (fun qs r => P (.resolve d :: qs) r)) :
    Consults E (resolve d >>= fun doc => Prog.lift (okOr .didNotResolved doc) >>= f) P := by
  refine bind (Q := fun qs r => qs = [.resolve d] ∧ _) ((of (Asks.res.mono ?_)).and Yields.resolve') ?_ ?_
  · rintro qs r rfl; rfl
  · rintro qs e ⟨rfl, ⟨x, _, h⟩ | ⟨k, h, h'⟩⟩
    · cases h
    · cases h'; exact he _ (.failed h)
  · rintro qs a ⟨rfl, ⟨x, h, h'⟩ | ⟨k, _, h'⟩⟩
    · cases h'
      cases a with
      | none => exact liftBind (fun e h' => by cases h'; exact he _ (.unknown h)) (fun _ h' => by cases h')
      | some doc => exact liftBind (fun e h' => by cases h') (fun _ h' => by cases h'; exact ho _ (.found h))
    · cases h'

theorem ownKey {kids : List Str} {f : Str → KeyPair C → Prog β} {P : List Query → Res β → Prop}
    (he : ∀ e qs, OwnKey C E kids (.error e) → OwnKeyQuestions E kids qs → P qs (.error e))
    (ho : ∀ kid p qs, OwnKey C E kids (.ok (kid, p)) → OwnKeyQuestions E kids qs → Consults E (f kid p) (fun qs' r => P (qs ++ qs') r)) :
    Consults E (findSecrets kids >>= fun found => Prog.lift (okOr .secretNotFound found.head?) >>= fun kid =>
      getSecret kid >>= fun secret => Prog.lift (okOr .secretNotFound secret) >>= fun secret =>
      Prog.lift (secret.asKeyPair C) >>= fun pair => f kid pair) P := by
  refine findBind (fun k h => he _ _ (.findFailed h) (.none fun _ _ h' => by rw [h] at h'; cases h')) ?_
  rintro (_ | ⟨kid, rest⟩) hf
  · exact liftBind (fun e h => by cases h; exact he _ _ (.nothing hf) (.none fun _ _ h' => by rw [hf] at h'; cases h')) (fun a h => by cases h)
  · refine liftBind (fun e h => by cases h) (fun a h => ?_)
    cases h
    refine getBind (fun k h => he _ _ (.getFailed hf h) (.first hf)) ?_
    rintro (_ | s) hg
    · exact liftBind (fun e h => by cases h; exact he _ _ (.gone hf hg) (.first hf)) (fun a h => by cases h)
    · refine liftBind (fun e h => by cases h) (fun a h => ?_)
      cases h
      exact liftBind (fun e h => he _ _ (.unreadable hf hg h) (.first hf)) (fun p h => ho _ _ _ (.key hf hg h) (.first hf))

/-- Nothing more is asked. -/
theorem const {p : Prog α} {P : List Query → Prop} (hp : Consults E p (fun qs _ => qs = [])) (h : P []) : Consults E p (fun qs _ => P qs) :=
  hp.mono fun _ _ e => e ▸ h

end Consults

/-! ## `from_prior`, plaintext, signatures -/

theorem priorReadQuestions (jwt : Str) : Consults E (FromPrior.unpack C jwt) (fun qs _ => PriorReadQuestions jwt qs) := by
  refine Consults.of ((priorQuestions jwt).mono ?_)
  rintro qs r (⟨rfl, h⟩ | ⟨_, _, _, _, h, rfl⟩)
  · exact .none h
  · exact .issuer h

theorem priorIssueQuestions (f : FromPrior) (issuerKid : Option Str) :
    Consults E (f.pack C issuerKid) (fun qs _ => PriorIssueQuestions E f issuerKid qs) := by
  unfold FromPrior.pack
  refine Consults.liftBind (fun e h => .bad ?_) (fun _ h => ?_)
  · rintro ⟨h1, h2⟩
    rw [validatePack_ok.2 ⟨h1.1, h1.2.1, h1.2.2, h2⟩] at h; cases h
  obtain ⟨h1, h2, h3, hk⟩ := validatePack_ok.1 h
  have ht : TwoDids f := ⟨h1, h2, h3⟩
  refine Consults.docBind (fun e h => .notListed ht hk fun doc hd => (hd.conflict h).elim) (fun doc hd => ?_)
  refine Consults.liftBind (fun e h => ?_) (fun kids h => ?_)
  · obtain ⟨rfl, k, hi, hl⟩ := authKids_error hk h
    exact .notListed ht hk fun doc' hd' => by cases hd.same hd'; exact ⟨k, hi, hl⟩
  obtain ⟨rfl, hl⟩ := authKids_ok h
  refine Consults.ownKey (fun e qs _ hq => .keys ht hk hd hl hq) (fun kid p qs _ hq => ?_)
  refine Consults.const (P := fun qs' => PriorIssueQuestions E f issuerKid (.resolve f.iss :: (qs ++ qs'))) ?_
    (by rw [List.append_nil]; exact .keys ht hk hd hl hq)
  refine Consults.liftBind (fun _ _ => rfl) (fun _ _ => ?_)
  refine Consults.liftBind (fun _ _ => rfl) (fun _ _ => ?_)
  exact Consults.lift rfl

theorem plaintextQuestions (m : Message) : Consults E (packPlaintext C m) (fun qs _ => PlaintextQuestions m qs) := by
  unfold packPlaintext
  cases hm : m.fromPrior with
  | none =>
    simp only [unpackFromPrior]
    refine Consults.bind (Q := fun qs _ => qs = []) (Consults.pure rfl) (fun _ _ h => by cases h; exact .none hm) (fun qs a h => ?_)
    cases h
    refine Consults.liftBind (fun e h => .none hm) (fun _ _ => Consults.lift (.none hm))
  | some jwt =>
    simp only [unpackFromPrior]
    refine Consults.bind (Q := fun qs _ => PriorReadQuestions jwt qs) ?_ (fun _ _ h => .prior hm h) (fun qs a h => ?_)
    · exact Consults.bind (priorReadQuestions jwt) (fun qs e h => h) (fun qs a h => Consults.pure (by rw [List.append_nil]; exact h))
    · refine Consults.const (P := fun qs' => PlaintextQuestions m (qs ++ qs')) ?_ (by rw [List.append_nil]; exact .prior hm h)
      exact Consults.liftBind (fun _ _ => rfl) (fun _ _ => Consults.lift rfl)

theorem signerQuestions (m : Message) (signBy : Str) :
    Consults E (packSigned C m signBy) (fun qs _ => SignerQuestions C E m signBy qs) := by
  unfold packSigned
  split
  · rename_i h
    refine Consults.fail (.notDid fun h' => ?_)
    rw [(C46_is_did _).2 h'] at h; cases h
  rename_i h
  have hd : LooksLikeDid signBy := (C46_is_did _).1 (by simpa using h)
  rw [didOrUrl_fst]
  refine Consults.docBind (fun e h => .notListed hd fun doc h' => (h'.conflict h).elim) (fun doc hdoc => ?_)
  refine Consults.liftBind (fun e h => ?_) (fun kids h => ?_)
  · obtain ⟨rfl, hf, hl⟩ := signKids_error h
    exact .notListed hd fun doc' h' => by cases hdoc.same h'; exact ⟨hf, hl⟩
  obtain ⟨rfl, hl⟩ := signKids_ok.1 h
  refine Consults.ownKey (fun e qs ho hq => .noKey hd hdoc hl (fun x hx => by cases ho.unique hx) hq) (fun kid p qs ho hq => ?_)
  refine Consults.bind (plaintextQuestions m) (fun qm e hm => .key hd hdoc hl ho hq hm) (fun qm payload hm => ?_)
  refine Consults.const (P := fun qs' => SignerQuestions C E m signBy (.resolve (didOf signBy) :: (qs ++ (qm ++ qs')))) ?_
    (by rw [List.append_nil]; exact .key hd hdoc hl ho hq hm)
  refine Consults.liftBind (fun _ _ => rfl) (fun _ _ => ?_)
  refine Consults.liftBind (fun _ _ => rfl) (fun _ _ => ?_)
  exact Consults.lift rfl

/-! ## Encryption -/

theorem jweQuestions {ce : ContentEnc} {kdf : Kdf} {curve : Curve} {pt : Bytes} {alg : JweAlg} {enc : EncAlg}
    {sender : Option (Str × C.Key)} {rcps : List (Str × C.Key)} :
    Consults E (jweEncrypt C ce kdf curve pt alg enc sender rcps) (fun qs _ => qs = []) := by
  unfold jweEncrypt
  refine Consults.randomBind fun r1 => ?_
  refine Consults.liftBind (fun _ _ => rfl) (fun _ _ => ?_)
  refine Consults.randomBind fun r2 => ?_
  refine Consults.liftBind (fun _ _ => rfl) (fun _ _ => ?_)
  refine Consults.liftBind (fun _ _ => rfl) (fun _ _ => ?_)
  refine Consults.randomBind fun r3 => ?_
  refine Consults.liftBind (fun _ _ => rfl) (fun _ _ => ?_)
  refine Consults.liftBind (fun _ _ => rfl) (fun _ _ => ?_)
  exact Consults.lift rfl

theorem anonEncryptQuestions (to : Str) (msg : Bytes) (alg : AnonCryptAlg) :
    Consults E (anoncrypt C to msg alg) (fun qs _ => qs = [.resolve (didOf to)]) := by
  unfold anoncrypt
  rw [didOrUrl_fst]
  refine Consults.docBind (fun e h => rfl) (fun doc hd => ?_)
  refine Consults.const (P := fun qs' => Query.resolve (didOf to) :: qs' = [.resolve (didOf to)]) ?_ rfl
  refine Consults.liftBind (fun _ _ => rfl) (fun _ _ => ?_)
  refine Consults.liftBind (fun _ _ => rfl) (fun _ _ => ?_)
  refine Consults.liftBind (fun _ _ => rfl) (fun _ _ => ?_)
  dsimp only
  split
  · refine Consults.liftBind (fun _ _ => rfl) (fun _ _ => ?_)
    refine Consults.bind jweQuestions (fun _ _ h => h) ?_
    rintro qs a rfl
    exact Consults.lift rfl
  · exact Consults.fail rfl

theorem authEncryptQuestions (to from_ : Str) (msg : Bytes) (a : AuthCryptAlg) (alg : AnonCryptAlg) (ps : Bool) :
    Consults E (authcrypt C to from_ msg a alg ps) (fun qs _ => AuthEncryptQuestions E to from_ qs) := by
  unfold authcrypt
  rw [didOrUrl_fst, didOrUrl_fst]
  refine Consults.docBind (fun e h => .noRecipient fun doc hd => hd.conflict h) (fun toDoc hd => ?_)
  refine Consults.docBind (fun e h => .noSender hd fun doc hd => (hd.conflict h).elim) (fun fromDoc hfd => ?_)
  rcases agreementKids_cases from_ fromDoc with ⟨h1, hl⟩ | ⟨h1, h2⟩
  case inr =>
    rw [h1]
    exact Consults.liftBind (fun e h => .noSender hd fun doc hd' => by cases hfd.same hd'; exact h2) (fun _ h => by cases h)
  rw [h1, lift_ok_bind rfl]
  refine Consults.findBind (fun k h => .noKey hd hfd hl fun _ _ h' => by rw [h] at h'; cases h') (fun found hs => ?_)
  have no : (∀ kid, ¬ Chooses fromDoc toDoc to found kid) → AuthEncryptQuestions E to from_
      [.resolve (didOf to), .resolve (didOf from_), .findSecrets (meantBy from_ fromDoc.keyAgreement)] :=
    fun h => .noKey hd hfd hl fun found' kid h' => by rw [hs] at h'; cases h'; exact h kid
  split
  · rename_i hn
    have hn : found = [] := by simpa using hn
    subst hn
    exact Consults.fail (no fun kid h => by cases h.2.2)
  rename_i hn
  have hn : found ≠ [] := by simpa using hn
  rcases methodsOf_cases .malformed fromDoc found with ⟨fvms, h3, hf4, hf⟩ | ⟨h3, k, h4, h5⟩
  case inr =>
    rw [h3]
    exact Consults.liftBind (fun e h => no fun kid h => h.1 k h4 h5) (fun _ h => by cases h)
  rw [h3, lift_ok_bind rfl]
  rcases agreementKids_cases to toDoc with ⟨h1, hne⟩ | ⟨h1, h2⟩
  case inr =>
    rw [h1]
    refine Consults.liftBind (fun e h => no fun kid h => ?_) (fun _ h => by cases h)
    have hc : Compatible fromDoc toDoc to kid := by simpa using List.find?_some h.2.2
    obtain ⟨c, _, k, hk, _⟩ := hc
    rw [h2] at hk; cases hk
  rw [h1, lift_ok_bind rfl]
  rcases methodsOf_cases .malformed toDoc (meantBy to toDoc.keyAgreement) with ⟨vms, h3, h4, hm⟩ | ⟨h3, k, h4, h5⟩
  case inr =>
    rw [h3]
    exact Consults.liftBind (fun e h => no fun kid h => h.2.1 k h4 h5) (fun _ h => by cases h)
  rw [h3, lift_ok_bind rfl]
  have hch := chooseSender_eq hf4 h4
  cases hcs : chooseSender fvms vms with
  | error e =>
    rw [hcs] at hch
    refine Consults.liftBind (fun e' h => no fun kid h => ?_) (fun _ h => by cases h)
    have : (okOr .noCompatibleCrypto (found.find? (fun s => decide (Compatible fromDoc toDoc to s)))) = .error e := hch.symm
    have h' := h.2.2
    rw [(okOr_eq_error.1 this).1] at h'
    cases h'
  | ok vm =>
    rw [hcs] at hch
    have hk : found.find? (fun k => Compatible fromDoc toDoc to k) = some vm.id := okOr_eq_ok.1 hch.symm
    rw [lift_ok_bind rfl]
    have hfin : AuthEncryptQuestions E to from_ [.resolve (didOf to), .resolve (didOf from_),
      .findSecrets (meantBy from_ fromDoc.keyAgreement), .getSecret vm.id] := .key hd hfd hl hs ⟨hf, hm, hk⟩
    refine Consults.getBind (fun k h => hfin) (fun s hg => ?_)
    refine Consults.const (P := fun qs' => AuthEncryptQuestions E to from_ (.resolve (didOf to) :: .resolve (didOf from_) ::
      .findSecrets (meantBy from_ fromDoc.keyAgreement) :: .getSecret vm.id :: qs')) ?_ hfin
    refine Consults.liftBind (fun _ _ => rfl) (fun _ _ => ?_)
    dsimp only
    split
    · split
      · refine Consults.liftBind (fun _ _ => rfl) (fun _ _ => ?_)
        refine Consults.liftBind (fun _ _ => rfl) (fun _ _ => ?_)
        refine Consults.bind jweQuestions (fun _ _ h => h) ?_
        rintro qs a rfl
        split
        · refine Consults.bind jweQuestions (fun _ _ h => h) ?_
          rintro qs a rfl
          exact Consults.lift rfl
        · exact Consults.lift rfl
      · exact Consults.fail rfl
    · exact Consults.fail rfl

/-! ## Forwarding -/

theorem routeQuestions (to : Str) (sid : Option Str) : Consults E (servicesChain to sid) (fun qs _ => RouteQuestions E to sid qs) := by
  unfold servicesChain
  rw [didOrUrl_fst]
  have hfind : ∀ (did : Str) (sid : Option Str), Consults E (findDidCommService did sid) (fun qs r => qs = [.resolve did] ∧
      ((∃ e, r = .error e ∧ Document E did (.error e)) ∨ (∃ doc, Document E did (.ok doc) ∧ Selects doc.service sid r))) := by
    intro did sid
    unfold findDidCommService
    exact Consults.docBind (fun e h => ⟨rfl, .inl ⟨e, rfl, h⟩⟩) (fun doc h => Consults.lift ⟨rfl, .inr ⟨doc, h, selectService_spec _ _⟩⟩)
  refine Consults.bind (hfind _ _) ?_ ?_
  · rintro qs e ⟨rfl, ⟨_, h, hd⟩ | ⟨doc, hd, hs⟩⟩
    · exact .recipient fun doc s hd' _ => (hd'.conflict hd).elim
    · exact .recipient fun doc' s hd' hs' => by cases hd.same hd'; cases hs.unique hs'
  · rintro qs s ⟨rfl, ⟨_, h, hd⟩ | ⟨doc, hd, hs⟩⟩
    · cases h
    cases s with
    | none => exact Consults.pure (.recipient fun doc' s hd' hs' => by cases hd.same hd'; cases hs.unique hs')
    | some s =>
      dsimp only
      rw [chainLoop]
      split
      case isFalse hf =>
        exact Consults.pure (.recipient fun doc' s hd' hs' => by
          cases hd.same hd'; cases hs.unique hs'; exact fun h => hf ((C46_is_did _).2 h))
      rename_i hl
      have hl := (C46_is_did _).1 hl
      rw [if_neg (by simp)]
      refine Consults.bind (hfind _ _) (fun qs e h => ?_) (fun qs s' h => ?_)
      · rw [h.1]; exact .mediator hd hs hl
      · rw [h.1]
        refine Consults.const (P := fun qs' => RouteQuestions E to sid ([.resolve (didOf to)] ++ ([.resolve s.2.uri] ++ qs'))) ?_
          (.mediator hd hs hl)
        refine Consults.liftBind (fun _ _ => rfl) (fun s' _ => ?_)
        rw [chainLoop]
        split
        · rw [if_pos (by simp)]; exact Consults.fail rfl
        · exact Consults.pure rfl

theorem loopQuestions (ht : TextEnv E) (headers : Option (List (Str × Value))) (alg : AnonCryptAlg) (stops : List (Str × Str)) :
    ∀ (msg : Str), IsJson C msg → Consults E (wrapLoop C headers alg stops msg) (fun qs r =>
      WrapQuestions C E alg (stops.map Prod.fst) (r.map fun _ => ()) qs) := by
  induction stops with
  | nil => exact fun msg _ => Consults.pure .done
  | cons p l ih =>
    obtain ⟨k, next⟩ := p
    rintro msg ⟨v, hj⟩
    simp only [wrapLoop, buildForwardMessage]
    refine Consults.bind (Q := fun qs r => qs = [] ∧ ∃ fwd, r = .ok fwd) ?_ (fun _ e h => by obtain ⟨-, _, h⟩ := h; cases h) ?_
    · refine Consults.liftBind (fun e h => ?_) (fun v' _ => Consults.randomBind fun n => Consults.lift ⟨rfl, _, rfl⟩)
      rw [hj] at h; cases h
    · rintro qs fwd ⟨rfl, -⟩
      refine Consults.bind ((anonEncryptQuestions k fwd alg).and (anoncrypted ht k fwd alg)) ?_ ?_
      · rintro qs e ⟨rfl, h, -⟩
        exact .failed h
      · rintro qs ⟨out, kids⟩ ⟨rfl, h, hi⟩
        exact (ih out (hi _ rfl)).mono fun qs r hr => .step h hr

theorem forwardWrapQuestions (ht : TextEnv E) (msg : Str) (headers : Option (List (Str × Value))) (to : Str) (keys : List Str)
    (alg : AnonCryptAlg) :
    Consults E (wrapInForward C msg headers to keys alg) (fun qs r => ForwardWrapQuestions C E msg keys alg (r.map fun _ => ()) qs) := by
  unfold wrapInForward
  cases keys with
  | nil => exact Consults.ret (.noKeys rfl)
  | cons k l =>
    dsimp only
    by_cases hj : ∃ v, fromJson (toValue C.f64) msg = .ok v
    · obtain ⟨v, hj⟩ := hj
      refine (loopQuestions ht headers alg _ msg ⟨v, hj⟩).mono fun qs r h => ?_
      rw [zip_keys] at h
      exact .json (by simp) hj h
    · have hne : (k :: l).reverse.zip (l ++ [to]).reverse ≠ [] := by
        intro h
        have := congrArg (List.map Prod.fst) h
        rw [zip_keys] at this
        simp at this
      cases hz : (k :: l).reverse.zip (l ++ [to]).reverse with
      | nil => exact absurd hz hne
      | cons p z =>
        obtain ⟨a, b⟩ := p
        simp only [wrapLoop, buildForwardMessage]
        have hn : ∀ v, fromJson (toValue C.f64) msg ≠ .ok v := fun v h => hj ⟨v, h⟩
        refine Consults.bind (Q := fun qs r => qs = [] ∧ r = .error (.kind .malformed)) ?_ (fun qs e h => ?_) (fun qs fwd h => by cases h.2)
        · refine Consults.liftBind (fun e h => ?_) (fun v h => ?_)
          · rw [withKind_error fromJson_kind h]; exact ⟨rfl, rfl⟩
          · exact absurd (withKind_eq_ok.1 h) (hn v)
        · obtain ⟨rfl, h⟩ := h
          cases h
          exact .notJson (by simp) hn

theorem forwardingQuestions (ht : TextEnv E) (msg to : Str) (opts : PackEncryptedOptions) (hj : IsJson C msg) :
    Consults E (wrapInForwardIfNeeded C msg to opts) (fun qs r => ForwardingQuestions C E to opts (r.map fun x => x.map Prod.snd) qs) := by
  unfold wrapInForwardIfNeeded
  split
  · exact Consults.pure (.off ‹_›)
  rename_i hf
  have hf : opts.forward = true := by simpa using hf
  refine Consults.bind ((routeQuestions to opts.messagingService).and (servicesRouted to opts.messagingService))
    (fun qs e h => .noRoute hf h.2 h.1) ?_
  rintro qs chain ⟨hq, hr⟩
  rcases chain with _ | ⟨first, rest⟩
  · exact Consults.pure (by rw [List.append_nil]; exact .notNeeded hf hr rfl hq)
  · obtain ⟨last, hl⟩ : ∃ last, (first :: rest).getLast? = some last := ⟨_, List.getLast?_eq_some_getLast (by simp)⟩
    rw [hl, chainRoutingKeys_eq hr.short]
    dsimp only [List.head?]
    split
    · rename_i he
      exact Consults.pure (by rw [List.append_nil]; exact .notNeeded hf hr (by simpa using he) hq)
    · rename_i he
      have he : routeOf (first :: rest) ≠ [] := by simpa using he
      have hw : Consults E (wrapInForward C msg opts.forwardHeaders to (routeOf (first :: rest)) opts.encAlgAnon)
          (fun qs r => WrapQuestions C E opts.encAlgAnon (routeOf (first :: rest)).reverse (r.map fun _ => ()) qs) := by
        refine (forwardWrapQuestions ht msg opts.forwardHeaders to _ opts.encAlgAnon).mono fun qs r h => ?_
        obtain ⟨v, hv⟩ := hj
        generalize hx : (r.map fun _ => ()) = x at h
        cases h with
        | noKeys h => exact absurd h he
        | notJson h hn => exact absurd hv (hn v)
        | json _ _ h => exact h
      refine Consults.bind hw (fun qw e h => ?_) (fun qw fwd h => ?_)
      · exact .wrapped hf hr he rfl hl hq h
      · exact Consults.pure (by rw [List.append_nil]; exact .wrapped hf hr he rfl hl hq h)

/-! ## `pack_encrypted` -/

theorem innerQuestions (m : Message) (signBy : Option Str) :
    Consults E (packInner C m signBy) (fun qs _ => InnerQuestions C E m signBy qs) := by
  cases signBy with
  | none =>
    exact Consults.bind (plaintextQuestions m) (fun qs e h => .plain h) (fun qs a h => Consults.pure (by rw [List.append_nil]; exact .plain h))
  | some s =>
    exact Consults.bind (signerQuestions m s) (fun qs e h => .signed h) (fun qs a h => Consults.pure (by rw [List.append_nil]; exact .signed h))

theorem cryptQuestions (to : Str) (from_ : Option Str) (msg : Str) (opts : PackEncryptedOptions) :
    Consults E (packCrypt C to from_ msg opts) (fun qs _ => CryptQuestions E to from_ qs) := by
  cases from_ with
  | none =>
    refine Consults.bind (anonEncryptQuestions to msg opts.encAlgAnon) ?_ ?_
    · rintro qs e rfl; exact .anon
    · rintro qs a rfl; exact Consults.pure .anon
  | some f =>
    exact Consults.bind (authEncryptQuestions to f msg opts.encAlgAuth opts.encAlgAnon opts.protectSender) (fun qs e h => .auth h)
      (fun qs a h => Consults.pure (by rw [List.append_nil]; exact .auth h))

theorem packQuestions (ht : TextEnv E) (m : Message) (to : Str) (from_ signBy : Option Str) (opts : PackEncryptedOptions) :
    Consults E (packEncrypted C m to from_ signBy opts) (fun qs r => PackQuestions C E m to from_ signBy opts (r.map Prod.snd) qs) := by
  unfold packEncrypted
  refine Consults.liftBind (fun e h => ?_) (fun _ h => ?_)
  · have hi : IllegalArguments m to from_ signBy := illegalArguments_iff.1 (by rw [h]; intro h; cases h)
    have := validatePackEncrypted_error (illegalArguments_iff.2 hi)
    rw [h] at this
    cases this
    exact .illegal hi
  have hn : ¬ IllegalArguments m to from_ signBy := fun hi => illegalArguments_iff.2 hi h
  refine Consults.bind ((innerQuestions m signBy).and (innerPacked m signBy)) (fun qi e h => .inner hn h.2 h.1) ?_
  rintro qi ⟨msg, sk⟩ ⟨hqi, hi⟩
  refine Consults.bind ((cryptQuestions to from_ msg opts).and (crypted ht to from_ msg opts)) (fun qc e h => .crypt hn hi h.2.1 hqi h.1) ?_
  rintro qc ⟨out, fk, tk⟩ ⟨hqc, hc, hj⟩
  refine Consults.bind (forwardingQuestions ht out to opts (hj _ rfl)) (fun qf e h => ?_) ?_
  · rw [← List.append_assoc]
    exact .forward hn hi hc hqi hqc h
  rintro qf (_ | ⟨fwd, svc⟩) hw
  · exact Consults.pure (by rw [List.append_nil, ← List.append_assoc]; exact .forward hn hi hc hqi hqc hw)
  · exact Consults.pure (by rw [List.append_nil, ← List.append_assoc]; exact .forward hn hi hc hqi hqc hw)

/-! ## The questions are determined -/

theorem OwnKeyQuestions.unique {kids : List Str} {qs qs' : List Query} (h : OwnKeyQuestions E kids qs) (h' : OwnKeyQuestions E kids qs') :
    qs = qs' := by
  cases h with
  | none h =>
    cases h' with
    | none => rfl
    | first h' => exact absurd h' (h _ _)
  | first h =>
    cases h' with
    | none h' => exact absurd h (h' _ _)
    | first h' => rw [h] at h'; cases h'; rfl

theorem PriorReadQuestions.unique {jwt : Str} {qs qs' : List Query} (h : PriorReadQuestions jwt qs) (h' : PriorReadQuestions jwt qs') :
    qs = qs' := by
  cases h with
  | none h =>
    cases h' with
    | none => rfl
    | issuer h' => exact absurd h' (h _ _ _ _)
  | issuer h =>
    cases h' with
    | none h' => exact absurd h (h' _ _ _ _)
    | issuer h' => obtain ⟨-, -, -, rfl⟩ := h.unique h'; rfl

theorem PriorIssueQuestions.unique {f : FromPrior} {k : Option Str} {qs qs' : List Query} (h : PriorIssueQuestions E f k qs)
    (h' : PriorIssueQuestions E f k qs') : qs = qs' := by
  cases h with
  | bad h =>
    cases h' with
    | bad => rfl
    | notListed h1 h2 => exact absurd ⟨h1, h2⟩ h
    | keys h1 h2 => exact absurd ⟨h1, h2⟩ h
  | notListed h1 h2 hd =>
    cases h' with
    | bad h => exact absurd ⟨h1, h2⟩ h
    | notListed => rfl
    | keys _ _ hd' hl => obtain ⟨k, hk, hn⟩ := hd _ hd'; exact absurd (hl k hk) hn
  | keys h1 h2 hd hl hq =>
    cases h' with
    | bad h => exact absurd ⟨h1, h2⟩ h
    | notListed _ _ hd' => obtain ⟨k, hk, hn⟩ := hd' _ hd; exact absurd (hl k hk) hn
    | keys _ _ hd' _ hq' => cases hd.same hd'; rw [hq.unique hq']

theorem PlaintextQuestions.unique {m : Message} {qs qs' : List Query} (h : PlaintextQuestions m qs) (h' : PlaintextQuestions m qs') :
    qs = qs' := by
  cases h with
  | none h =>
    cases h' with
    | none => rfl
    | prior h' => rw [h] at h'; cases h'
  | prior h hq =>
    cases h' with
    | none h' => rw [h] at h'; cases h'
    | prior h' hq' => rw [h] at h'; cases h'; exact hq.unique hq'

theorem SignerQuestions.unique {m : Message} {signBy : Str} {qs qs' : List Query} (h : SignerQuestions C E m signBy qs)
    (h' : SignerQuestions C E m signBy qs') : qs = qs' := by
  cases h with
  | notDid h =>
    cases h' with
    | notDid => rfl
    | notListed h' => exact absurd h' h
    | noKey h' => exact absurd h' h
    | key h' => exact absurd h' h
  | notListed h hd =>
    cases h' with
    | notDid h' => exact absurd h h'
    | notListed => rfl
    | noKey _ hd' hl => exact absurd (hl (hd _ hd').1) (hd _ hd').2
    | key _ hd' hl => exact absurd (hl (hd _ hd').1) (hd _ hd').2
  | noKey h hd hl ho hq =>
    cases h' with
    | notDid h' => exact absurd h h'
    | notListed _ hd' => exact absurd (hl (hd' _ hd).1) (hd' _ hd).2
    | noKey _ hd' _ _ hq' => cases hd.same hd'; rw [hq.unique hq']
    | key _ hd' _ ho' => cases hd.same hd'; exact absurd ho' (ho _)
  | key h hd hl ho hq hm =>
    cases h' with
    | notDid h' => exact absurd h h'
    | notListed _ hd' => exact absurd (hl (hd' _ hd).1) (hd' _ hd).2
    | noKey _ hd' _ ho' => cases hd.same hd'; exact absurd ho (ho' _)
    | key _ hd' _ _ hq' hm' => cases hd.same hd'; rw [hq.unique hq', hm.unique hm']

theorem AuthEncryptQuestions.unique {to from_ : Str} {qs qs' : List Query} (h : AuthEncryptQuestions E to from_ qs)
    (h' : AuthEncryptQuestions E to from_ qs') : qs = qs' := by
  cases h with
  | noRecipient h =>
    cases h' with
    | noRecipient => rfl
    | noSender h' => exact absurd h' (h _)
    | noKey h' => exact absurd h' (h _)
    | key h' => exact absurd h' (h _)
  | noSender h hf =>
    cases h' with
    | noRecipient h' => exact absurd h (h' _)
    | noSender => rfl
    | noKey _ hf' hl => exact absurd (hf _ hf') hl
    | key _ hf' hl => exact absurd (hf _ hf') hl
  | noKey h hf hl hs =>
    cases h' with
    | noRecipient h' => exact absurd h (h' _)
    | noSender _ hf' => exact absurd (hf' _ hf) hl
    | noKey h' hf' => cases hf.same hf'; rfl
    | key h' hf' _ hs' hc => cases h.same h'; cases hf.same hf'; exact absurd hc (hs _ _ hs')
  | key h hf hl hs hc =>
    cases h' with
    | noRecipient h' => exact absurd h (h' _)
    | noSender _ hf' => exact absurd (hf' _ hf) hl
    | noKey h' hf' _ hs' => cases h.same h'; cases hf.same hf'; exact absurd hc (hs' _ _ hs)
    | key h' hf' _ hs' hc' =>
      cases h.same h'; cases hf.same hf'
      rw [hs] at hs'; cases hs'
      have := hc.2.2
      rw [hc'.2.2] at this; cases this
      rfl

theorem RouteQuestions.unique {to : Str} {sid : Option Str} {qs qs' : List Query} (h : RouteQuestions E to sid qs)
    (h' : RouteQuestions E to sid qs') : qs = qs' := by
  cases h with
  | recipient h =>
    cases h' with
    | recipient => rfl
    | mediator h1 h2 h3 => exact absurd h3 (h _ _ h1 h2)
  | mediator h1 h2 h3 =>
    cases h' with
    | recipient h => exact absurd h3 (h _ _ h1 h2)
    | mediator h1' h2' => cases h1.same h1'; cases h2.unique h2'; rfl

theorem WrapQuestions.unique (hw : Willing C E) {alg : AnonCryptAlg} {keys : List Str} {r r' : Res Unit} {qs qs' : List Query}
    (h : WrapQuestions C E alg keys r qs) (h' : WrapQuestions C E alg keys r' qs') : qs = qs' := by
  induction h generalizing r' qs' with
  | done => cases h'; rfl
  | failed h =>
    cases h' with
    | failed => rfl
    | step h' => cases h.unique hw h'
  | step h _ ih =>
    cases h' with
    | failed h' => cases h.unique hw h'
    | step _ h' => rw [ih h']

theorem WrapQuestions.outcome {alg : AnonCryptAlg} {keys : List Str} {r : Res Unit} {qs : List Query}
    (h : WrapQuestions C E alg keys r qs) : Wrapped C E alg keys r := by
  induction h with
  | done => exact .done
  | failed h => exact .failed h
  | step h _ ih => exact .step h ih

theorem ForwardWrapQuestions.unique (hw : Willing C E) {msg : Str} {alg : AnonCryptAlg} {keys : List Str} {r r' : Res Unit}
    {qs qs' : List Query} (h : ForwardWrapQuestions C E msg keys alg r qs) (h' : ForwardWrapQuestions C E msg keys alg r' qs') : qs = qs' := by
  cases h with
  | noKeys h =>
    cases h' with
    | noKeys => rfl
    | notJson h' => exact absurd h h'
    | json h' => exact absurd h h'
  | notJson h hj =>
    cases h' with
    | noKeys h' => exact absurd h' h
    | notJson => rfl
    | json _ hj' => exact absurd hj' (hj _)
  | json h hj hq =>
    cases h' with
    | noKeys h' => exact absurd h' h
    | notJson _ hj' => exact absurd hj (hj' _)
    | json _ _ hq' => exact hq.unique hw hq'

theorem ForwardWrapQuestions.outcome {msg : Str} {alg : AnonCryptAlg} {keys : List Str} {r : Res Unit}
    {qs : List Query} (h : ForwardWrapQuestions C E msg keys alg r qs) : ForwardWrapped C E msg keys alg r := by
  cases h with
  | noKeys h => exact .noKeys h
  | notJson h hj => exact .notJson h hj
  | json h hj hq => exact .json h hj hq.outcome

theorem ForwardingQuestions.unique (hw : Willing C E) {to : Str} {opts : PackEncryptedOptions}
    {r r' : Res (Option MessagingServiceMetadata)} {qs qs' : List Query} (h : ForwardingQuestions C E to opts r qs)
    (h' : ForwardingQuestions C E to opts r' qs') : qs = qs' := by
  cases h with
  | off h =>
    cases h' with
    | off => rfl
    | noRoute h' => rw [h] at h'; cases h'
    | notNeeded h' => rw [h] at h'; cases h'
    | wrapped h' => rw [h] at h'; cases h'
  | noRoute h hr hq =>
    cases h' with
    | off h' => rw [h] at h'; cases h'
    | noRoute _ _ hq' => exact hq.unique hq'
    | notNeeded _ _ _ hq' => exact hq.unique hq'
    | wrapped _ hr' => cases hr.unique hr'
  | notNeeded h hr hk hq =>
    cases h' with
    | off h' => rw [h] at h'; cases h'
    | noRoute _ _ hq' => exact hq.unique hq'
    | notNeeded _ _ _ hq' => exact hq.unique hq'
    | wrapped _ hr' hk' => cases hr.unique hr'; exact absurd hk hk'
  | wrapped h hr hk _ _ hq hw' =>
    cases h' with
    | off h' => rw [h] at h'; cases h'
    | noRoute _ hr' => cases hr.unique hr'
    | notNeeded _ hr' hk' => cases hr.unique hr'; exact absurd hk' hk
    | wrapped _ hr' _ _ _ hq' hw'' => cases hr.unique hr'; rw [hq.unique hq', hw'.unique hw hw'']

theorem ForwardingQuestions.outcome {to : Str} {opts : PackEncryptedOptions} {r : Res (Option MessagingServiceMetadata)} {qs : List Query}
    (h : ForwardingQuestions C E to opts r qs) : Forwarded C E to opts r := by
  cases h with
  | off h => exact .off h
  | noRoute h hr _ => exact .noRoute h hr
  | notNeeded h hr hk _ => exact .notNeeded h hr hk
  | wrapped h hr hk h1 h2 _ hw => exact .wrapped h hr hk h1 h2 hw.outcome

theorem InnerQuestions.unique {m : Message} {signBy : Option Str} {qs qs' : List Query} (h : InnerQuestions C E m signBy qs)
    (h' : InnerQuestions C E m signBy qs') : qs = qs' := by
  cases h with
  | plain h => cases h' with | plain h' => exact h.unique h'
  | signed h => cases h' with | signed h' => exact h.unique h'

theorem CryptQuestions.unique {to : Str} {from_ : Option Str} {qs qs' : List Query} (h : CryptQuestions E to from_ qs)
    (h' : CryptQuestions E to from_ qs') : qs = qs' := by
  cases h with
  | anon => cases h'; rfl
  | auth h => cases h' with | auth h' => exact h.unique h'

theorem PackQuestions.unique (hw : Willing C E) {m : Message} {to : Str} {from_ signBy : Option Str} {opts : PackEncryptedOptions}
    {r r' : Res PackEncryptedMetadata} {qs qs' : List Query} (h : PackQuestions C E m to from_ signBy opts r qs)
    (h' : PackQuestions C E m to from_ signBy opts r' qs') : qs = qs' := by
  cases h with
  | illegal h =>
    cases h' with
    | illegal => rfl
    | inner h' => exact absurd h h'
    | crypt h' => exact absurd h h'
    | forward h' => exact absurd h h'
  | inner h hi hq =>
    cases h' with
    | illegal h' => exact absurd h' h
    | inner _ _ hq' => exact hq.unique hq'
    | crypt _ hi' => cases hi.unique hw hi'
    | forward _ hi' => cases hi.unique hw hi'
  | crypt h hi hc hq hqc =>
    cases h' with
    | illegal h' => exact absurd h' h
    | inner _ hi' => cases hi.unique hw hi'
    | crypt _ _ _ hq' hqc' => rw [hq.unique hq', hqc.unique hqc']
    | forward _ _ hc' => cases hc.unique hw hc'
  | forward h hi hc hq hqc hf =>
    cases h' with
    | illegal h' => exact absurd h' h
    | inner _ hi' => cases hi.unique hw hi'
    | crypt _ _ hc' => cases hc.unique hw hc'
    | forward _ _ _ hq' hqc' hf' => rw [hq.unique hq', hqc.unique hqc', hf.unique hw hf']

theorem PackQuestions.outcome {m : Message} {to : Str} {from_ signBy : Option Str} {opts : PackEncryptedOptions}
    {r : Res PackEncryptedMetadata} {qs : List Query} (h : PackQuestions C E m to from_ signBy opts r qs) :
    EncryptedPacked C E m to from_ signBy opts r := by
  cases h with
  | illegal h => exact .illegal h
  | inner h hi _ => exact .inner h hi
  | crypt h hi hc _ _ => exact .crypt h hi hc
  | @forward _ _ _ svc _ _ _ h hi hc _ _ hf =>
    cases svc with
    | error e => exact .forward h hi hc hf.outcome
    | ok svc => exact .packed h hi hc hf.outcome

end DIDComm
