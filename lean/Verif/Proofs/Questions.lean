import Verif.Spec.Questions
import Verif.Proofs.OutcomeUnpackUnique

/-! # How the questions of unpacking are proved -/

set_option autoImplicit false

namespace DIDComm

variable {C : Crypto} {E : Env} {α β : Type}

/-- Every run with the answers of `E` asks a list of questions and ends as `P` says. -/
def Asks (E : Env) (p : Prog α) (P : List Query → Res α → Prop) : Prop :=
  ∀ tr r, Runs p tr r → Answers E tr → P (tr.map Event.query) r

namespace Asks

theorem lift {x : Res α} {P : List Query → Res α → Prop} (h : P [] x) : Asks E (Prog.lift x) P := by
  intro tr r hr _; obtain ⟨rfl, rfl⟩ := runs_lift.1 hr; exact h

theorem pure {x : α} {P : List Query → Res α → Prop} (h : P [] (.ok x)) : Asks E (Pure.pure x : Prog α) P := by
  intro tr r hr _; obtain ⟨rfl, rfl⟩ := runs_pure.1 hr; exact h

theorem ret {x : Res α} {P : List Query → Res α → Prop} (h : P [] x) : Asks E (.ret x) P := by
  intro tr r hr _; obtain ⟨rfl, rfl⟩ := runs_ret.1 hr; exact h

theorem fail {k : ErrorKind} {P : List Query → Res α → Prop} (h : P [] (.error (.kind k))) : Asks E (Prog.fail k : Prog α) P := by
  intro tr r hr _; obtain ⟨rfl, rfl⟩ := runs_fail.1 hr; exact h

theorem mono {p : Prog α} {P Q : List Query → Res α → Prop} (h : Asks E p P) (hi : ∀ qs r, P qs r → Q qs r) : Asks E p Q :=
  fun tr r hr ha => hi _ r (h tr r hr ha)

theorem and {p : Prog α} {P : List Query → Res α → Prop} {Q : Res α → Prop} (h : Asks E p P) (hy : Yields E p Q) :
    Asks E p (fun qs r => P qs r ∧ Q r) := fun tr r hr ha => ⟨h tr r hr ha, hy tr r hr ha⟩

theorem bind {p : Prog α} {f : α → Prog β} {Q : List Query → Res α → Prop} {P : List Query → Res β → Prop} (hp : Asks E p Q)
    (he : ∀ qs e, Q qs (.error e) → P qs (.error e)) (ho : ∀ qs a, Q qs (.ok a) → Asks E (f a) (fun qs' r => P (qs ++ qs') r)) :
    Asks E (p >>= f) P := by
  intro tr r hr ha
  rcases runs_bind.1 hr with ⟨e, h, rfl⟩ | ⟨a, t1, t2, rfl, h1, h2⟩
  · exact he _ e (hp _ _ h ha)
  · obtain ⟨ha1, ha2⟩ := answers_append.1 ha
    rw [List.map_append]
    exact ho _ a (hp _ _ h1 ha1) _ _ h2 ha2

theorem liftBind {x : Res α} {f : α → Prog β} {P : List Query → Res β → Prop} (he : ∀ e, x = .error e → P [] (.error e))
    (ho : ∀ a, x = .ok a → Asks E (f a) P) : Asks E (Prog.lift x >>= f) P := by
  refine bind (Q := fun qs r => qs = [] ∧ x = r) (lift ⟨rfl, rfl⟩) ?_ ?_
  · rintro qs e ⟨rfl, h⟩; exact he e h
  · rintro qs a ⟨rfl, h⟩; exact ho a h

theorem find {d : List Str} : Asks E (findSecrets d) (fun qs _ => qs = [.findSecrets d]) := by
  intro tr r hr _
  rcases runs_findSecrets.1 hr with ⟨x, rfl, rfl⟩ | ⟨k, rfl, rfl⟩ <;> rfl

theorem findBind {d : List Str} {f : List Str → Prog β} {P : List Query → Res β → Prop}
    (he : ∀ k, E.findSecrets d = .error k → P [.findSecrets d] (.error (.kind k)))
    (ho : ∀ l, E.findSecrets d = .ok l → Asks E (f l) (fun qs r => P (.findSecrets d :: qs) r)) : Asks E (findSecrets d >>= f) P := by
  refine bind (find.and Yields.find') ?_ ?_
  · rintro qs e ⟨rfl, ⟨x, _, h⟩ | ⟨k, h, h'⟩⟩
    · cases h
    · cases h'; exact he k h
  · rintro qs a ⟨rfl, ⟨x, h, h'⟩ | ⟨k, _, h'⟩⟩
    · cases h'; exact ho _ h
    · cases h'

theorem get {d : Str} : Asks E (getSecret d) (fun qs _ => qs = [.getSecret d]) := by
  intro tr r hr _
  rcases runs_getSecret.1 hr with ⟨x, rfl, rfl⟩ | ⟨k, rfl, rfl⟩ <;> rfl

theorem getBind {d : Str} {f : Option Secret → Prog β} {P : List Query → Res β → Prop}
    (he : ∀ k, E.getSecret d = .error k → P [.getSecret d] (.error (.kind k)))
    (ho : ∀ l, E.getSecret d = .ok l → Asks E (f l) (fun qs r => P (.getSecret d :: qs) r)) : Asks E (getSecret d >>= f) P := by
  refine bind (get.and Yields.get') ?_ ?_
  · rintro qs e ⟨rfl, ⟨x, _, h⟩ | ⟨k, h, h'⟩⟩
    · cases h
    · cases h'; exact he k h
  · rintro qs a ⟨rfl, ⟨x, h, h'⟩ | ⟨k, _, h'⟩⟩
    · cases h'; exact ho _ h
    · cases h'

theorem res {d : Str} : Asks E (resolve d) (fun qs _ => qs = [.resolve d]) := by
  intro tr r hr _
  rcases runs_resolve.1 hr with ⟨x, rfl, rfl⟩ | ⟨k, rfl, rfl⟩ <;> rfl

theorem docBind {d : Str} {f : DIDDoc → Prog β} {P : List Query → Res β → Prop}
    (he : ∀ e, Document E d (.error e) → P [.resolve d] (.error e))
    (ho : ∀ doc, Document E d (.ok doc) → Asks E (f doc) (fun qs r => P (.resolve d :: qs) r)) :
    Asks E (resolve d >>= fun doc => Prog.lift (okOr .didNotResolved doc) >>= f) P := by
  refine bind (res.and Yields.resolve') ?_ ?_
  · rintro qs e ⟨rfl, ⟨x, _, h⟩ | ⟨k, h, h'⟩⟩
    · cases h
    · cases h'; exact he _ (.failed h)
  · rintro qs a ⟨rfl, ⟨x, h, h'⟩ | ⟨k, _, h'⟩⟩
    · cases h'
      cases a with
      | none => exact liftBind (fun e h' => by cases h'; exact he _ (.unknown h)) (fun _ h' => by cases h')
      | some doc => exact liftBind (fun e h' => by cases h') (fun _ h' => by cases h'; exact ho _ (.found h))
    · cases h'

/-- Asking for the sender's document: every failure of the resolver is an invalid state. -/
theorem senderBind {d : Str} {f : DIDDoc → Prog β} {P : List Query → Res β → Prop}
    (hf : ∀ k, E.resolve d = .error k → P [.resolve d] (.error (.kind .invalidState)))
    (hu : E.resolve d = .ok none → P [.resolve d] (.error (.kind .didNotResolved)))
    (ho : ∀ doc, E.resolve d = .ok (some doc) → Asks E (f doc) (fun qs r => P (.resolve d :: qs) r)) :
    Asks E ((resolve d).withKind .invalidState >>= fun doc => Prog.lift (okOr .didNotResolved doc) >>= f) P := by
  refine Asks.bind (Q := fun qs r => qs = [.resolve d] ∧ ((∃ x, E.resolve d = .ok x ∧ r = .ok x) ∨
    ∃ k, E.resolve d = .error k ∧ r = .error (.kind .invalidState))) ?_ ?_ ?_
  · intro tr r hr ha
    obtain ⟨r', hr', rfl⟩ := runs_withKind.1 hr
    refine ⟨res _ _ hr' ha, ?_⟩
    rcases Yields.resolve' _ _ hr' ha with ⟨x, h, rfl⟩ | ⟨k, h, rfl⟩
    · exact .inl ⟨x, h, rfl⟩
    · exact .inr ⟨k, h, rfl⟩
  · rintro qs e ⟨rfl, ⟨x, _, h⟩ | ⟨k, h, h'⟩⟩
    · cases h
    · cases h'; exact hf _ h
  · rintro qs a ⟨rfl, ⟨x, h, h'⟩ | ⟨k, _, h'⟩⟩
    · cases h'
      cases a with
      | none => exact liftBind (fun e h' => by cases h'; exact hu h) (fun _ h' => by cases h')
      | some doc => exact liftBind (fun e h' => by cases h') (fun _ h' => by cases h'; exact ho _ h)
    · cases h'

end Asks

/-- The program asks nothing more. -/
theorem asks_const {p : Prog α} {P : List Query → Prop} (hp : Asks E p (fun qs _ => qs = [])) (h : P []) : Asks E p (fun qs _ => P qs) :=
  hp.mono fun _ _ e => e ▸ h

/-! ## Opening envelopes -/

theorem keyQuestions (all : Bool) (tried : Str → KeyPair C → Res α → Prop) (f : Str → KeyPair C → Res α) (ht : ∀ kid p, tried kid p (f kid p))
    (hu : ∀ kid p r r', tried kid p r → tried kid p r' → r = r') :
    ∀ (l : List Str) (acc : Option α), Asks E (decryptLoop C all f l acc) (fun qs _ => KeyQuestions C E all tried l qs) := by
  intro l
  induction l with
  | nil => intro acc; rw [decryptLoop]; exact Asks.pure .none
  | cons kid rest ih =>
    intro acc
    rw [decryptLoop]
    have no : (∀ p, ¬ OurSecret C E kid (.ok p)) → KeyQuestions C E all tried (kid :: rest) [.getSecret kid] :=
      fun h => .stop (.inr fun p _ hp => absurd hp (h p))
    have other : ∀ {e}, OurSecret C E kid (.error e) → ∀ p, ¬ OurSecret C E kid (.ok p) := fun h p hp => by cases h.unique hp
    refine Asks.getBind (fun k h => no (other (.failed h))) ?_
    rintro (_ | s) hg
    · exact Asks.liftBind (fun e h => by cases h; exact no (other (.gone hg))) (fun a h => by cases h)
    refine Asks.liftBind (fun e h => by cases h) (fun a h => ?_)
    cases h
    refine Asks.liftBind (fun e h => no (other (.read hg h))) (fun p hp => ?_)
    have hs : OurSecret C E kid (.ok p) := .read hg hp
    have htr := ht kid p
    refine Asks.liftBind (fun e h => .stop (.inr fun p' a hp' hx => ?_)) (fun x hx => ?_)
    · cases hs.unique hp'
      rw [h] at htr; cases hu _ _ _ _ htr hx
    rw [hx] at htr
    cases all with
    | false => exact Asks.pure (.stop (.inl rfl))
    | true =>
      rw [if_pos rfl]
      exact (ih (some x)).mono fun qs r h => .next rfl hs htr h

theorem openQuestions (all : Bool) (tried : Str → KeyPair C → Res (α × Bytes) → Prop) (f : Str → KeyPair C → Res (α × Bytes))
    (ht : ∀ kid p, tried kid p (f kid p)) (hu : ∀ kid p r r', tried kid p r → tried kid p r' → r = r') (kids : List Str)
    (g : α → Str → Prog β) (hg : ∀ a u, Asks E (g a u) (fun qs _ => qs = [])) :
    Asks E (Prog.lift (checkRecipients kids) >>= fun _ => findSecrets kids >>= fun found =>
      if found.isEmpty then Prog.fail .secretNotFound else
      decryptLoop C all f found none >>= fun r => Prog.lift (okOr .invalidState r) >>= fun x =>
      if validUtf8 x.2 = false then Prog.fail .malformed else g x.1 x.2) (fun qs _ => OpenQuestions C E all tried kids qs) := by
  refine Asks.liftBind (fun e h => .manyDids (checkRecipients_error h).2) (fun _ h => ?_)
  have hk : OneDid kids := checkRecipients_ok.1 h
  refine Asks.findBind (fun k h => .failed hk h) (fun found hf => ?_)
  split
  · rename_i hn
    have : found = [] := List.isEmpty_iff.1 hn
    subst this
    exact Asks.fail (.found hk hf .none)
  refine Asks.bind (keyQuestions all tried f ht hu found none) (fun qs e h => .found hk hf h) (fun qs r h => ?_)
  refine asks_const (P := fun qs' => OpenQuestions C E all tried kids (.findSecrets kids :: (qs ++ qs'))) ?_
    (by rw [List.append_nil]; exact .found hk hf h)
  refine Asks.liftBind (fun _ _ => rfl) (fun x _ => ?_)
  split
  · exact Asks.fail rfl
  · exact hg _ _

/-! ## Layers -/

theorem AnonEnvelope.unique {t : Str} {j j' : JWE} {hdr hdr' : JweHeader} {apu apu' : Option Bytes} {apv apv' : Bytes}
    (h : AnonEnvelope C t j hdr apu apv) (h' : AnonEnvelope C t j' hdr' apu' apv') : j = j' ∧ hdr = hdr' ∧ apu = apu' ∧ apv = apv' := by
  have e := h.1
  rw [h'.1] at e; cases e
  have e := h.2.1.unique h'.2.1
  cases e
  exact ⟨rfl, rfl, rfl, rfl⟩

theorem AuthEnvelope.unique {t : Str} {j j' : JWE} {hdr hdr' : JweHeader} {kid kid' : Str} {apv apv' : Bytes}
    (h : AuthEnvelope C t j hdr kid apv) (h' : AuthEnvelope C t j' hdr' kid' apv') : j = j' ∧ hdr = hdr' ∧ kid = kid' ∧ apv = apv' := by
  have e := h.1
  rw [h'.1] at e; cases e
  have e := h.2.1.unique h'.2.1
  cases e
  exact ⟨rfl, rfl, rfl, rfl⟩

theorem recognise_ok {x : Res α} {a : α} (h : recognise x = .ok (some a)) : x = .ok a := by
  unfold recognise at h
  split at h <;> cases h
  rfl

theorem anonQuestions (t : Str) (opts : UnpackOptions) (md : UnpackMetadata) :
    Asks E (tryUnpackAnoncrypt C t opts md) (fun qs _ => AnonQuestions C E opts.expectDecryptByAllKeys t qs) := by
  unfold tryUnpackAnoncrypt
  have none' : (∀ j, fromJson dJwe t ≠ .ok j) → AnonQuestions C E opts.expectDecryptByAllKeys t [] :=
    fun h => .none fun j _ _ _ h' => h j h'.1
  refine Asks.liftBind (fun e h => none' fun j hj => ?_) (fun o h => ?_)
  · change recognise (fromJson dJwe t) = _ at h
    rw [hj] at h; cases h
  change recognise (fromJson dJwe t) = _ at h
  cases o with
  | none => exact Asks.pure (none' fun j hj => by rw [hj] at h; cases h)
  | some j =>
    have hrec := recognise_ok h
    have none'' : (∀ hdr apu apv, ¬ AnonEnvelope C t j hdr apu apv) → AnonQuestions C E opts.expectDecryptByAllKeys t [] := by
      refine fun h => .none fun j' hdr apu apv h' => ?_
      have := h'.1
      rw [hrec] at this; cases this
      exact h _ _ _ h'
    have hh := jweHeaderRead (C := C) j
    refine Asks.liftBind (fun e h => none'' fun hdr apu apv h' => ?_) (fun p hp => ?_)
    · rw [h] at hh; cases hh.unique h'.2.1
    rw [hp] at hh
    have hj := parse_jwe hp
    subst hj
    split
    · rename_i ha
      exact Asks.pure (none'' fun hdr apu apv h' => by cases hh.unique h'.2.1; exact ha h'.2.2.1)
    rename_i ha
    have ha : p.protected_.alg = .ecdhEs := Classical.byContradiction ha
    refine Asks.liftBind (fun e h => none'' fun hdr apu apv h' => ?_) (fun q hq => ?_)
    · cases hh.unique h'.2.1
      rw [verifyDidcomm_iff.2 h'.2.2.2] at h; cases h
    have hqp := verifyDidcomm_eq hq
    subst hqp
    have hb := verifyDidcomm_iff.1 hq
    dsimp only
    refine (openQuestions opts.expectDecryptByAllKeys (TriedAnon C q.jwe q.protected_ q.apu q.apv) (anonDecryptWith C q)
      (triedAnon q ha) (fun _ _ _ _ => TriedAnon.unique) (kidsOf q.jwe) (fun alg u => pure (some u, md.seeAnon (kidsOf q.jwe) alg))
      (fun _ _ => Asks.pure rfl)).mono ?_
    exact fun qs r h => .envelope ⟨hrec, hh, ha, hb⟩ h

theorem authQuestions (t : Str) (opts : UnpackOptions) (md : UnpackMetadata) :
    Asks E (tryUnpackAuthcrypt C t opts md) (fun qs _ => AuthQuestions C E opts.expectDecryptByAllKeys t qs) := by
  unfold tryUnpackAuthcrypt
  have none' : (∀ j, fromJson dJwe t ≠ .ok j) → AuthQuestions C E opts.expectDecryptByAllKeys t [] :=
    fun h => .none fun j _ _ _ h' => h j h'.1
  refine Asks.liftBind (fun e h => none' fun j hj => ?_) (fun o h => ?_)
  · change recognise (fromJson dJwe t) = _ at h
    rw [hj] at h; cases h
  change recognise (fromJson dJwe t) = _ at h
  cases o with
  | none => exact Asks.pure (none' fun j hj => by rw [hj] at h; cases h)
  | some j =>
    have hrec := recognise_ok h
    have none'' : (∀ hdr kid apv, ¬ AuthEnvelope C t j hdr kid apv) → AuthQuestions C E opts.expectDecryptByAllKeys t [] := by
      refine fun h => .none fun j' hdr kid apv h' => ?_
      have := h'.1
      rw [hrec] at this; cases this
      exact h _ _ _ h'
    have hh := jweHeaderRead (C := C) j
    refine Asks.liftBind (fun e h => none'' fun hdr kid apv h' => ?_) (fun p hp => ?_)
    · rw [h] at hh; cases hh.unique h'.2.1
    rw [hp] at hh
    change JweHeaderRead C j (.ok (p.protected_, p.apu, p.apv)) at hh
    have hj := parse_jwe hp
    subst hj
    split
    · rename_i ha
      exact Asks.pure (none'' fun hdr kid apv h' => by
        have e := hh.unique h'.2.1
        rw [Except.ok.injEq, Prod.mk.injEq] at e
        exact ha (e.1 ▸ h'.2.2.1))
    rename_i ha
    have ha : p.protected_.alg = .ecdh1pu := Classical.byContradiction ha
    have back : ∀ {hdr kid apv}, AuthEnvelope C t p.jwe hdr kid apv → p.protected_ = hdr ∧ p.apu = some kid ∧ p.apv = apv := by
      intro hdr kid apv h'
      have e := hh.unique h'.2.1
      simp only [Except.ok.injEq, Prod.mk.injEq] at e
      exact e
    refine Asks.liftBind (fun e h => none'' fun hdr kid apv h' => ?_) (fun q hq => ?_)
    · obtain ⟨e1, e2, e3⟩ := back h'
      have hb := h'.2.2.2.1
      rw [← e1, ← e2, ← e3] at hb
      rw [verifyDidcomm_iff.2 hb] at h; cases h
    have hqp := verifyDidcomm_eq hq
    subst hqp
    have hb := verifyDidcomm_iff.1 hq
    refine Asks.liftBind (fun e h => none'' fun hdr kid apv h' => ?_) (fun fromKid h => ?_)
    · obtain ⟨e1, e2, e3⟩ := back h'
      have := (okOr_eq_error.1 h).1
      rw [e2] at this; cases this
    have hf := okOr_eq_ok.1 h
    have hu : validUtf8 fromKid = true := by
      rcases hb.2 with ⟨h', _⟩ | ⟨a, h', hu, _⟩
      · rw [hf] at h'; cases h'
      · rw [hf] at h'; cases h'; exact (validUtf8_iff _).2 hu
    rw [if_neg (by rw [hu]; simp)]
    split
    · rename_i hn
      refine Asks.fail (none'' fun hdr kid apv h' => ?_)
      obtain ⟨e1, e2, e3⟩ := back h'
      rw [hf] at e2; cases e2
      exact (didOrUrl_isNone _).1 hn h'.2.2.2.2
    rename_i hn
    have hn : HasFragment fromKid := Classical.byContradiction fun h => hn ((didOrUrl_isNone _).2 h)
    have henv : AuthEnvelope C t q.jwe q.protected_ fromKid q.apv := ⟨hrec, hf ▸ hh, ha, hf ▸ hb, hn⟩
    have nok : ∀ e, SendersKey C E fromKid (.error e) → AuthQuestions C E opts.expectDecryptByAllKeys t [.resolve (didOf fromKid)] :=
      fun e h => .noKey henv fun s hs => by cases h.unique hs
    rw [didOrUrl_fst]
    refine Asks.senderBind (fun k h => nok _ (.failed h)) (fun h => nok _ (.unknown h)) (fun doc hd => ?_)
    refine Asks.liftBind (fun e h => ?_) (fun kid h => ?_)
    · exact nok _ (.notListed hd (find_kid_none (okOr_eq_error.1 h).1))
    obtain ⟨rfl, hl⟩ := find_kid (okOr_eq_ok.1 h)
    rw [find_method]
    refine Asks.liftBind (fun e h => ?_) (fun vm h => ?_)
    · exact nok _ (.noMethod hd hl (okOr_eq_error.1 h).1)
    have hm := okOr_eq_ok.1 h
    refine Asks.liftBind (fun e h => nok _ (.read hd hl hm h)) (fun s hs => ?_)
    have hk : SendersKey C E kid (.ok s) := .read hd hl hm hs
    dsimp only
    refine (openQuestions opts.expectDecryptByAllKeys (TriedAuth C q.jwe q.protected_ q.apv kid s) (authDecryptWith C q kid s)
      (triedAuth q ha kid hf s) (fun _ _ _ _ => TriedAuth.unique) (kidsOf q.jwe) (fun alg u => pure (some u,
        { md with
          encrypted := true, authenticated := true
          encryptedToKids := (match md.encryptedToKids with | none => some (kidsOf q.jwe) | some l' => some l')
          encryptedFromKid := some kid, encAlgAuth := some alg })) (fun _ _ => Asks.pure rfl)).mono ?_
    exact fun qs r h => .envelope henv hk h

theorem NamesSigner.unique {t kid kid' : Str} (h : NamesSigner t kid) (h' : NamesSigner t kid') : kid = kid' := by
  obtain ⟨s, pl, hdr, h1, h2, rfl, h4⟩ := h
  obtain ⟨s', pl', hdr', h1', h2', rfl, h4'⟩ := h'
  rw [h1] at h1'; cases h1'; rfl

theorem signQuestions (t : Str) (md : UnpackMetadata) :
    Asks E (tryUnpackSign C t md) (fun qs _ => SignQuestions t qs) := by
  unfold tryUnpackSign
  have none' : (∀ j, fromJson dJws t ≠ .ok j) → SignQuestions t [] :=
    fun h => .none fun kid ⟨_, _, _, h', _⟩ => h _ h'
  refine Asks.liftBind (fun e h => none' fun j hj => ?_) (fun o h => ?_)
  · change recognise (fromJson dJws t) = _ at h
    rw [hj] at h; cases h
  change recognise (fromJson dJws t) = _ at h
  cases o with
  | none => exact Asks.pure (none' fun j hj => by rw [hj] at h; cases h)
  | some j =>
    have hrec := recognise_ok h
    have hh := signatureHeaders j.signatures
    refine Asks.liftBind (fun e h => .none ?_) (fun p hp => ?_)
    · rintro kid ⟨s, pl, hdr, h1, h2, -, -⟩
      rw [h1] at hrec; cases hrec
      unfold JWS.parse at h
      rcases hs : parseJwsHeaders [s] with e' | l
      · rw [hs] at hh
        cases hh.unique (.cons h2 .nil)
      · rw [hs] at h; cases h
    unfold JWS.parse at hp
    obtain ⟨l, hl, hp⟩ := res_bind_ok.1 hp
    cases hp
    rw [hl] at hh
    have hlen := hh.length
    split
    · rename_i hn
      refine Asks.fail (.none ?_)
      rintro kid ⟨s, pl, hdr, h1, h2, -, -⟩
      rw [h1] at hrec; cases hrec
      exact hn hlen
    rename_i hn
    have hone : l.length = 1 := Classical.byContradiction hn
    obtain ⟨sigs, pl⟩ := j
    rw [hone] at hlen
    obtain ⟨hdr, rfl⟩ := List.length_eq_one_iff.1 hone
    obtain ⟨s, rfl⟩ := List.length_eq_one_iff.1 hlen.symm
    rw [lift_ok_bind (show okOr .invalidState [hdr].head? = .ok hdr from rfl),
      lift_ok_bind (show okOr .invalidState [s].head? = .ok s from rfl)]
    dsimp only
    split
    · rename_i hk
      refine Asks.fail (.none ?_)
      rintro kid ⟨s', pl', hdr', h1, h2, rfl, h4⟩
      rw [h1] at hrec; cases hrec
      exact (didOrUrl_isNone _).1 hk h4
    rename_i hk
    have hk : HasFragment s.kid := Classical.byContradiction fun h => hk ((didOrUrl_isNone _).2 h)
    have hs : NamesSigner t s.kid := by
      refine ⟨s, pl, hdr, hrec, ?_, rfl, hk⟩
      cases hh with
      | cons h _ => exact h
    rw [didOrUrl_fst]
    refine Asks.docBind (fun e h => .signer hs) (fun doc hd => ?_)
    refine asks_const (P := fun qs' => SignQuestions t (.resolve (didOf s.kid) :: qs')) ?_ (.signer hs)
    refine Asks.liftBind (fun _ _ => rfl) (fun _ _ => ?_)
    refine Asks.liftBind (fun _ _ => rfl) (fun _ _ => ?_)
    refine Asks.liftBind (fun _ _ => rfl) (fun _ _ => ?_)
    refine Asks.liftBind (fun _ _ => rfl) (fun _ _ => ?_)
    refine Asks.liftBind (fun _ _ => rfl) (fun _ _ => ?_)
    split
    · exact Asks.fail rfl
    refine Asks.liftBind (fun _ _ => rfl) (fun _ _ => ?_)
    split
    · exact Asks.fail rfl
    exact Asks.pure rfl

theorem priorQuestions (jwt : Str) : Asks E (FromPrior.unpack C jwt) (fun qs _ =>
    (qs = [] ∧ ∀ h pl sig hdr, ¬ JwtForm jwt h pl sig hdr) ∨ ∃ h pl sig hdr, JwtForm jwt h pl sig hdr ∧ qs = [.resolve (didOf hdr.kid)]) := by
  unfold FromPrior.unpack
  refine Asks.liftBind (fun e h => .inl ⟨rfl, fun hd pl sig hdr hf => ?_⟩) (fun p hp => ?_)
  · have := parseCompact_ok.2 (show CompactForm jwt ⟨hd, hdr, pl, sig⟩ from ⟨hf.parts, hf.dots, hf.header⟩)
    rw [h] at this; cases this
  have hc := parseCompact_ok.1 hp
  have uniq : ∀ hd pl sig hdr, JwtForm jwt hd pl sig hdr → hdr = p.parsedHeader := by
    intro hd pl sig hdr hf
    have := parseCompact_ok.2 (show CompactForm jwt ⟨hd, hdr, pl, sig⟩ from ⟨hf.parts, hf.dots, hf.header⟩)
    rw [hp] at this; cases this; rfl
  split
  · rename_i ht
    exact Asks.fail (.inl ⟨rfl, fun hd pl sig hdr hf => ht (uniq _ _ _ _ hf ▸ hf.typ)⟩)
  rename_i ht
  have ht : p.parsedHeader.typ = b!"JWT" := Classical.byContradiction ht
  dsimp only
  split
  · rename_i hk
    exact Asks.fail (.inl ⟨rfl, fun hd pl sig hdr hf => (didOrUrl_isNone _).1 hk (uniq _ _ _ _ hf ▸ hf.kid)⟩)
  rename_i hk
  have hk : HasFragment p.parsedHeader.kid := Classical.byContradiction fun h => hk ((didOrUrl_isNone _).2 h)
  have hf : JwtForm jwt p.header p.payload p.signature p.parsedHeader := ⟨hc.1, hc.2.1, hc.2.2, ht, hk⟩
  rw [didOrUrl_fst]
  have done := (⟨_, _, _, _, hf, rfl⟩ : ∃ h pl sig hdr, JwtForm jwt h pl sig hdr ∧
    [Query.resolve (didOf p.parsedHeader.kid)] = [.resolve (didOf hdr.kid)])
  refine Asks.docBind (fun e h => .inr done) (fun doc hd => ?_)
  refine asks_const (P := fun qs' => (Query.resolve (didOf p.parsedHeader.kid) :: qs' = [] ∧ ∀ h pl sig hdr, ¬ JwtForm jwt h pl sig hdr) ∨
    ∃ h pl sig hdr, JwtForm jwt h pl sig hdr ∧ Query.resolve (didOf p.parsedHeader.kid) :: qs' = [.resolve (didOf hdr.kid)]) ?_ (.inr done)
  refine Asks.liftBind (fun _ _ => rfl) (fun _ _ => ?_)
  refine Asks.liftBind (fun _ _ => rfl) (fun _ _ => ?_)
  refine Asks.liftBind (fun _ _ => rfl) (fun _ _ => ?_)
  refine Asks.liftBind (fun _ _ => rfl) (fun _ _ => ?_)
  refine Asks.liftBind (fun _ _ => rfl) (fun _ _ => ?_)
  split
  · exact Asks.fail rfl
  refine Asks.liftBind (fun _ _ => rfl) (fun _ _ => ?_)
  split
  · exact Asks.fail rfl
  refine Asks.liftBind (fun _ _ => rfl) (fun _ _ => ?_)
  exact Asks.pure rfl

theorem plainQuestions (t : Str) (md : UnpackMetadata) :
    Asks E (tryUnpackPlaintext C t md >>= fun x => Prog.lift (okOr .malformed x.1) >>= fun m => pure (m, x.2))
      (fun qs _ => PlainQuestions C t qs) := by
  suffices h : Asks E (tryUnpackPlaintext C t md) (fun qs _ => PlainQuestions C t qs) by
    refine Asks.bind h (fun _ _ h => h) (fun qs a h => ?_)
    refine asks_const (P := fun qs' => PlainQuestions C t (qs ++ qs')) ?_ (by rw [List.append_nil]; exact h)
    refine Asks.liftBind (fun _ _ => rfl) (fun _ _ => ?_)
    exact Asks.pure rfl
  unfold tryUnpackPlaintext
  have none' : (∀ j, fromJson (dMessage C.f64) t ≠ .ok j) → PlainQuestions C t [] :=
    fun h => .none fun kid ⟨_, _, _, _, _, _, h', _⟩ => h _ h'
  refine Asks.liftBind (fun e h => none' fun j hj => ?_) (fun o h => ?_)
  · change recognise (fromJson (dMessage C.f64) t) = _ at h
    rw [hj] at h; cases h
  change recognise (fromJson (dMessage C.f64) t) = _ at h
  cases o with
  | none => exact Asks.pure (none' fun j hj => by rw [hj] at h; cases h)
  | some m =>
    have hrec := recognise_ok h
    refine Asks.liftBind (fun e h => .none ?_) (fun m' h => ?_)
    · rintro kid ⟨m', jwt, hd, pl, sig, hdr, h1, h2, -⟩
      rw [h1] at hrec; cases hrec
      unfold Message.validate at h
      rw [if_neg (fun x => x h2)] at h; cases h
    have ht : m.typ = b!"application/didcomm-plain+json" ∧ m' = m := by
      unfold Message.validate at h
      split at h
      · cases h
      · rename_i ht; cases h; exact ⟨Classical.byContradiction ht, rfl⟩
    obtain ⟨ht, rfl⟩ := ht
    split
    · rename_i hp
      refine Asks.pure (.none ?_)
      rintro kid ⟨m', jwt, hd, pl, sig, hdr, h1, h2, h3, -⟩
      rw [h1] at hrec; cases hrec
      rw [hp] at h3; cases h3
    · rename_i jwt hp
      have conv : ∀ qs, ((qs = [] ∧ ∀ h pl sig hdr, ¬ JwtForm jwt h pl sig hdr) ∨
          ∃ h pl sig hdr, JwtForm jwt h pl sig hdr ∧ qs = [.resolve (didOf hdr.kid)]) → PlainQuestions C t qs := by
        rintro qs (⟨rfl, hn⟩ | ⟨hd, pl, sig, hdr, hf, rfl⟩)
        · refine .none ?_
          rintro kid ⟨m', jwt', hd, pl, sig, hdr, h1, h2, h3, h4, -⟩
          rw [h1] at hrec; cases hrec
          rw [hp] at h3; cases h3
          exact hn _ _ _ _ h4
        · exact .prior ⟨_, jwt, hd, pl, sig, hdr, hrec, ht, hp, hf, rfl⟩
      refine Asks.bind (priorQuestions jwt) (fun qs e h => conv qs h) (fun qs a h => ?_)
      exact Asks.pure (by rw [List.append_nil]; exact conv qs h)

theorem oursQuestions (next : Str) : Asks E (hasKeyAgreementSecret next) (fun qs _ =>
    (HasFragment next ∧ qs = [.findSecrets [next]]) ∨ (¬ HasFragment next ∧ (∀ doc, ¬ Document E next (.ok doc)) ∧ qs = [.resolve next]) ∨
    ∃ doc, ¬ HasFragment next ∧ Document E next (.ok doc) ∧ qs = [.resolve next, .findSecrets doc.keyAgreement]) := by
  unfold hasKeyAgreementSecret
  have h1 := didOrUrl_fst next
  have h2 := didOrUrl_snd next
  generalize didOrUrl next = x at h1 h2
  obtain ⟨did, kid⟩ := x
  by_cases hf : HasFragment next
  · rw [if_pos hf] at h2
    cases h2
    refine Asks.bind (Q := fun qs r => qs = [] ∧ r = .ok [next]) (Asks.pure ⟨rfl, rfl⟩) (by rintro qs e ⟨-, h⟩; cases h) ?_
    rintro qs a ⟨rfl, h⟩
    cases h
    exact Asks.findBind (fun k h => .inl ⟨hf, rfl⟩) (fun found h => Asks.pure (.inl ⟨hf, rfl⟩))
  · rw [if_neg hf] at h2
    cases h2
    rw [didOf_self hf] at h1
    cases h1
    refine Asks.bind (Q := fun qs r => qs = [.resolve did] ∧ ((∃ e, r = .error e ∧ Document E did (.error e)) ∨
      ∃ doc, r = .ok doc.keyAgreement ∧ Document E did (.ok doc))) ?_ ?_ ?_
    · exact Asks.docBind (fun e h => ⟨rfl, .inl ⟨e, rfl, h⟩⟩) (fun doc h => Asks.pure ⟨rfl, .inr ⟨doc, rfl, h⟩⟩)
    · rintro qs e ⟨rfl, ⟨e', h, hd⟩ | ⟨doc, h, _⟩⟩
      · exact .inr (.inl ⟨hf, (fun doc hd' => by cases hd.unique hd'), rfl⟩)
      · cases h
    · rintro qs e ⟨rfl, ⟨e', h, hd⟩ | ⟨doc, h, hd⟩⟩
      · cases h
      · cases h
        exact Asks.findBind (fun k h => .inr (.inr ⟨doc, hf, hd, rfl⟩)) (fun found h => Asks.pure (.inr (.inr ⟨doc, hf, hd, rfl⟩)))

theorem ForwardTo.unique {t n n' : Str} (h : ForwardTo C t n) (h' : ForwardTo C t n') : n = n' := by
  obtain ⟨m, v, h1, h2⟩ := h
  obtain ⟨m', v', h1', h2'⟩ := h'
  rw [h1] at h1'; cases h1'
  have h2 := (C41_only _ _ _).2 h2
  rw [(C41_only _ _ _).2 h2'] at h2
  cases h2; rfl

theorem forwardQuestions (t : Str) : Asks E (tryUnwrapForwarded C t) (fun qs _ => ForwardQuestions C E t qs) := by
  unfold tryUnwrapForwarded
  have none' : (∀ j, fromJson (dMessage C.f64) t ≠ .ok j) → ForwardQuestions C E t [] :=
    fun h => .none fun next ⟨_, _, h', _⟩ => h _ h'
  refine Asks.liftBind (fun e h => none' fun j hj => ?_) (fun o h => ?_)
  · change recognise (fromJson (dMessage C.f64) t) = _ at h
    rw [hj] at h; cases h
  change recognise (fromJson (dMessage C.f64) t) = _ at h
  cases o with
  | none => exact Asks.pure (none' fun j hj => by rw [hj] at h; cases h)
  | some m =>
    have hrec := recognise_ok h
    dsimp only
    cases hf : tryParseForward m with
    | none =>
      refine Asks.pure (.none ?_)
      rintro next ⟨m', v, h1, h2⟩
      rw [h1] at hrec; cases hrec
      rw [(C41_only _ _ _).2 h2] at hf; cases hf
    | some f =>
      obtain ⟨next, v⟩ := f
      have hf : ForwardTo C t next := ⟨m, v, hrec, (C41_only m next v).1 hf⟩
      refine Asks.bind (Q := fun qs _ => ForwardQuestions C E t qs) ((oursQuestions next).mono ?_) (fun _ _ h => h) (fun qs b h => ?_)
      · rintro qs r (⟨hn, rfl⟩ | ⟨hn, hd, rfl⟩ | ⟨doc, hn, hd, rfl⟩)
        · exact .key hf hn
        · exact .unresolved hf hn hd
        · exact .did hf hn hd
      · cases b with
        | true => exact Asks.pure (by rw [List.append_nil]; exact h)
        | false => exact Asks.pure (by rw [List.append_nil]; exact h)

/-! ## Unpacking -/

theorem unwrapQuestions (opts : UnpackOptions) : ∀ (n : Nat) (t : Str) (md : UnpackMetadata),
    Asks E (unwrapLoop C opts n t md) (fun qs r => r = .error .fuel ∨ UnwrapQuestions C E opts t qs) := by
  intro n
  induction n with
  | zero => intro t md; exact Asks.ret (.inl rfl)
  | succ n ih =>
    intro t md
    rw [unwrapLoop]
    refine Asks.bind ((anonQuestions t opts md).and (anonLayer t opts md)) ?_ ?_
    · rintro qs e ⟨hq, r', h, h'⟩
      cases r' with
      | ok o => cases h'
      | error e' => exact .inr (.closed (fun x hx => by cases h.unique hx) hq)
    · rintro qs a ⟨hq, r', h, h'⟩
      cases r' with
      | error e' => cases h'
      | ok o =>
        cases o with
        | none => cases h'; exact Asks.pure (.inr (by rw [List.append_nil]; exact .closed (fun x hx => by cases h.unique hx) hq))
        | some x =>
          obtain ⟨kids, alg, u⟩ := x
          cases h'
          dsimp only [Option.elim]
          split
          · rename_i ho
            refine Asks.bind ((forwardQuestions u).and (forwardInside u)) ?_ ?_
            · rintro qf e ⟨hqf, hf⟩
              exact .inr (.last h ho (fun w hw => by cases hf.unique hw) hq hqf)
            · rintro qf w ⟨hqf, hf⟩
              cases w with
              | none => exact Asks.pure (.inr (by rw [List.append_nil]; exact .last h ho (fun w hw => by cases hf.unique hw) hq hqf))
              | some w =>
                refine (ih w _).mono fun qr r hr => hr.imp id fun hr => ?_
                rw [← List.append_assoc]
                exact .again h ho hf hq hqf hr
          · rename_i ho
            exact Asks.pure (.inr (by rw [List.append_nil]; exact .opened h (by simpa using ho) hq))

theorem unpackQuestions (t : Str) (opts : UnpackOptions) :
    Asks E (unpack C t opts) (fun qs r => r = .error .fuel ∨ UnpackQuestions C E opts t qs) := by
  unfold unpack
  refine Asks.bind ((unwrapQuestions opts _ t {}).and (unwraps opts _ t {})) ?_ ?_
  · rintro qs e ⟨hq, h⟩
    rcases hq with hq | hq
    · cases hq; exact .inl rfl
    rcases h with h | h
    · cases h; exact .inl rfl
    exact .inr (.unwrapping (fun x hx => by cases h.unique hx) hq)
  rintro qs ⟨u, md⟩ ⟨hq, h⟩
  rcases hq with hq | hq
  · cases hq
  rcases h with h | hu
  · cases h
  refine Asks.bind ((authQuestions u opts md).and (authLayer u opts md)) ?_ ?_
  · rintro qa e ⟨hqa, r', h, h'⟩
    cases r' with
    | ok o => cases h'
    | error e' => exact .inr (.auth hu (fun a ha => by cases h.unique ha) hq hqa)
  rintro qa x ⟨hqa, r', ha, h'⟩
  cases r' with
  | error e' => cases h'
  | ok a =>
    have hx : x.1.getD u = (pastAuth u md a).1 ∧ x.2 = (pastAuth u md a).2 := by
      cases h'; cases a with
      | none => exact ⟨rfl, rfl⟩
      | some y => exact ⟨rfl, rfl⟩
    obtain ⟨au, amd⟩ := x
    dsimp only at hx ⊢
    rw [hx.1, hx.2]
    refine Asks.bind ((signQuestions _ _).and (signLayer _ _)) ?_ ?_
    · rintro qg e ⟨hqg, r', h, h'⟩
      cases r' with
      | ok o => cases h'
      | error e' =>
        rw [← List.append_assoc]
        exact .inr (.sign hu ha (fun a ha => by cases h.unique ha) hq hqa hqg)
    rintro qg x ⟨hqg, r', hs, h'⟩
    cases r' with
    | error e' => cases h'
    | ok s =>
      have hx : x.1.getD (pastAuth u md a).1 = (pastSign (pastAuth u md a).1 (pastAuth u md a).2 s).1 ∧
          x.2 = (pastSign (pastAuth u md a).1 (pastAuth u md a).2 s).2 := by
        cases h'; cases s with
        | none => exact ⟨rfl, rfl⟩
        | some y => exact ⟨rfl, rfl⟩
      obtain ⟨su, smd⟩ := x
      dsimp only at hx ⊢
      rw [hx.1, hx.2]
      refine (plainQuestions _ _).mono ?_
      intro qp r hqp
      rw [← List.append_assoc, ← List.append_assoc]
      exact .inr (.message hu ha hs hq hqa hqg hqp)

/-! ## The questions are determined -/

theorem KeyQuestions.unique {all : Bool} {tried : Str → KeyPair C → Res α → Prop} {l : List Str} {qs qs' : List Query}
    (h : KeyQuestions C E all tried l qs) (h' : KeyQuestions C E all tried l qs') : qs = qs' := by
  induction h generalizing qs' with
  | none => cases h'; rfl
  | stop hs =>
    cases h' with
    | stop => rfl
    | next hall ho ht _ =>
      rcases hs with hs | hs
      · rw [hall] at hs; cases hs
      · exact absurd ht (hs _ _ ho)
  | next hall ho ht _ ih =>
    cases h' with
    | stop hs =>
      rcases hs with hs | hs
      · rw [hall] at hs; cases hs
      · exact absurd ht (hs _ _ ho)
    | next _ _ _ h => rw [ih h]

theorem OpenQuestions.unique {all : Bool} {tried : Str → KeyPair C → Res α → Prop} {kids : List Str} {qs qs' : List Query}
    (h : OpenQuestions C E all tried kids qs) (h' : OpenQuestions C E all tried kids qs') : qs = qs' := by
  cases h with
  | manyDids h =>
    cases h' with
    | manyDids => rfl
    | failed h1 => exact absurd h1 h
    | found h1 => exact absurd h1 h
  | failed h hf =>
    cases h' with
    | manyDids h1 => exact absurd h h1
    | failed => rfl
    | found _ hf' => rw [hf] at hf'; cases hf'
  | found h hf hq =>
    cases h' with
    | manyDids h1 => exact absurd h h1
    | failed _ hf' => rw [hf] at hf'; cases hf'
    | found _ hf' hq' => rw [hf] at hf'; cases hf'; rw [hq.unique hq']

theorem AnonQuestions.unique {all : Bool} {t : Str} {qs qs' : List Query} (h : AnonQuestions C E all t qs) (h' : AnonQuestions C E all t qs') :
    qs = qs' := by
  cases h with
  | none h =>
    cases h' with
    | none => rfl
    | envelope h' => exact absurd h' (h _ _ _ _)
  | envelope h hq =>
    cases h' with
    | none h' => exact absurd h (h' _ _ _ _)
    | envelope h' hq' =>
      obtain ⟨rfl, rfl, rfl, rfl⟩ := h.unique h'
      exact hq.unique hq'

theorem AuthQuestions.unique {all : Bool} {t : Str} {qs qs' : List Query} (h : AuthQuestions C E all t qs) (h' : AuthQuestions C E all t qs') :
    qs = qs' := by
  cases h with
  | none h =>
    cases h' with
    | none => rfl
    | noKey h' => exact absurd h' (h _ _ _ _)
    | envelope h' => exact absurd h' (h _ _ _ _)
  | noKey h hk =>
    cases h' with
    | none h' => exact absurd h (h' _ _ _ _)
    | noKey h' =>
      obtain ⟨rfl, rfl, rfl, rfl⟩ := h.unique h'
      rfl
    | envelope h' hk' =>
      obtain ⟨rfl, rfl, rfl, rfl⟩ := h.unique h'
      exact absurd hk' (hk _)
  | envelope h hk hq =>
    cases h' with
    | none h' => exact absurd h (h' _ _ _ _)
    | noKey h' hk' =>
      obtain ⟨rfl, rfl, rfl, rfl⟩ := h.unique h'
      exact absurd hk (hk' _)
    | envelope h' hk' hq' =>
      obtain ⟨rfl, rfl, rfl, rfl⟩ := h.unique h'
      cases hk.unique hk'
      rw [hq.unique hq']

theorem SignQuestions.unique {t : Str} {qs qs' : List Query} (h : SignQuestions t qs) (h' : SignQuestions t qs') : qs = qs' := by
  cases h with
  | none h =>
    cases h' with
    | none => rfl
    | signer h' => exact absurd h' (h _)
  | signer h =>
    cases h' with
    | none h' => exact absurd h (h' _)
    | signer h' => rw [h.unique h']

theorem NamesIssuer.unique {t kid kid' : Str} (h : NamesIssuer C t kid) (h' : NamesIssuer C t kid') : kid = kid' := by
  obtain ⟨m, jwt, hd, pl, sig, hdr, h1, h2, h3, h4, rfl⟩ := h
  obtain ⟨m', jwt', hd', pl', sig', hdr', h1', h2', h3', h4', rfl⟩ := h'
  rw [h1] at h1'; cases h1'
  rw [h3] at h3'; cases h3'
  have e := parseCompact_ok.2 (show CompactForm jwt ⟨hd, hdr, pl, sig⟩ from ⟨h4.parts, h4.dots, h4.header⟩)
  rw [parseCompact_ok.2 (show CompactForm jwt ⟨hd', hdr', pl', sig'⟩ from ⟨h4'.parts, h4'.dots, h4'.header⟩)] at e
  cases e; rfl

theorem PlainQuestions.unique {t : Str} {qs qs' : List Query} (h : PlainQuestions C t qs) (h' : PlainQuestions C t qs') : qs = qs' := by
  cases h with
  | none h =>
    cases h' with
    | none => rfl
    | prior h' => exact absurd h' (h _)
  | prior h =>
    cases h' with
    | none h' => exact absurd h (h' _)
    | prior h' => rw [h.unique h']

theorem ForwardQuestions.unique {t : Str} {qs qs' : List Query} (h : ForwardQuestions C E t qs) (h' : ForwardQuestions C E t qs') : qs = qs' := by
  cases h with
  | none h =>
    cases h' with
    | none => rfl
    | key h' => exact absurd h' (h _)
    | unresolved h' => exact absurd h' (h _)
    | did h' => exact absurd h' (h _)
  | key h hf =>
    cases h' with
    | none h' => exact absurd h (h' _)
    | key h' => rw [h.unique h']
    | unresolved h' hf' => cases h.unique h'; exact absurd hf hf'
    | did h' hf' => cases h.unique h'; exact absurd hf hf'
  | unresolved h hf hd =>
    cases h' with
    | none h' => exact absurd h (h' _)
    | key h' hf' => cases h.unique h'; exact absurd hf' hf
    | unresolved h' => rw [h.unique h']
    | did h' _ hd' => cases h.unique h'; exact absurd hd' (hd _)
  | did h hf hd =>
    cases h' with
    | none h' => exact absurd h (h' _)
    | key h' hf' => cases h.unique h'; exact absurd hf' hf
    | unresolved h' _ hd' => cases h.unique h'; exact absurd hd (hd' _)
    | did h' _ hd' => cases h.unique h'; cases hd.unique hd'; rfl

theorem UnwrapQuestions.unique {opts : UnpackOptions} {t : Str} {qs qs' : List Query} (h : UnwrapQuestions C E opts t qs)
    (h' : UnwrapQuestions C E opts t qs') : qs = qs' := by
  induction h generalizing qs' with
  | closed h hq =>
    cases h' with
    | closed _ hq' => exact hq.unique hq'
    | opened h' => exact absurd h' (h _)
    | last h' => exact absurd h' (h _)
    | again h' => exact absurd h' (h _)
  | opened h ho hq =>
    cases h' with
    | closed h' => exact absurd h (h' _)
    | opened _ _ hq' => exact hq.unique hq'
    | last _ ho' => rw [ho] at ho'; cases ho'
    | again _ ho' => rw [ho] at ho'; cases ho'
  | last h ho hf hq hqf =>
    cases h' with
    | closed h' => exact absurd h (h' _)
    | opened _ ho' => rw [ho] at ho'; cases ho'
    | last h' _ _ hq' hqf' => cases h.unique h'; rw [hq.unique hq', hqf.unique hqf']
    | again h' _ hf' => cases h.unique h'; exact absurd hf' (hf _)
  | again h ho hf hq hqf _ ih =>
    cases h' with
    | closed h' => exact absurd h (h' _)
    | opened _ ho' => rw [ho] at ho'; cases ho'
    | last h' _ hf' => cases h.unique h'; exact absurd hf (hf' _)
    | again h' _ hf' hq' hqf' hr' =>
      cases h.unique h'
      cases hf.unique hf'
      rw [hq.unique hq', hqf.unique hqf', ih hr']

theorem UnpackQuestions.unique {opts : UnpackOptions} {t : Str} {qs qs' : List Query} (h : UnpackQuestions C E opts t qs)
    (h' : UnpackQuestions C E opts t qs') : qs = qs' := by
  cases h with
  | unwrapping h hq =>
    cases h' with
    | unwrapping _ hq' => exact hq.unique hq'
    | auth h' => exact absurd h' (h _)
    | sign h' => exact absurd h' (h _)
    | message h' => exact absurd h' (h _)
  | auth h ha hq hqa =>
    cases h' with
    | unwrapping h' => exact absurd h (h' _)
    | auth h' _ hq' hqa' => cases h.unique h'; rw [hq.unique hq', hqa.unique hqa']
    | sign h' ha' => cases h.unique h'; exact absurd ha' (ha _)
    | message h' ha' => cases h.unique h'; exact absurd ha' (ha _)
  | sign h ha hs hq hqa hqg =>
    cases h' with
    | unwrapping h' => exact absurd h (h' _)
    | auth h' ha' => cases h.unique h'; exact absurd ha (ha' _)
    | sign h' ha' _ hq' hqa' hqg' =>
      cases h.unique h'; cases ha.unique ha'
      rw [hq.unique hq', hqa.unique hqa', hqg.unique hqg']
    | message h' ha' hs' => cases h.unique h'; cases ha.unique ha'; exact absurd hs' (hs _)
  | message h ha hs hq hqa hqg hqp =>
    cases h' with
    | unwrapping h' => exact absurd h (h' _)
    | auth h' ha' => cases h.unique h'; exact absurd ha (ha' _)
    | sign h' ha' hs' => cases h.unique h'; cases ha.unique ha'; exact absurd hs (hs' _)
    | message h' ha' hs' hq' hqa' hqg' hqp' =>
      cases h.unique h'; cases ha.unique ha'; cases hs.unique hs'
      rw [hq.unique hq', hqa.unique hqa', hqg.unique hqg', hqp.unique hqp']

end DIDComm
