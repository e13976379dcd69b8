import Verif.Proofs.Layout
import Verif.Proofs.InvUnpack

/-! # Unpacking does not see the order of members -/

set_option autoImplicit false

namespace DIDComm

variable {C : Crypto}

/-! ## Programs that do the same -/

/-- The same error, or related results. -/
inductive ResultsBy {α β : Type} (R : α → β → Prop) : Res α → Res β → Prop
  | error (e : Err) : ResultsBy R (.error e) (.error e)
  | ok {a : α} {b : β} (h : R a b) : ResultsBy R (.ok a) (.ok b)

/-- Every run of the one is a run of the other, with related results. -/
def Follows {α β : Type} (R : α → β → Prop) (p : Prog α) (q : Prog β) : Prop :=
  ∀ tr r, Runs p tr r → ∃ r', Runs q tr r' ∧ ResultsBy R r r'

theorem Follows.refl {α : Type} {R : α → α → Prop} (hR : ∀ a, R a a) (p : Prog α) : Follows R p p := by
  intro tr r h
  refine ⟨r, h, ?_⟩
  cases r with
  | error e => exact .error e
  | ok a => exact .ok (hR a)

theorem Follows.bind {α β γ δ : Type} {R : α → β → Prop} {S : γ → δ → Prop} {p : Prog α} {q : Prog β} {f : α → Prog γ} {g : β → Prog δ}
    (h : Follows R p q) (hf : ∀ a b, R a b → Follows S (f a) (g b)) : Follows S (p >>= f) (q >>= g) := by
  intro tr r hr
  rcases runs_bind.1 hr with ⟨e, h1, rfl⟩ | ⟨a, tr1, tr2, rfl, h1, h2⟩
  · obtain ⟨r', h3, h4⟩ := h _ _ h1
    cases h4
    exact ⟨_, runs_bind.2 (.inl ⟨e, h3, rfl⟩), .error e⟩
  · obtain ⟨r', h3, h4⟩ := h _ _ h1
    cases h4 with
    | ok hab =>
      obtain ⟨r2, h5, h6⟩ := hf _ _ hab _ _ h2
      exact ⟨r2, runs_bind.2 (.inr ⟨_, tr1, tr2, rfl, h3, h5⟩), h6⟩

theorem Follows.bind_eq {α γ δ : Type} {S : γ → δ → Prop} {p : Prog α} {f : α → Prog γ} {g : α → Prog δ}
    (hf : ∀ a, Follows S (f a) (g a)) : Follows S (p >>= f) (p >>= g) :=
  (Follows.refl (R := Eq) (fun _ => rfl) p).bind (by rintro a _ rfl; exact hf a)

theorem Follows.bind_run {α γ δ : Type} {S : γ → δ → Prop} {p : Prog α} {f : α → Prog γ} {g : α → Prog δ}
    (hf : ∀ a tr, Runs p tr (.ok a) → Follows S (f a) (g a)) : Follows S (p >>= f) (p >>= g) := by
  intro tr r hr
  rcases runs_bind.1 hr with ⟨e, h1, rfl⟩ | ⟨a, tr1, tr2, rfl, h1, h2⟩
  · exact ⟨_, runs_bind.2 (.inl ⟨e, h1, rfl⟩), .error e⟩
  · obtain ⟨r2, h5, h6⟩ := hf _ _ h1 _ _ h2
    exact ⟨r2, runs_bind.2 (.inr ⟨_, tr1, tr2, rfl, h1, h5⟩), h6⟩

theorem Follows.pure {α β : Type} {R : α → β → Prop} {a : α} {b : β} (h : R a b) : Follows R (Pure.pure a : Prog α) (Pure.pure b : Prog β) := by
  intro tr r hr
  cases hr
  exact ⟨_, .ret _, .ok h⟩

theorem Follows.fail {α β : Type} {R : α → β → Prop} (k : ErrorKind) : Follows R (Prog.fail k : Prog α) (Prog.fail k : Prog β) := by
  intro tr r hr
  cases hr
  exact ⟨_, .ret _, .error _⟩

theorem Follows.lift {α β : Type} {R : α → β → Prop} {x : Res α} {y : Res β} (h : ResultsBy R x y) :
    Follows R (Prog.lift x) (Prog.lift y) := by
  intro tr r hr
  cases h with
  | error e => cases hr; exact ⟨_, .ret _, .error e⟩
  | ok h => cases hr; exact ⟨_, .ret _, .ok h⟩

/-! ## Texts that are read alike -/

/-- The texts are the same envelopes, and related messages if they are no signed envelopes. -/
structure ReadAlike (C : Crypto) (M : Message → Message → Prop) (s s' : Str) : Prop where
  jwe : jweFromStr s = jweFromStr s'
  jws : jwsFromStr s = jwsFromStr s'
  message : (∀ j, jwsFromStr s ≠ .ok j) → ResultsBy M (messageFromStr C s) (messageFromStr C s')

theorem fromJson_of {α : Type} {d : Nat → Tree → Option α} [Early d] {s : Str} {t : Tree} (h : parseJson s = .ok t) :
    fromJson d s = okOr .malformed (d depthLimit t) := by
  unfold fromJson
  rw [h]

theorem okOr_both {α : Type} {R : α → α → Prop} {o o' : Option α} (k : ErrorKind) (h : BothOr R o o') : ResultsBy R (okOr k o) (okOr k o') := by
  rcases h with ⟨e, e'⟩ | ⟨x, y, e, e', h⟩ <;> rw [e, e']
  · exact .error _
  · exact .ok h

theorem readAlike {s s' : Str} {t t' : Tree} (hs : parseJson s = .ok t) (hs' : parseJson s' = .ok t') (h : Alike t t') :
    ReadAlike C SameMessage s s' where
  jwe := by unfold jweFromStr; rw [fromJson_of hs, fromJson_of hs', dJwe_blind _ h]
  jws := by unfold jwsFromStr; rw [fromJson_of hs, fromJson_of hs', dJws_blind _ h]
  message _ := by
    unfold messageFromStr
    rw [fromJson_of hs, fromJson_of hs']
    exact okOr_both _ (dMessage_alike h _)

theorem readAlike_same {s s' : Str} {t : Tree} (hs : parseJson s = .ok t) (hs' : parseJson s' = .ok t) : ReadAlike C Eq s s' where
  jwe := by unfold jweFromStr; rw [fromJson_of hs, fromJson_of hs']
  jws := by unfold jwsFromStr; rw [fromJson_of hs, fromJson_of hs']
  message _ := by
    unfold messageFromStr
    rw [fromJson_of hs, fromJson_of hs']
    exact okOr_both _ (.of_eq (fun _ => rfl) rfl)

/-! ## Unpacking -/

/-- The same text, or the two texts in question. -/
def TextsBy (s s' u u' : Str) : Prop := u = u' ∨ (u = s ∧ u' = s')

/-- The same metadata, but for the signed message quoted. -/
def MetaBy (s s' : Str) (md md' : UnpackMetadata) : Prop :=
  md' = md ∨ (md.signedMessage = some s ∧ md' = { md with signedMessage := some s' })

theorem tryAnon_alike {s s' : Str} (h : jweFromStr s = jweFromStr s') (o : UnpackOptions) (md : UnpackMetadata) :
    tryUnpackAnoncrypt C s o md = tryUnpackAnoncrypt C s' o md := by
  unfold tryUnpackAnoncrypt
  rw [h]

theorem tryAuth_alike {s s' : Str} (h : jweFromStr s = jweFromStr s') (o : UnpackOptions) (md : UnpackMetadata) :
    tryUnpackAuthcrypt C s o md = tryUnpackAuthcrypt C s' o md := by
  unfold tryUnpackAuthcrypt
  rw [h]

theorem unwrapLoop_alike {s s' : Str} (h : jweFromStr s = jweFromStr s') (o : UnpackOptions) (n : Nat) (md : UnpackMetadata) :
    Follows (fun x y => y.2 = x.2 ∧ (y.1 = x.1 ∨ (x.1 = s ∧ y.1 = s' ∧ x.2 = md))) (unwrapLoop C o n s md)
      (unwrapLoop C o n s' md) := by
  have refl : ∀ p : Prog (Str × UnpackMetadata), Follows (fun x y => y.2 = x.2 ∧ (y.1 = x.1 ∨ (x.1 = s ∧ y.1 = s' ∧ x.2 = md))) p p :=
    Follows.refl fun _ => ⟨rfl, .inl rfl⟩
  cases n with
  | zero => intro tr r hr; cases hr; exact ⟨_, .ret _, .error _⟩
  | succ n =>
    unfold unwrapLoop
    rw [tryAnon_alike h]
    refine .bind_run ?_
    rintro ⟨anon, md'⟩ tr hr
    cases anon with
    | none =>
      rcases tryUnpackAnoncrypt_ok.1 hr with ⟨-, rfl, -⟩ | ⟨_, _, _, _, _, _, h, _⟩
      · exact .pure ⟨rfl, .inr ⟨rfl, rfl, rfl⟩⟩
      · cases h
    | some payload => exact refl _

theorem trySign_alike {s s' : Str} (h : jwsFromStr s = jwsFromStr s') (md : UnpackMetadata) :
    Follows (fun x y => y.1 = x.1 ∧ MetaBy s s' x.2 y.2 ∧ (x.1 = none → ∀ j, jwsFromStr s ≠ .ok j)) (tryUnpackSign C s md)
      (tryUnpackSign C s' md) := by
  unfold tryUnpackSign
  rw [h]
  refine .bind_run fun jws tr hr => ?_
  cases jws with
  | none =>
    refine .pure ⟨rfl, .inl rfl, fun _ j hj => ?_⟩
    rw [hj] at hr
    cases hr
  | some jws =>
    refine .bind_eq fun p => ?_
    simp only
    split
    · exact .fail _
    refine .bind_eq fun hdr => .bind_eq fun sig => ?_
    split
    · exact .fail _
    refine .bind_eq fun doc => .bind_eq fun doc => .bind_eq fun kid => .bind_eq fun vm => .bind_eq fun curve => .bind_eq fun key =>
      .bind_eq fun valid => ?_
    split
    · exact .fail _
    refine .bind_eq fun payload => ?_
    split
    · exact .fail _
    exact .pure ⟨rfl, .inr ⟨rfl, rfl⟩, fun h => (by cases h)⟩

/-- The relation keeps what unpacking looks at. -/
def Keeps (M : Message → Message → Prop) : Prop := ∀ {m m'}, M m m' → m'.typ = m.typ ∧ m'.fromPrior = m.fromPrior

theorem recognise_both {α : Type} {M : α → α → Prop} {x y : Res α} (h : ResultsBy M x y) :
    ResultsBy (BothOr M) (recognise x) (recognise y) := by
  cases h with
  | ok h => exact .ok (.inr ⟨_, _, rfl, rfl, h⟩)
  | error e =>
    unfold recognise
    split
    · rename_i h; cases h
    · exact .ok (.inl ⟨rfl, rfl⟩)
    · exact .error _

theorem tryPlain_alike {M : Message → Message → Prop} (hM : Keeps M) {s s' u u' : Str} (h : ResultsBy M (messageFromStr C u) (messageFromStr C u'))
    {md md' : UnpackMetadata} (hmd : MetaBy s s' md md') :
    Follows (fun x y => BothOr M x.1 y.1 ∧ MetaBy s s' x.2 y.2) (tryUnpackPlaintext C u md) (tryUnpackPlaintext C u' md') := by
  unfold tryUnpackPlaintext
  refine .bind (.lift (recognise_both h)) ?_
  rintro _ _ (⟨rfl, rfl⟩ | ⟨m, m', rfl, rfl, hm⟩)
  · exact .pure ⟨.inl ⟨rfl, rfl⟩, hmd⟩
  · obtain ⟨h1, h2⟩ := hM hm
    refine .bind (R := fun a b => M a b ∧ a = m ∧ b = m') (.lift ?_) ?_
    · unfold Message.validate
      rw [h1]
      split
      · exact .error _
      · exact .ok ⟨hm, rfl, rfl⟩
    · rintro _ _ ⟨-, rfl, rfl⟩
      rw [h2]
      split
      · exact .pure ⟨.inr ⟨_, _, rfl, rfl, hm⟩, hmd⟩
      · refine .bind_eq ?_
        rintro ⟨fp, kid⟩
        refine .pure ⟨.inr ⟨_, _, rfl, rfl, hm⟩, ?_⟩
        rcases hmd with rfl | ⟨h3, rfl⟩
        · exact .inl rfl
        · exact .inr ⟨h3, rfl⟩

end DIDComm
