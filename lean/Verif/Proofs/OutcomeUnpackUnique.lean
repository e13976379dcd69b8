import Verif.Proofs.OutcomeUnpack

/-! # The outcome of unpacking is unique -/

set_option autoImplicit false

namespace DIDComm

variable {C : Crypto} {E : Env} {α β : Type}

/-- A relation with at most one result is a partial function. -/
theorem functional {ι : Sort _} {R : ι → Res α → Prop} (hu : ∀ i r r', R i r → R i r' → r = r') :
    ∃ f : ι → Option (Res α), ∀ i r, R i r ↔ f i = some r := by
  classical
  refine ⟨fun i => if h : ∃ r, R i r then some (Classical.choose h) else none, fun i r => ?_⟩
  dsimp only
  by_cases h : ∃ r, R i r
  · rw [dif_pos h, Option.some.injEq]
    exact ⟨fun hr => hu i _ _ (Classical.choose_spec h) hr, fun hr => hr ▸ Classical.choose_spec h⟩
  · rw [dif_neg h]
    exact ⟨fun hr => absurd ⟨r, hr⟩ h, fun hr => by cases hr⟩

theorem Recognised.unique {d : Nat → Tree → Option α} {_ : Early d} {t : Str} {r r' : Res (Option α)} (h : Recognised d t r) (h' : Recognised d t r') :
    r = r' := by
  cases h <;> cases h' <;> simp_all

theorem HeaderText.unique {d : Nat → Tree → Option α} {_ : Early d} {t : Str} {r r' : Res α} (h : HeaderText d t r) (h' : HeaderText d t r') :
    r = r' := by
  cases h <;> cases h' <;> simp_all

theorem JweHeaderRead.unique {j : JWE} {r r' : Res (JweHeader × Option Bytes × Bytes)} (h : JweHeaderRead C j r)
    (h' : JweHeaderRead C j r') : r = r' := by
  obtain ⟨f, hf⟩ := functional (R := fun t r => HeaderText (dJweHeader C.f64) t r) fun _ _ _ => HeaderText.unique
  cases h <;> cases h' <;> simp only [hf] at * <;> simp_all

theorem Decrypts.unique {j : JWE} {hdr : JweHeader} {ce : ContentEnc} {c : Curve} {kid : Str} {agree : C.Key → Bytes → Option Bytes}
    {r r' : Res Bytes} (h : Decrypts C j hdr ce c kid agree r) (h' : Decrypts C j hdr ce c kid agree r') : r = r' := by
  cases h <;> cases h' <;> simp_all

theorem EncNames.unique {a : EncAlg} {ce ce' : ContentEnc} {alg alg' : AnonCryptAlg} (h : EncNames a ce alg) (h' : EncNames a ce' alg') :
    ce = ce' ∧ alg = alg' := by
  cases h <;> cases h' <;> exact ⟨rfl, rfl⟩

theorem EncNames.iff {a : EncAlg} {ce : ContentEnc} {alg : AnonCryptAlg} : EncNames a ce alg ↔ anonEnc a = some (ce, alg) :=
  ⟨fun h => by cases h <;> rfl, anonEnc_some⟩

theorem TriedAnon.unique {j : JWE} {hdr : JweHeader} {apu : Option Bytes} {apv : Bytes} {kid : Str} {p : KeyPair C}
    {r r' : Res (AnonCryptAlg × Bytes)} (h : TriedAnon C j hdr apu apv kid p r) (h' : TriedAnon C j hdr apu apv kid p r') : r = r' := by
  obtain ⟨f, hf⟩ := functional (R := fun ce r => Decrypts C j hdr ce p.curve kid
    (fun epk _ => C.ecdhEs p.curve epk p.key b!"ECDH-ES+A256KW" [] apv true) r) fun _ _ _ => Decrypts.unique
  cases h <;> cases h' <;> simp only [hf, EncNames.iff] at * <;> simp_all

theorem TriedAuth.unique {j : JWE} {hdr : JweHeader} {apv : Bytes} {fromKid : Str} {s : KeyPair C} {kid : Str} {p : KeyPair C}
    {r r' : Res (AuthCryptAlg × Bytes)} (h : TriedAuth C j hdr apv fromKid s kid p r) (h' : TriedAuth C j hdr apv fromKid s kid p r') : r = r' := by
  obtain ⟨f, hf⟩ := functional (R := fun (_ : Unit) r => Decrypts C j hdr .a256cbcHs512 s.curve kid
        (fun epk tag => C.ecdh1pu s.curve epk s.key p.key b!"ECDH-1PU+A256KW" fromKid apv tag true) r) fun _ _ _ => Decrypts.unique
  have hf := hf ()
  cases h <;> cases h' <;> simp only [hf] at * <;> simp_all

theorem OurSecret.unique {kid : Str} {r r' : Res (KeyPair C)} (h : OurSecret C E kid r) (h' : OurSecret C E kid r') : r = r' := by
  cases h <;> cases h' <;> simp_all

theorem TriedKeys.unique {all : Bool} {tried : Str → KeyPair C → Res α → Prop} (ht : ∀ kid p r r', tried kid p r → tried kid p r' → r = r')
    {l : List Str} {r r' : Res α} (h : TriedKeys C E all tried l r) (h' : TriedKeys C E all tried l r') : r = r' := by
  obtain ⟨f, hf⟩ := functional (R := fun kid r => OurSecret C E kid r) fun _ _ _ => OurSecret.unique
  obtain ⟨g, hg'⟩ := functional (R := fun (x : Str × KeyPair C) r => tried x.1 x.2 r) fun x => ht x.1 x.2
  have hg : ∀ kid p r, tried kid p r ↔ g (kid, p) = some r := fun kid p r => hg' (kid, p) r
  clear hg'
  induction h with
  | noSecret h => cases h' <;> simp_all
  | failed h ht => cases h' <;> simp_all
  | last h ht hl => cases h' <;> simp_all
  | more h ht hl hr hm ih =>
    cases h' with
    | more h1 h2 h3 h4 h5 => exact ih h5
    | _ => simp_all

theorem OpenedFor.unique {all : Bool} {tried : Str → KeyPair C → Res (α × Bytes) → Prop}
    {kids : List Str} {r r' : Res (α × Str)} (h : OpenedFor C E all tried kids r)
    (ht : ∀ kid p r r', tried kid p r → tried kid p r' → r = r') (h' : OpenedFor C E all tried kids r') : r = r' := by
  obtain ⟨f, hf⟩ := functional (R := fun l r => TriedKeys C E all tried l r) fun _ _ _ => TriedKeys.unique ht
  have hn : f [] = none := by
    rcases h : f [] with _ | r
    · rfl
    · exact nomatch (hf [] r).2 h
  cases h <;> cases h' <;> simp only [hf] at * <;> simp_all

theorem AnonLayer.unique {all : Bool} {t : Str} {r r' : Res (Option (List Str × AnonCryptAlg × Str))} (h : AnonLayer C E all t r)
    (h' : AnonLayer C E all t r') : r = r' := by
  obtain ⟨f, hf⟩ := functional (R := fun t r => Recognised dJwe t r) fun _ _ _ => Recognised.unique
  obtain ⟨g, hg⟩ := functional (R := fun j r => JweHeaderRead C j r) fun _ _ _ => JweHeaderRead.unique
  obtain ⟨k, hk'⟩ := functional (R := fun (x : JWE × JweHeader × Option Bytes × Bytes) r =>
    OpenedFor C E all (TriedAnon C x.1 x.2.1 x.2.2.1 x.2.2.2) (kidsOf x.1) r)
    fun _ _ _ h h' => h.unique (fun _ _ _ _ => TriedAnon.unique) h'
  have hk : ∀ j hdr apu apv r, OpenedFor C E all (TriedAnon C j hdr apu apv) (kidsOf j) r ↔ k (j, hdr, apu, apv) = some r :=
    fun j hdr apu apv r => hk' (j, hdr, apu, apv) r
  clear hk'
  cases h <;> cases h' <;> simp only [hf, hg, hk] at * <;> simp_all

theorem SendersKey.unique {kid : Str} {r r' : Res (KeyPair C)} (h : SendersKey C E kid r) (h' : SendersKey C E kid r') : r = r' := by
  cases h <;> cases h' <;> simp_all

theorem AuthOpened.unique {all : Bool} {j : JWE} {hdr : JweHeader} {apv : Bytes} {apu : Option Bytes} {r r' : Res (Str × AuthCryptAlg × Str)}
    (h : AuthOpened C E all j hdr apv apu r) (h' : AuthOpened C E all j hdr apv apu r') : r = r' := by
  obtain ⟨f, hf⟩ := functional (R := fun kid r => SendersKey C E kid r) fun _ _ _ => SendersKey.unique
  obtain ⟨k, hk'⟩ := functional (R := fun (x : Str × KeyPair C) r => OpenedFor C E all (TriedAuth C j hdr apv x.1 x.2) (kidsOf j) r)
    fun _ _ _ h h' => h.unique (fun _ _ _ _ => TriedAuth.unique) h'
  have hk : ∀ a b r, OpenedFor C E all (TriedAuth C j hdr apv a b) (kidsOf j) r ↔ k (a, b) = some r := fun a b r => hk' (a, b) r
  clear hk'
  cases h <;> cases h' <;> simp only [hf, hk] at * <;> simp_all

theorem AuthLayer.unique {all : Bool} {t : Str} {r r' : Res (Option (List Str × Str × AuthCryptAlg × Str))} (h : AuthLayer C E all t r)
    (h' : AuthLayer C E all t r') : r = r' := by
  obtain ⟨f, hf⟩ := functional (R := fun t r => Recognised dJwe t r) fun _ _ _ => Recognised.unique
  obtain ⟨g, hg⟩ := functional (R := fun j r => JweHeaderRead C j r) fun _ _ _ => JweHeaderRead.unique
  obtain ⟨k, hk'⟩ := functional (R := fun (x : JWE × JweHeader × Option Bytes × Bytes) r =>
    AuthOpened C E all x.1 x.2.1 x.2.2.2 x.2.2.1 r) fun _ _ _ => AuthOpened.unique
  have hk : ∀ j hdr apu apv r, AuthOpened C E all j hdr apv apu r ↔ k (j, hdr, apu, apv) = some r :=
    fun j hdr apu apv r => hk' (j, hdr, apu, apv) r
  clear hk'
  cases h <;> cases h' <;> simp only [hf, hg, hk] at * <;> simp_all

theorem SignatureHeaders.unique {l : List JwsSig} {r r' : Res (List JwsHeader)} (h : SignatureHeaders l r) (h' : SignatureHeaders l r') :
    r = r' := by
  obtain ⟨f, hf⟩ := functional (R := fun t r => HeaderText dJwsHeader t r) fun _ _ _ => HeaderText.unique
  induction h generalizing r' with
  | nil => cases h'; rfl
  | bad h => cases h' <;> simp_all
  | later h hr ih =>
    cases h' with
    | bad h1 => simp_all
    | later h1 h2 => exact ih h2
    | cons h1 h2 => exact absurd (ih h2) (by simp)
  | cons h hr ih =>
    cases h' with
    | bad h1 => simp_all
    | later h1 h2 => exact absurd (ih h2) (by simp)
    | cons h1 h2 =>
      have := ih h2
      simp_all

theorem Scheme.iff {a : JwsAlg} {c : Curve} {st : SigType} {sa : SignAlg} :
    Scheme a c st sa ↔ curveFor a = .ok c ∧ a.sigType = .ok st ∧ signAlgOf a = some sa := by
  constructor
  · intro h; cases h <;> exact ⟨rfl, rfl, rfl⟩
  · rintro ⟨h1, h2, h3⟩
    obtain ⟨sa', h4, h⟩ := scheme_of h1 h2
    rw [h3] at h4; cases h4; exact h

theorem SignatureChecked.unique {s : JwsSig} {hdr : JwsHeader} {pl : Str} {r r' : Res (SignAlg × Str)} (h : SignatureChecked C E s hdr pl r)
    (h' : SignatureChecked C E s hdr pl r') : r = r' := by
  obtain ⟨f, hf⟩ := functional (R := fun d r => Document E d r) fun _ _ _ => Document.unique
  obtain ⟨g, hg⟩ := functional (R := fun doc r => SignersKey C doc s.kid hdr.alg r) fun _ _ _ => SignersKey.unique
  cases h <;> cases h' <;> simp only [hf, hg, Scheme.iff] at * <;> simp_all

theorem SignLayer.unique {t : Str} {r r' : Res (Option (Str × SignAlg × Str))} (h : SignLayer C E t r) (h' : SignLayer C E t r') : r = r' := by
  obtain ⟨f, hf⟩ := functional (R := fun t r => Recognised dJws t r) fun _ _ _ => Recognised.unique
  obtain ⟨g, hg⟩ := functional (R := fun l r => SignatureHeaders l r) fun _ _ _ => SignatureHeaders.unique
  obtain ⟨k, hk'⟩ := functional (R := fun (x : JwsSig × JwsHeader × Str) r => SignatureChecked C E x.1 x.2.1 x.2.2 r)
    fun _ _ _ => SignatureChecked.unique
  have hk : ∀ a b c r, SignatureChecked C E a b c r ↔ k (a, b, c) = some r := fun a b c r => hk' (a, b, c) r
  clear hk'
  cases h <;> cases h' <;> simp only [hf, hg, hk] at * <;> simp_all <;> subst_vars <;> simp_all

theorem PlainLayer.unique {t : Str} {r r' : Res (Message × Option (FromPrior × Str))} (h : PlainLayer C E t r) (h' : PlainLayer C E t r') :
    r = r' := by
  obtain ⟨f, hf⟩ := functional (R := fun t r => Recognised (dMessage C.f64) t r) fun _ _ _ => Recognised.unique
  obtain ⟨g, hg⟩ := functional (R := fun jwt r => PriorRead C E jwt r) fun _ _ _ => PriorRead.unique
  cases h <;> cases h' <;> simp only [hf, hg] at * <;> simp_all

theorem Ours.unique {next : Str} {r r' : Res Bool} (h : Ours E next r) (h' : Ours E next r') : r = r' := by
  obtain ⟨f, hf⟩ := functional (R := fun d r => Document E d r) fun _ _ _ => Document.unique
  cases h <;> cases h' <;> simp only [hf] at * <;> simp_all

theorem IsForward.iff {m : Message} {next : Str} {v : Value} : IsForward m next v ↔ tryParseForward m = some ⟨next, v⟩ :=
  (C41_only m next v).symm

theorem ForwardInside.unique {t : Str} {r r' : Res (Option Str)} (h : ForwardInside C E t r) (h' : ForwardInside C E t r') : r = r' := by
  obtain ⟨f, hf⟩ := functional (R := fun t r => Recognised (dMessage C.f64) t r) fun _ _ _ => Recognised.unique
  obtain ⟨g, hg⟩ := functional (R := fun next r => Ours E next r) fun _ _ _ => Ours.unique
  cases h <;> cases h' <;> simp only [hf, hg, IsForward.iff] at * <;> simp_all

theorem Unwraps.unique {opts : UnpackOptions} {t : Str} {md : UnpackMetadata} {r r' : Res (Str × UnpackMetadata)}
    (h : Unwraps C E opts t md r) (h' : Unwraps C E opts t md r') : r = r' := by
  obtain ⟨f, hf⟩ := functional (R := fun t r => AnonLayer C E opts.expectDecryptByAllKeys t r) fun _ _ _ => AnonLayer.unique
  obtain ⟨g, hg⟩ := functional (R := fun t r => ForwardInside C E t r) fun _ _ _ => ForwardInside.unique
  induction h with
  | failed h => cases h' <;> simp_all
  | none h => cases h' <;> simp_all
  | notAsked h ho => cases h' <;> simp_all
  | forwardFailed h ho hf => cases h' <;> simp_all
  | last h ho hf => cases h' <;> simp_all
  | again h ho hf' hu ih =>
    cases h' with
    | again h1 ho1 hf1 hu1 =>
      rw [hf] at h h1
      rw [h] at h1
      cases h1
      rw [hg] at hf' hf1
      rw [hf'] at hf1
      cases hf1
      exact ih hu1
    | _ => simp_all

theorem Unpacked.unique {opts : UnpackOptions} {t : Str} {r r' : Res (Message × UnpackMetadata)} (h : Unpacked C E opts t r)
    (h' : Unpacked C E opts t r') : r = r' := by
  obtain ⟨f, hf'⟩ := functional (R := fun (_ : Unit) r => Unwraps C E opts t {} r) fun _ _ _ => Unwraps.unique
  have hf := hf' ()
  clear hf'
  obtain ⟨g, hg⟩ := functional (R := fun t r => AuthLayer C E opts.expectDecryptByAllKeys t r) fun _ _ _ => AuthLayer.unique
  obtain ⟨k, hk⟩ := functional (R := fun t r => SignLayer C E t r) fun _ _ _ => SignLayer.unique
  obtain ⟨l, hl⟩ := functional (R := fun t r => PlainLayer C E t r) fun _ _ _ => PlainLayer.unique
  cases h <;> cases h' <;> simp only [hf, hg, hk, hl] at * <;> simp_all

end DIDComm
