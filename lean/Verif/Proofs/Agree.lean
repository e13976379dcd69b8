import Verif.Proofs.OutcomeUnpackUnique
import Verif.Spec.Agree

/-! # Two receivers of the same text -/

set_option autoImplicit false

namespace DIDComm

variable {C : Crypto} {E E' : Env} {α : Type}

theorem Decrypts.agree {j : JWE} {hdr hdr' : JweHeader} {ce : ContentEnc} (hc : CommitsTo C ce) {c c' : Curve} {kid kid' : Str}
    {agree agree' : C.Key → Bytes → Option Bytes} {b b' : Bytes} (h : Decrypts C j hdr ce c kid agree (.ok b))
    (h' : Decrypts C j hdr' ce c' kid' agree' (.ok b')) : b = b' := by
  cases h with
  | opened _ _ _ h3 _ _ h5 h6 h7 =>
    cases h' with
    | opened _ _ _ g3 _ _ g5 g6 g7 =>
      rw [h3] at g3; rw [h5] at g5; rw [h6] at g6
      cases g3; cases g5; cases g6
      exact hc _ _ _ _ _ _ _ h7 g7

theorem TriedAnon.agree {j : JWE} {hdr : JweHeader} {apu : Option Bytes} {apv : Bytes} (hc : ∀ ce, CommitsTo C ce) {kid kid' : Str}
    {p p' : KeyPair C} {x x' : AnonCryptAlg × Bytes} (h : TriedAnon C j hdr apu apv kid p (.ok x))
    (h' : TriedAnon C j hdr apu apv kid' p' (.ok x')) : x = x' := by
  cases h with
  | opened _ he _ hd =>
    cases h' with
    | opened _ he' _ hd' =>
      obtain ⟨rfl, rfl⟩ := he.unique he'
      rw [hd.agree (hc _) hd']

theorem TriedAuth.agree {j : JWE} {hdr : JweHeader} {apv : Bytes} {fromKid : Str} (hc : CommitsTo C .a256cbcHs512) {s s' : KeyPair C}
    {kid kid' : Str} {p p' : KeyPair C} {x x' : AuthCryptAlg × Bytes} (h : TriedAuth C j hdr apv fromKid s kid p (.ok x))
    (h' : TriedAuth C j hdr apv fromKid s' kid' p' (.ok x')) : x = x' := by
  cases h with
  | opened _ _ _ hd =>
    cases h' with
    | opened _ _ _ hd' => rw [hd.agree hc hd']

theorem TriedKeys.one {all : Bool} {tried : Str → KeyPair C → Res α → Prop} {l : List Str} {a : α} {r : Res α}
    (h : TriedKeys C E all tried l r) (hr : r = .ok a) : ∃ kid p, tried kid p (.ok a) := by
  induction h with
  | noSecret | failed => cases hr
  | last h ht hl => cases hr; exact ⟨_, _, ht⟩
  | more h ht hl hr' hm ih => exact ih hr

theorem OpenedFor.agree {all all' : Bool} {tried tried' : Str → KeyPair C → Res (α × Bytes) → Prop} {kids : List Str} {x x' : α × Str}
    (ht : ∀ kid kid' p p' y y', tried kid p (.ok y) → tried' kid' p' (.ok y') → y = y') (h : OpenedFor C E all tried kids (.ok x))
    (h' : OpenedFor C E' all' tried' kids (.ok x')) : x = x' := by
  cases h with
  | opened _ _ h1 _ =>
    cases h' with
    | opened _ _ h2 _ =>
      obtain ⟨kid, p, g⟩ := h1.one rfl
      obtain ⟨kid', p', g'⟩ := h2.one rfl
      exact ht _ _ _ _ _ _ g g'

theorem AnonLayer.agree {all all' : Bool} {t : Str} {x x' : Option (List Str × AnonCryptAlg × Str)}
    (hc : x ≠ none → ∀ ce, CommitsTo C ce) (h : AnonLayer C E all t (.ok x)) (h' : AnonLayer C E' all' t (.ok x')) : x = x' := by
  cases h with
  | notJwe h =>
    cases h' with
    | notJwe => rfl
    | otherAlg => rfl
    | opened h1 => cases h.unique h1
  | otherAlg h hh ha =>
    cases h' with
    | notJwe => rfl
    | otherAlg => rfl
    | opened h1 hh1 ha1 =>
      cases h.unique h1
      cases hh.unique hh1
      exact absurd ha1 ha
  | opened h hh ha hb ho =>
    cases h' with
    | notJwe h1 => cases h.unique h1
    | otherAlg h1 hh1 ha1 =>
      cases h.unique h1
      cases hh.unique hh1
      exact absurd ha ha1
    | opened h1 hh1 ha1 hb1 ho1 =>
      cases h.unique h1
      cases hh.unique hh1
      cases ho.agree (fun _ _ _ _ _ _ => TriedAnon.agree (hc nofun)) ho1
      rfl

theorem AuthOpened.agree {all all' : Bool} {j : JWE} {hdr : JweHeader} {apv : Bytes} {apu : Option Bytes} {x x' : Str × AuthCryptAlg × Str}
    (hc : CommitsTo C .a256cbcHs512) (h : AuthOpened C E all j hdr apv apu (.ok x)) (h' : AuthOpened C E' all' j hdr apv apu (.ok x')) :
    x = x' := by
  cases h with
  | opened _ _ ho =>
    cases h' with
    | opened _ _ ho' =>
      cases ho.agree (fun _ _ _ _ _ _ => TriedAuth.agree hc) ho'
      rfl

theorem AuthLayer.agree {all all' : Bool} {t : Str} {x x' : Option (List Str × Str × AuthCryptAlg × Str)}
    (hc : x ≠ none → CommitsTo C .a256cbcHs512)
    (h : AuthLayer C E all t (.ok x)) (h' : AuthLayer C E' all' t (.ok x')) : x = x' := by
  cases h with
  | notJwe h =>
    cases h' with
    | notJwe => rfl
    | otherAlg => rfl
    | opened h1 => cases h.unique h1
  | otherAlg h hh ha =>
    cases h' with
    | notJwe => rfl
    | otherAlg => rfl
    | opened h1 hh1 ha1 =>
      cases h.unique h1
      cases hh.unique hh1
      exact absurd ha1 ha
  | opened h hh ha hb ho =>
    cases h' with
    | notJwe h1 => cases h.unique h1
    | otherAlg h1 hh1 ha1 =>
      cases h.unique h1
      cases hh.unique hh1
      exact absurd ha ha1
    | opened h1 hh1 ha1 hb1 ho1 =>
      cases h.unique h1
      cases hh.unique hh1
      cases ho.agree (hc nofun) ho1
      rfl

theorem SignLayer.agree {t : Str} {x x' : Option (Str × SignAlg × Str)} (h : SignLayer C E t (.ok x)) (h' : SignLayer C E' t (.ok x')) :
    x = x' := by
  cases h with
  | notJws h =>
    cases h' with
    | notJws => rfl
    | signed h1 => cases h.unique h1
  | signed h hh hc =>
    cases h' with
    | notJws h1 => cases h.unique h1
    | signed h1 hh1 hc1 =>
      cases h.unique h1
      cases hh.unique hh1
      cases hc with
      | verified _ _ _ hs _ _ hp _ =>
        cases hc1 with
        | verified _ _ _ hs1 _ _ hp1 _ =>
          rw [hp] at hp1; cases hp1
          have h2 := (Scheme.iff.1 hs).2.2
          rw [(Scheme.iff.1 hs1).2.2] at h2
          cases h2
          rfl

theorem PriorRead.agree {jwt : Str} {x x' : FromPrior × Str} (h : PriorRead C E jwt (.ok x)) (h' : PriorRead C E' jwt (.ok x')) : x = x' := by
  cases h with
  | read hf _ _ _ _ hp _ hc =>
    cases h' with
    | read hf1 _ _ _ _ hp1 _ hc1 =>
      obtain ⟨rfl, rfl, rfl, rfl⟩ := hf.unique hf1
      rw [hp] at hp1; cases hp1
      rw [hc] at hc1; cases hc1
      rfl

theorem PlainLayer.agree {t : Str} {x x' : Message × Option (FromPrior × Str)} (h : PlainLayer C E t (.ok x)) (h' : PlainLayer C E' t (.ok x')) :
    x = x' := by
  cases h with
  | plain h _ hp =>
    cases h' with
    | plain h1 => cases h.unique h1; rfl
    | prior h1 _ hp1 => cases h.unique h1; rw [hp] at hp1; cases hp1
  | prior h _ hp hr =>
    cases h' with
    | plain h1 _ hp1 => cases h.unique h1; rw [hp] at hp1; cases hp1
    | prior h1 _ hp1 hr1 =>
      cases h.unique h1
      rw [hp] at hp1; cases hp1
      cases hr.agree hr1
      rfl

theorem ForwardInside.agree (hs : SameTargets E E') {t : Str} {x x' : Option Str} (h : ForwardInside C E t (.ok x))
    (h' : ForwardInside C E' t (.ok x')) : x = x' := by
  cases h with
  | notMessage h =>
    cases h' with
    | notMessage | notForward | others => rfl
    | ours h1 => cases h.unique h1
  | notForward h hn =>
    cases h' with
    | notMessage | notForward | others => rfl
    | ours h1 hf1 => cases h.unique h1; exact absurd hf1 (hn _ _)
  | others h hf ho =>
    cases h' with
    | notMessage | notForward | others => rfl
    | ours h1 hf1 ho1 =>
      cases h.unique h1
      rw [IsForward.iff] at hf hf1
      rw [hf] at hf1; cases hf1
      exact absurd (hs _ _ _ ho ho1) (by decide)
  | ours h hf ho =>
    cases h' with
    | notMessage h1 => cases h.unique h1
    | notForward h1 hn1 => cases h.unique h1; exact absurd hf (hn1 _ _)
    | others h1 hf1 ho1 =>
      cases h.unique h1
      rw [IsForward.iff] at hf hf1
      rw [hf] at hf1; cases hf1
      exact absurd (hs _ _ _ ho ho1) (by decide)
    | ours h1 hf1 ho1 =>
      cases h.unique h1
      rw [IsForward.iff] at hf hf1
      rw [hf] at hf1; cases hf1
      rfl

/-- Once an anonymous envelope was seen the metadata say so. -/
theorem Unwraps.anon {opts : UnpackOptions} {t : Str} {md : UnpackMetadata} {r : Res (Str × UnpackMetadata)} (h : Unwraps C E opts t md r)
    {u : Str} {md' : UnpackMetadata} (hr : r = .ok (u, md')) :
    (md.encAlgAnon ≠ Option.none → md'.encAlgAnon ≠ Option.none) ∧ (∀ x, AnonLayer C E opts.expectDecryptByAllKeys t (.ok (some x)) → md'.encAlgAnon ≠ Option.none) := by
  induction h with
  | failed | forwardFailed => cases hr
  | none h => cases hr; exact ⟨fun h => h, fun x hx => by cases h.unique hx⟩
  | notAsked | last => cases hr; exact ⟨fun _ => nofun, fun _ _ => nofun⟩
  | again _ _ _ _ ih => exact ⟨fun _ => (ih hr).1 nofun, fun _ _ => (ih hr).1 nofun⟩

theorem Unwraps.agree {o o' : UnpackOptions} (ho : o.unwrapReWrappingForward = o'.unwrapReWrappingForward)
    (hs : o.unwrapReWrappingForward = true → SameTargets E E') {t : Str} {md : UnpackMetadata} {r r' : Res (Str × UnpackMetadata)}
    (h : Unwraps C E o t md r) (h' : Unwraps C E' o' t md r') {u u' : Str} {md1 md1' : UnpackMetadata} (hr : r = .ok (u, md1))
    (hr' : r' = .ok (u', md1')) (hc : md1.encAlgAnon ≠ Option.none → ∀ ce, CommitsTo C ce) : u = u' ∧ md1 = md1' := by
  induction h with
  | failed | forwardFailed => cases hr
  | none h =>
    cases hr
    cases h' with
    | failed | forwardFailed => cases hr'
    | none => cases hr'; exact ⟨rfl, rfl⟩
    | notAsked h1 | last h1 | again h1 => cases h.agree (fun h => absurd rfl h) h1
  | notAsked h hu =>
    cases hr
    have hc := hc nofun
    cases h' with
    | failed | forwardFailed => cases hr'
    | none h1 => cases h.agree (fun _ => hc) h1
    | notAsked h1 => cases hr'; cases h.agree (fun _ => hc) h1; exact ⟨rfl, rfl⟩
    | last h1 hu1 | again h1 hu1 => rw [ho, hu1] at hu; cases hu
  | last h hu hf =>
    cases hr
    have hc := hc nofun
    cases h' with
    | failed | forwardFailed => cases hr'
    | none h1 => cases h.agree (fun _ => hc) h1
    | notAsked h1 hu1 => rw [ho, hu1] at hu; cases hu
    | last h1 => cases hr'; cases h.agree (fun _ => hc) h1; exact ⟨rfl, rfl⟩
    | again h1 hu1 hf1 => cases h.agree (fun _ => hc) h1; cases hf.agree (hs hu) hf1
  | again h hu hf hw ih =>
    have hc' := hc ((hw.anon hr).1 nofun)
    cases h' with
    | failed | forwardFailed => cases hr'
    | none h1 => cases h.agree (fun _ => hc') h1
    | notAsked h1 hu1 => rw [ho, hu1] at hu; cases hu
    | last h1 _ hf1 => cases h.agree (fun _ => hc') h1; cases hf.agree (hs hu) hf1
    | again h1 _ hf1 hw1 =>
      cases h.agree (fun _ => hc') h1
      cases hf.agree (hs hu) hf1
      exact ih hw1 hr

theorem seeLater_anon {t u : Str} {md : UnpackMetadata} (a : Option (List Str × Str × AuthCryptAlg × Str)) (s : Option (Str × SignAlg × Str))
    (p : Option (FromPrior × Str)) : ((pastSign t (pastAuth u md a).2 s).2.seePrior p).encAlgAnon = md.encAlgAnon := by
  rcases a with _ | ⟨_, _, _, _⟩ <;> rcases s with _ | ⟨_, _, _⟩ <;> rcases p with _ | ⟨_, _⟩ <;> rfl

theorem seeLater_auth {t u : Str} {md : UnpackMetadata} {a : Option (List Str × Str × AuthCryptAlg × Str)} (s : Option (Str × SignAlg × Str))
    (p : Option (FromPrior × Str)) (ha : a ≠ none) : ((pastSign t (pastAuth u md a).2 s).2.seePrior p).encAlgAuth ≠ none := by
  rcases a with _ | ⟨_, _, _, _⟩
  · exact absurd rfl ha
  · rcases s with _ | ⟨_, _, _⟩ <;> rcases p with _ | ⟨_, _⟩ <;> nofun

theorem Unpacked.agree {o o' : UnpackOptions} (ho : o.unwrapReWrappingForward = o'.unwrapReWrappingForward)
    (hs : o.unwrapReWrappingForward = true → SameTargets E E') {t : Str} {x x' : Message × UnpackMetadata}
    (h : Unpacked C E o t (.ok x)) (h' : Unpacked C E' o' t (.ok x')) (hc : x.2.encAlgAuth ≠ none → CommitsTo C .a256cbcHs512)
    (hca : x.2.encAlgAnon ≠ Option.none → ∀ ce, CommitsTo C ce) : x = x' := by
  cases h with
  | unpacked hw ha hsn hp =>
    rw [seeLater_anon] at hca
    cases h' with
    | unpacked hw1 ha1 hsn1 hp1 =>
      obtain ⟨rfl, rfl⟩ := hw.agree ho hs hw1 rfl rfl hca
      cases ha.agree (fun h => hc (seeLater_auth _ _ h)) ha1
      cases hsn.agree hsn1
      cases hp.agree hp1
      rfl

/-! ## All keys or the first -/

theorem TriedKeys.first {tried : Str → KeyPair C → Res α → Prop} {l : List Str} {a : α} {r : Res α} {all : Bool}
    (h : TriedKeys C E all tried l r) (hr : r = .ok a) (ht : ∀ kid kid' p p' y y', tried kid p (.ok y) → tried kid' p' (.ok y') → y = y') :
    TriedKeys C E false tried l (.ok a) := by
  obtain ⟨kid, p, g⟩ := h.one hr
  cases h with
  | noSecret | failed => cases hr
  | last h1 h2 _ => cases hr; exact .last h1 h2 (.inl rfl)
  | more h1 h2 _ _ _ => cases ht _ _ _ _ _ _ h2 g; exact .last h1 h2 (.inl rfl)

theorem OpenedFor.first {tried : Str → KeyPair C → Res (α × Bytes) → Prop} {kids : List Str} {x : α × Str} {all : Bool}
    (h : OpenedFor C E all tried kids (.ok x)) (ht : ∀ kid kid' p p' y y', tried kid p (.ok y) → tried kid' p' (.ok y') → y = y') :
    OpenedFor C E false tried kids (.ok x) := by
  cases h with
  | opened h1 h2 h3 h4 => exact .opened h1 h2 (h3.first rfl ht) h4

theorem AnonLayer.first {all : Bool} {t : Str} {x : Option (List Str × AnonCryptAlg × Str)}
    (hc : x ≠ none → ∀ ce, CommitsTo C ce) (h : AnonLayer C E all t (.ok x)) : AnonLayer C E false t (.ok x) := by
  cases h with
  | notJwe h => exact .notJwe h
  | otherAlg h hh ha => exact .otherAlg h hh ha
  | opened h hh ha hb ho => exact .opened h hh ha hb (ho.first fun _ _ _ _ _ _ => TriedAnon.agree (hc nofun))

theorem AuthLayer.first {all : Bool} {t : Str} {x : Option (List Str × Str × AuthCryptAlg × Str)}
    (hc : x ≠ none → CommitsTo C .a256cbcHs512) (h : AuthLayer C E all t (.ok x)) : AuthLayer C E false t (.ok x) := by
  cases h with
  | notJwe h => exact .notJwe h
  | otherAlg h hh ha => exact .otherAlg h hh ha
  | opened h hh ha hb ho =>
    cases ho with
    | opened g1 g2 g3 => exact .opened h hh ha hb (.opened g1 g2 (g3.first fun _ _ _ _ _ _ => TriedAuth.agree (hc nofun)))

theorem Unwraps.first {o : UnpackOptions} {t : Str} {md : UnpackMetadata} {r : Res (Str × UnpackMetadata)} (h : Unwraps C E o t md r)
    {u : Str} {md' : UnpackMetadata} (hr : r = .ok (u, md')) (hc : md'.encAlgAnon ≠ Option.none → ∀ ce, CommitsTo C ce) :
    Unwraps C E { o with expectDecryptByAllKeys := false } t md r := by
  induction h with
  | failed | forwardFailed => cases hr
  | none h => exact .none (h.first fun h => absurd rfl h)
  | notAsked h hu => cases hr; exact .notAsked (h.first fun _ => hc nofun) hu
  | last h hu hf => cases hr; exact .last (h.first fun _ => hc nofun) hu hf
  | again h hu hf hw ih => exact .again (h.first fun _ => hc ((hw.anon hr).1 nofun)) hu hf (ih hr)

theorem Unpacked.first {o : UnpackOptions} {t : Str} {x : Message × UnpackMetadata} (h : Unpacked C E o t (.ok x))
    (hc : x.2.encAlgAuth ≠ none → CommitsTo C .a256cbcHs512) (hca : x.2.encAlgAnon ≠ Option.none → ∀ ce, CommitsTo C ce) :
    Unpacked C E { o with expectDecryptByAllKeys := false } t (.ok x) := by
  cases h with
  | unpacked hw ha hsn hp =>
    rw [seeLater_anon] at hca
    exact .unpacked (hw.first rfl hca) (ha.first fun h => hc (seeLater_auth _ _ h)) hsn hp

end DIDComm
