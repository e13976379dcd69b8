import Verif.Proofs.LayoutRuns
import Verif.Props.Termination
import Verif.Props.Reading

/-!
# C113: how a text is written makes no difference to who unpacks it

White space, the order of members and the way names are spelled are no part of what is unpacked (`Verif.Spec.Layout`), and of an
envelope only the members with a meaning are.  So a text can be changed without a receiver noticing, and texts cannot serve to
recognise a message that comes a second time.
-/

set_option autoImplicit false

namespace DIDComm

variable {C : Crypto}

theorem same_within {M : Message → Message → Prop} (hM : Keeps M) (hr : ∀ m, M m m) {s s' : Str} (h : ReadAlike C M s s') (n : Nat)
    (o : UnpackOptions) (tr : List Event) (r : Res (Message × UnpackMetadata)) (hrun : Runs (unpackWithin C n s o) tr r) :
    ∃ r', Runs (unpackWithin C n s' o) tr r' ∧ SameOutcome M s s' r r' := by
  have key : Follows (fun x y => M x.1 y.1 ∧ MetaBy s s' x.2 y.2) (unpackWithin C n s o) (unpackWithin C n s' o) := by
    unfold unpackWithin
    refine .bind (unwrapLoop_alike h.jwe o n {}) ?_
    rintro ⟨u, md0⟩ ⟨u', md⟩ ⟨rfl, hu⟩
    replace hu : TextsBy s s' u u' := by
      rcases hu with h | ⟨h1, h2, -⟩
      · exact .inl h.symm
      · exact .inr ⟨h1, h2⟩
    simp only
    have e : tryUnpackAuthcrypt C u o md = tryUnpackAuthcrypt C u' o md := by
      rcases hu with rfl | ⟨rfl, rfl⟩
      · rfl
      · exact tryAuth_alike h.jwe o md
    rw [e]
    refine .bind_eq ?_
    rintro ⟨auth, md⟩
    have hw : TextsBy s s' (auth.getD u) (auth.getD u') := by
      cases auth with
      | none => exact hu
      | some p => exact .inl rfl
    simp only
    generalize auth.getD u = w, auth.getD u' = w' at hw
    refine .bind (R := fun x y => y.1 = x.1 ∧ MetaBy s s' x.2 y.2 ∧ (x.1 = none → w = w' ∨ ∀ j, jwsFromStr s ≠ .ok j)) ?_ ?_
    · rcases hw with rfl | ⟨rfl, rfl⟩
      · exact .refl (fun _ => ⟨rfl, .inl rfl, fun _ => .inl rfl⟩) _
      · intro tr r hr
        obtain ⟨r', h1, h2⟩ := trySign_alike h.jws md tr r hr
        refine ⟨r', h1, ?_⟩
        cases h2 with
        | error e => exact .error e
        | ok h => exact .ok ⟨h.1, h.2.1, fun hn => .inr (h.2.2 hn)⟩
    rintro ⟨signed0, md⟩ ⟨signed, md'⟩ ⟨rfl, hmd, hj⟩
    have hx : signed.getD w = signed.getD w' ∨ (signed.getD w = s ∧ signed.getD w' = s' ∧ ∀ j, jwsFromStr s ≠ .ok j) := by
      cases signed with
      | none =>
        rcases hw with rfl | ⟨rfl, rfl⟩
        · exact .inl rfl
        · rcases hj rfl with rfl | hj
          · exact .inl rfl
          · exact .inr ⟨rfl, rfl, hj⟩
      | some p => exact .inl rfl
    simp only at hmd ⊢
    generalize signed.getD w = x, signed.getD w' = x' at hx
    refine .bind (tryPlain_alike hM (u := x) (u' := x') ?_ hmd) ?_
    · rcases hx with rfl | ⟨rfl, rfl, hj⟩
      · cases messageFromStr C x with
        | error e => exact .error e
        | ok m => exact .ok (hr m)
      · exact h.message hj
    rintro ⟨a, md⟩ ⟨b, md'⟩ ⟨hab, hmd⟩
    refine .bind (R := M) (.lift (okOr_both _ hab)) ?_
    rintro m m' hm
    exact .pure ⟨hm, hmd⟩
  obtain ⟨r', h1, h2⟩ := key tr r hrun
  refine ⟨r', h1, ?_⟩
  cases h2 with
  | error e => exact .error e
  | ok h => exact .ok h.1 h.2

theorem same_unpack {M : Message → Message → Prop} (hM : Keeps M) (hr : ∀ m, M m m) (hd : NeverLonger C) (hf : PrintsFloats C) {s s' : Str}
    (h : ReadAlike C M s s') (o : UnpackOptions) (tr : List Event) (r : Res (Message × UnpackMetadata))
    (hrun : Runs (unpack C s o) tr r) : ∃ r', Runs (unpack C s' o) tr r' ∧ SameOutcome M s s' r r' := by
  have h1 := (C25_no_limit hd hf s o (max (s.length + 1) (s'.length + 1)) (Nat.le_max_left _ _) tr r).2 hrun
  obtain ⟨r', h2, h3⟩ := same_within hM hr h _ o tr r h1
  exact ⟨r', (C25_no_limit hd hf s' o _ (Nat.le_max_right _ _) tr r').1 h2, h3⟩

/-- C113: texts whose contents differ only in the order of members and the spelling of names, with whatever white space, are
unpacked with the same questions to resolvers, the same result and the same metadata; but the signed message in the metadata
is the text as it was given. -/
theorem C113_order (hd : NeverLonger C) (hf : PrintsFloats C) (s s' : Str) (t t' : Tree) (hs : JsonText t s) (hs' : JsonText t' s')
    (h : Alike t t') (o : UnpackOptions) (tr : List Event) (r : Res (Message × UnpackMetadata)) (hrun : Runs (unpack C s o) tr r) :
    ∃ r', Runs (unpack C s' o) tr r' ∧ SameOutcome SameMessage s s' r r' :=
  same_unpack (by rintro m m' ⟨l, -, rfl⟩; exact ⟨rfl, rfl⟩) (fun m => ⟨_, .refl _, rfl⟩) hd hf
    (readAlike ((parseJson_iff _ _).2 hs) ((parseJson_iff _ _).2 hs') h) o tr r hrun

/-- A message, and the same with other white space, its members in another order and a name with an escape. -/
def World.tidy : Str := b!"{\"id\":\"i\",\"type\":\"t\",\"body\":{\"a\":1,\"b\":[]},\"x\":1,\"y\":2}"
@[inherit_doc World.tidy]
def World.untidy : Str := b!"\n{ \"y\":2, \"x\":1, \"type\":\"t\",\"body\":{\"b\":[ ],\"\\u0061\":1},\"id\" : \"i\"} "

example : ∃ t t' m m', JsonText t World.tidy ∧ JsonText t' World.untidy ∧ Alike t t' ∧ t ≠ t' ∧
    Runs (unpack Toy.crypto World.tidy {}) [] (.ok (m, {})) ∧ Runs (unpack Toy.crypto World.untidy {}) [] (.ok (m', {})) ∧
    SameMessage m m' ∧ m ≠ m' := by
  let k (s : Str) : StrTok := ⟨false, some s⟩
  let b : List (StrTok × Tree) := [(k b!"a", .num ⟨false, b!"1", []⟩), (k b!"b", .arr [])]
  let b' : List (StrTok × Tree) := [(k b!"b", .arr []), (⟨true, some b!"a"⟩, .num ⟨false, b!"1", []⟩)]
  let f (b : List (StrTok × Tree)) : List (StrTok × Tree) := [(k b!"id", .str (k b!"i")), (k b!"type", .str (k b!"t")), (k b!"body", .obj b)]
  let x : StrTok × Tree := (k b!"x", .num ⟨false, b!"1", []⟩)
  let y : StrTok × Tree := (k b!"y", .num ⟨false, b!"2", []⟩)
  have h1 : parseJson World.tidy = .ok (.obj (f b ++ [x, y])) := by rfl
  have h2 : parseJson World.untidy = .ok (.obj ([y, x] ++ [(k b!"type", .str (k b!"t")), (k b!"body", .obj b'), (k b!"id", .str (k b!"i"))])) := by rfl
  refine ⟨_, _, _, _, (parseJson_iff _ _).1 h1, (parseJson_iff _ _).1 h2, ?_, ?_, runs_pure.2 ⟨rfl, rfl⟩, runs_pure.2 ⟨rfl, rfl⟩,
    ⟨[(b!"y", .num (.pos 2)), (b!"x", .num (.pos 1))], .swap _ _ _, rfl⟩, ?_⟩
  · refine .obj (m' := f b' ++ [x, y]) (by decide) ?_ ?_
    · exact .cons rfl (.str _) (.cons rfl (.str _) (.cons rfl
        (.obj (m' := [(⟨true, some b!"a"⟩, .num ⟨false, b!"1", []⟩), (k b!"b", .arr [])]) (by decide)
          (.cons rfl (.num _) (.cons rfl (.arr .nil) .nil)) (.swap _ _ _)) (.cons rfl (.num _) (.cons rfl (.num _) .nil))))
    · refine List.perm_append_comm.trans (.append (.swap _ _ _) ?_)
      exact List.perm_append_comm (l₁ := [(k b!"id", Tree.str (k b!"i"))])
  · intro h
    have := congrArg (fun t => match t with | Tree.obj ((k, _) :: _) => k.val | _ => none) h
    revert this
    decide
  · intro h
    have := congrArg (fun m => m.extraHeaders.head?.map Prod.fst) h
    revert this
    decide

/-- C113: texts with the same content, which differ only in white space and in how characters are escaped where that
is no part of the content, give the same message to the last header. -/
theorem C113_white_space (hd : NeverLonger C) (hf : PrintsFloats C) (s s' : Str) (t : Tree) (hs : JsonText t s) (hs' : JsonText t s')
    (o : UnpackOptions) (tr : List Event) (r : Res (Message × UnpackMetadata)) (hrun : Runs (unpack C s o) tr r) :
    ∃ r', Runs (unpack C s' o) tr r' ∧ SameOutcome Eq s s' r r' :=
  same_unpack (by rintro m m' rfl; exact ⟨rfl, rfl⟩) (fun m => rfl) hd hf
    (readAlike_same ((parseJson_iff _ _).2 hs) ((parseJson_iff _ _).2 hs')) o tr r hrun

example : ∃ s s' t, s ≠ s' ∧ JsonText t s ∧ JsonText t s' ∧ ∃ m, Runs (unpack Toy.crypto s {}) [] (.ok (m, {})) := by
  refine ⟨b!"{\"id\":\"i\",\"type\":\"t\",\"body\":[]}", b!" {\"id\" :\"i\",\"type\":\t\"t\" ,\"body\": [ \n]}\n", _, by decide,
    (parseJson_iff _ _).1 rfl, (parseJson_iff _ _).1 rfl, _, runs_pure.2 ⟨rfl, rfl⟩⟩

/-! ## Envelopes -/

/-- C113: two texts of the same encrypted envelope, whatever other members they have, are unpacked with the same questions to
the same message and metadata. -/
theorem C113_encrypted (hd : NeverLonger C) (hf : PrintsFloats C) (s s' : Str) (t t' : Tree) (j : JWE) (hs : JsonText t s)
    (hs' : JsonText t' s') (h : IsEncrypted t j) (h' : IsEncrypted t' j) (o : UnpackOptions) (tr : List Event) (m : Message)
    (md : UnpackMetadata) (hrun : Runs (unpack C s o) tr (.ok (m, md))) (he : md.encrypted = true) :
    Runs (unpack C s' o) tr (.ok (m, md)) := by
  have ej : jweFromStr s = jweFromStr s' := by rw [(C74_encrypted s j).2 ⟨t, hs, h⟩, (C74_encrypted s' j).2 ⟨t', hs', h'⟩]
  have h1 := (C25_no_limit hd hf s o (max (s.length + 1) (s'.length + 1)) (Nat.le_max_left _ _) tr _).2 hrun
  refine (C25_no_limit hd hf s' o (max (s.length + 1) (s'.length + 1)) (Nat.le_max_right _ _) tr _).1 ?_
  revert h1
  generalize max (s.length + 1) (s'.length + 1) = n
  intro h1
  unfold unpackWithin at h1 ⊢
  obtain ⟨⟨u, md1⟩, t1, t2, rfl, h2, h3⟩ := runs_bind_ok.1 h1
  obtain ⟨_, h4, h5⟩ := unwrapLoop_alike ej o n {} _ _ h2
  cases h5 with
  | @ok _ b h5 =>
  obtain ⟨u', md1'⟩ := b
  obtain ⟨rfl, h5⟩ := h5
  refine runs_bind_ok.2 ⟨_, t1, t2, rfl, h4, ?_⟩
  rcases h5 with rfl | ⟨rfl, rfl, rfl⟩
  · exact h3
  · simp only at h3 ⊢
    rw [← tryAuth_alike ej]
    obtain ⟨⟨auth, md2⟩, t3, t4, rfl, h6, h7⟩ := runs_bind_ok.1 h3
    refine runs_bind_ok.2 ⟨_, t3, t4, rfl, h6, ?_⟩
    cases auth with
    | some p => exact h7
    | none =>
      exfalso
      have e2 : md2.encrypted = false := by
        rcases tryUnpackAuthcrypt_ok.1 h6 with ⟨-, rfl, -⟩ | ⟨_, _, _, _, _, _, _, _, _, _, h, _⟩
        · rfl
        · cases h
      obtain ⟨⟨signed, md3⟩, t5, t6, rfl, h8, h9⟩ := runs_bind_ok.1 h7
      have e3 : md3.encrypted = false := by
        rcases tryUnpackSign_ok.1 h8 with ⟨-, rfl, -⟩ | ⟨_, _, _, _, _, _, _, _, -, -, -, -, -, -, -, -, -, -, -, -, -, -, rfl⟩
        · exact e2
        · exact e2
      obtain ⟨⟨x, md4⟩, t7, t8, rfl, h10, h11⟩ := runs_bind_ok.1 h9
      have e4 : md4.encrypted = false := by
        rcases tryUnpackPlaintext_ok.1 h10 with ⟨-, rfl, -⟩ | ⟨_, -, -, -, ⟨-, -, rfl⟩ | ⟨_, _, _, -, -, rfl⟩⟩ <;> exact e3
      obtain ⟨y, h12, h13⟩ := runs_lift_bind_ok.1 h11
      obtain ⟨-, h13⟩ := runs_pure.1 h13
      cases h13
      rw [e4] at he
      cases he

/-- A text, and the text with a member more at the front. -/
def World.stuffed (out : Str) : Str := b!"{ \"stuff\" : [1, null], " ++ out.drop 1

/-- Packing for Bob with a signature of Alice's. -/
def World.stuffedProg : Prog (Str × (Message × UnpackMetadata)) := do
  let (out, _) ← packEncrypted Toy.crypto World.msg World.bob (some World.alice) (some World.alice) { forward := false }
  let x ← unpack Toy.crypto out {}
  pure (out, x)

/-- Signing by Alice. -/
def World.stuffedSigned : Prog (Str × (Message × UnpackMetadata)) := do
  let (out, _) ← packSigned Toy.crypto World.msg World.alice
  let x ← unpack Toy.crypto out {}
  pure (out, x)

/-- The results are the same envelope. -/
def sameOk {α : Type} [DecidableEq α] (x y : Res α) : Bool :=
  match x, y with
  | .ok a, .ok b => decide (a = b)
  | _, _ => false

theorem sameOk_iff {α : Type} [DecidableEq α] {x y : Res α} (h : sameOk x y = true) : ∃ a, x = .ok a ∧ y = .ok a := by
  unfold sameOk at h
  split at h
  · exact ⟨_, rfl, by rw [of_decide_eq_true h]⟩
  · cases h

set_option maxRecDepth 1000000 in
theorem World.stuffedTest : World.test World.env World.stuffedProg
    (fun x => sameOk (jweFromStr x.1) (jweFromStr (World.stuffed x.1)) && x.2.2.encrypted && x.2.2.nonRepudiation) = true := by
  decide +kernel

example : ∃ s s' t t' j tr m md, JsonText t s ∧ JsonText t' s' ∧ IsEncrypted t j ∧ IsEncrypted t' j ∧ s'.length = s.length + 22 ∧
    Runs (unpack Toy.crypto s {}) tr (.ok (m, md)) ∧ Runs (unpack Toy.crypto s' {}) tr (.ok (m, md)) ∧ md.encrypted = true ∧
    md.nonRepudiation = true := by
  obtain ⟨tr, ⟨out, m, md⟩, h, ha, hk⟩ := World.of_test World.stuffedTest
  simp only [Bool.and_eq_true] at hk
  obtain ⟨⟨hk, h1⟩, h2⟩ := hk
  obtain ⟨j, e1, e2⟩ := sameOk_iff hk
  obtain ⟨t, ht, hj⟩ := (C74_encrypted _ _).1 e1
  obtain ⟨t', ht', hj'⟩ := (C74_encrypted _ _).1 e2
  unfold World.stuffedProg at h
  simp only [runs_bind_ok] at h
  obtain ⟨⟨out', _⟩, t1, _, rfl, _, ⟨m', md'⟩, t2, t3, rfl, h3, h4⟩ := h
  obtain ⟨rfl, h4⟩ := runs_pure.1 h4
  obtain ⟨rfl, rfl, rfl⟩ : out = out' ∧ m = m' ∧ md = md' := by cases h4; exact ⟨rfl, rfl, rfl⟩
  refine ⟨out, _, t, t', j, t2, m, md, ht, ht', hj, hj', ?_, h3,
    C113_encrypted World.neverLonger World.printsFloats _ _ _ _ _ ht ht' hj hj' _ _ _ _ h3 h1, h1, h2⟩
  have : 0 < out.length := by
    cases out with
    | nil => cases e1
    | cons a l => simp
  simp only [World.stuffed, List.length_append, List.length_drop]
  rw [show (b!"{ \"stuff\" : [1, null], ").length = 23 from rfl]
  omega

theorem signed_quotes {s : Str} (e1 : jweFromStr s = .error (.kind .malformed)) {j : JWS} (e2 : jwsFromStr s = .ok j) {o : UnpackOptions}
    {tr : List Event} {m : Message} {md : UnpackMetadata} (h : Runs (unpack C s o) tr (.ok (m, md))) : md.signedMessage = some s := by
  obtain ⟨t1, t2, t3, t4, msg1, md1, auth, md2, signed, md3, -, h1, h2, h3, h4⟩ := unpack_ok.1 h
  have e : msg1 = s := by
    unfold unwrapLoop at h1
    obtain ⟨⟨anon, md'⟩, _, _, -, h5, h6⟩ := runs_bind_ok.1 h1
    rcases tryUnpackAnoncrypt_ok.1 h5 with ⟨rfl, -⟩ | ⟨_, _, _, _, _, _, -, h, _⟩
    · obtain ⟨-, h6⟩ := runs_pure.1 h6
      cases h6; rfl
    · rw [e1] at h; cases h
  subst e
  have e : auth = none := by
    rcases tryUnpackAuthcrypt_ok.1 h2 with ⟨h, -⟩ | ⟨_, _, _, _, _, _, _, _, _, _, -, h, _⟩
    · exact h
    · rw [e1] at h; cases h
  subst e
  have e : md3.signedMessage = some msg1 := by
    rcases tryUnpackSign_ok.1 h3 with ⟨-, -, -, h⟩ | ⟨_, _, _, _, _, _, _, _, -, -, -, -, -, -, -, -, -, -, -, -, -, -, rfl⟩
    · rw [Option.getD_none, e2] at h; cases h
    · rfl
  rcases tryUnpackPlaintext_ok.1 h4 with ⟨h, -⟩ | ⟨_, -, -, -, ⟨-, -, rfl⟩ | ⟨_, _, _, -, -, rfl⟩⟩
  · cases h
  · exact e
  · exact e

/-- C113: two texts of the same signed envelope, whatever other members they have, are unpacked with the same questions to
the same error or the same message, unless one of them is an encrypted envelope as well.  The metadata quote the text that was
given. -/
theorem C113_signed (hd : NeverLonger C) (hf : PrintsFloats C) (s s' : Str) (t t' : Tree) (j : JWS) (hs : JsonText t s)
    (hs' : JsonText t' s') (h : IsSigned t j) (h' : IsSigned t' j) (hn : ∀ j, ¬ IsEncrypted t j) (hn' : ∀ j, ¬ IsEncrypted t' j)
    (o : UnpackOptions) (tr : List Event) :
    (∀ e, Runs (unpack C s o) tr (.error e) → Runs (unpack C s' o) tr (.error e)) ∧
    ∀ m md, Runs (unpack C s o) tr (.ok (m, md)) →
      md.signedMessage = some s ∧ Runs (unpack C s' o) tr (.ok (m, { md with signedMessage := some s' })) := by
  have e1 : jweFromStr s = .error (.kind .malformed) := unfit hs fun j hj => hn j ((decodes_encrypted t hs.ok j).1 hj)
  have e1' : jweFromStr s' = .error (.kind .malformed) := unfit hs' fun j hj => hn' j ((decodes_encrypted t' hs'.ok j).1 hj)
  have e2 := (C74_signed s j).2 ⟨t, hs, h⟩
  have e2' := (C74_signed s' j).2 ⟨t', hs', h'⟩
  have key := same_unpack (C := C) (M := Eq) (s := s) (s' := s') (by rintro m m' rfl; exact ⟨rfl, rfl⟩) (fun m => rfl) hd hf
    ⟨by rw [e1, e1'], by rw [e2, e2'], fun hj => absurd e2 (hj j)⟩ o tr
  refine ⟨fun e hrun => ?_, fun m md hrun => ⟨signed_quotes e1 e2 hrun, ?_⟩⟩
  · obtain ⟨r', h1, h2⟩ := key _ hrun
    cases h2
    exact h1
  · obtain ⟨r', h1, h2⟩ := key _ hrun
    cases h2 with
    | ok hm hmd =>
      subst hm
      have hq := signed_quotes e1' e2' h1
      rcases hmd with rfl | ⟨-, rfl⟩
      · rw [← hq]; exact h1
      · exact h1

set_option maxRecDepth 1000000 in
theorem World.stuffedSignedTest : World.test World.env World.stuffedSigned
    (fun x => sameOk (jwsFromStr x.1) (jwsFromStr (World.stuffed x.1)) && (jweFromStr x.1).toOption.isNone
      && (jweFromStr (World.stuffed x.1)).toOption.isNone && decide (x.2.2.signedMessage = some x.1)) = true := by
  decide +kernel

example : ∃ s s' t t' j tr m md, JsonText t s ∧ JsonText t' s' ∧ IsSigned t j ∧ IsSigned t' j ∧ (∀ j, ¬ IsEncrypted t j) ∧
    (∀ j, ¬ IsEncrypted t' j) ∧ Runs (unpack Toy.crypto s {}) tr (.ok (m, md)) ∧ md.signedMessage = some s ∧
    Runs (unpack Toy.crypto s' {}) tr (.ok (m, { md with signedMessage := some s' })) := by
  obtain ⟨tr, ⟨out, m, md⟩, h, ha, hk⟩ := World.of_test World.stuffedSignedTest
  simp only [Bool.and_eq_true] at hk
  obtain ⟨⟨⟨hk, h1⟩, h2⟩, h5⟩ := hk
  replace h5 := of_decide_eq_true h5
  obtain ⟨j, e1, e2⟩ := sameOk_iff hk
  obtain ⟨t, ht, hj⟩ := (C74_signed _ _).1 e1
  obtain ⟨t', ht', hj'⟩ := (C74_signed _ _).1 e2
  have none : ∀ {s t j}, JsonText t s → (jweFromStr s).toOption.isNone = true → ¬ IsEncrypted t j := by
    intro s t j ht hn hj
    rw [(C74_encrypted s j).2 ⟨t, ht, hj⟩] at hn
    cases hn
  unfold World.stuffedSigned at h
  simp only [runs_bind_ok] at h
  obtain ⟨⟨out', _⟩, t1, _, rfl, _, ⟨m', md'⟩, t2, t3, rfl, h3, h4⟩ := h
  obtain ⟨rfl, h4⟩ := runs_pure.1 h4
  obtain ⟨rfl, rfl, rfl⟩ : out = out' ∧ m = m' ∧ md = md' := by cases h4; exact ⟨rfl, rfl, rfl⟩
  exact ⟨out, _, t, t', j, t2, m, md, ht, ht', hj, hj', fun _ => none ht h1, fun _ => none ht' h2, h3, h5,
    ((C113_signed World.neverLonger World.printsFloats _ _ _ _ _ ht ht' hj hj' (fun _ => none ht h1) (fun _ => none ht' h2) _ _).2
      _ _ h3).2⟩

/-! ## Texts do not identify messages -/

/-- C113: to every text there are longer and longer ones that are unpacked alike. -/
theorem C113_longer (hd : NeverLonger C) (hf : PrintsFloats C) (s : Str) (o : UnpackOptions) (tr : List Event) (m : Message)
    (md : UnpackMetadata) (hrun : Runs (unpack C s o) tr (.ok (m, md))) (n : Nat) :
    ∃ s' md', s'.length = s.length + n ∧ Runs (unpack C s' o) tr (.ok (m, md')) ∧
      (md' = md ∨ (md.signedMessage = some s ∧ md' = { md with signedMessage := some s' })) := by
  have hj : ∃ t, JsonText t s := by
    refine Classical.byContradiction fun hne => ?_
    rcases (unpack_refuses hrun fun t ht => hne ⟨t, ht⟩).2.1 with h | h <;> cases h
  obtain ⟨t, ht⟩ := hj
  have ht' : JsonText t (s ++ List.replicate n 0x20) := by
    obtain ⟨w, u, w', rfl, hw, hu, hw'⟩ := ht
    refine ⟨w, u, w' ++ List.replicate n 0x20, by simp, hw, hu, fun b hb => ?_⟩
    rcases List.mem_append.1 hb with hb | hb
    · exact hw' b hb
    · exact .inl (List.eq_of_mem_replicate hb)
  obtain ⟨r', h1, h2⟩ := C113_white_space hd hf s _ t ht ht' o tr _ hrun
  cases h2 with
  | ok hm h =>
    subst hm
    exact ⟨_, _, by simp, h1, h⟩

example : ∃ s tr m md s' md', Runs (unpack Toy.crypto s {}) tr (.ok (m, md)) ∧ md.nonRepudiation = true ∧ s'.length = s.length + 1000 ∧
    Runs (unpack Toy.crypto s' {}) tr (.ok (m, md')) := by
  obtain ⟨tr, ⟨out, m, md⟩, h, ha, hk⟩ := World.of_test World.stuffedTest
  simp only [Bool.and_eq_true] at hk
  unfold World.stuffedProg at h
  simp only [runs_bind_ok] at h
  obtain ⟨⟨out', _⟩, t1, _, rfl, _, ⟨m', md'⟩, t2, t3, rfl, h3, h4⟩ := h
  obtain ⟨rfl, h4⟩ := runs_pure.1 h4
  obtain ⟨rfl, rfl, rfl⟩ : out = out' ∧ m = m' ∧ md = md' := by cases h4; exact ⟨rfl, rfl, rfl⟩
  obtain ⟨s', md', h5, h6, -⟩ := C113_longer World.neverLonger World.printsFloats _ _ _ _ _ h3 1000
  exact ⟨out, t2, m, md, s', md', h3, hk.2, h5, h6⟩

end DIDComm
