import Verif.Spec.Carried
import Verif.Proofs.Carried
import Verif.Proofs.CarriedExact
import Verif.Props.Layout
import Verif.Props.Forward

/-!
# C114: envelopes of any origin survive forwarding

A text that is forwarded is read as a JSON value, put into an attachment, and printed again by whoever takes it out.  What arrives
is another text: members in the order of their names, without white space, numbers rewritten, of equal names the last one.  It is
the same envelope, also if the text was written by other software.
-/

set_option autoImplicit false

namespace DIDComm

variable {C : Crypto} {pairs : Curve → C.Key → C.Key → Prop}

theorem means_reads {t : Tree} {v : Value} {s : Str} (hs : JsonText t s) (hv : Means C.f64 t v) : toValue C.f64 (t.depth + 1) t = some v :=
  (toValue_iff C.f64 t _ v hs.ok (Nat.succ_pos _)).2 ⟨hv, Nat.lt_succ_self _⟩

/-- What is printed for a value that was read is a JSON text. -/
theorem carried_text (hf : PrintsFloats C) {t : Tree} {v : Value} {s : Str} (hs : JsonText t s) (hv : Means C.f64 t v) :
    JsonText v.tree v.print :=
  jsonText_print v (toValue_size hf t _ v (means_reads hs hv)).2

/-- C114: the text of an encrypted envelope, read as a JSON value and printed again, is a text of the same envelope. -/
theorem C114_encrypted (hf : PrintsFloats C) (s : Str) (t : Tree) (v : Value) (j : JWE) (hs : JsonText t s) (hv : Means C.f64 t v)
    (h : IsEncrypted t j) : ∃ t', JsonText t' v.print ∧ IsEncrypted t' j :=
  ⟨v.tree, carried_text hf hs hv, encrypted_survives t v j hs.fair hv h⟩

/-- C114: the text of a signed envelope, read as a JSON value and printed again, is a text of the same envelope. -/
theorem C114_signed (hf : PrintsFloats C) (s : Str) (t : Tree) (v : Value) (j : JWS) (hs : JsonText t s) (hv : Means C.f64 t v)
    (h : IsSigned t j) : ∃ t', JsonText t' v.print ∧ IsSigned t' j :=
  ⟨v.tree, carried_text hf hs hv, signed_survives t v j hs.fair hv h⟩

/-- C114: what the printed text is an envelope for, exactly: of equal names the last one counts, and escapes do not matter unless
JSON needs them (`Verif.Spec.Carried`). -/
theorem C114_exact (hf : PrintsFloats C) (s : Str) (t : Tree) (v : Value) (hs : JsonText t s) (hv : Means C.f64 t v) :
    (∀ j, (∃ t', JsonText t' v.print ∧ IsEncrypted t' j) ↔ CarriesEncrypted t j) ∧
    (∀ j, (∃ t', JsonText t' v.print ∧ IsSigned t' j) ↔ CarriesSigned t j) := by
  have ht := carried_text hf hs hv
  have one : ∀ t', JsonText t' v.print → t' = v.tree := by
    intro t' h
    have := (parseJson_iff _ _).2 h
    rw [(parseJson_iff _ _).2 ht] at this
    cases this; rfl
  refine ⟨fun j => ?_, fun j => ?_⟩
  · rw [← carries_encrypted t v j hs.fair hv]
    exact ⟨fun ⟨t', h1, h2⟩ => one t' h1 ▸ h2, fun h => ⟨_, ht, h⟩⟩
  · rw [← carries_signed t v j hs.fair hv]
    exact ⟨fun ⟨t', h1, h2⟩ => one t' h1 ▸ h2, fun h => ⟨_, ht, h⟩⟩

/-- C114: an encrypted envelope is unpacked to the same message and the same metadata, with the same questions, when it has been
read as a JSON value and printed again. -/
theorem C114_unpacked (hd : NeverLonger C) (hf : PrintsFloats C) (s : Str) (t : Tree) (v : Value) (hs : JsonText t s)
    (hv : Means C.f64 t v) (o : UnpackOptions) (tr : List Event) (m : Message) (md : UnpackMetadata)
    (h : Runs (unpack C s o) tr (.ok (m, md))) (he : md.encrypted = true) : Runs (unpack C v.print o) tr (.ok (m, md)) := by
  have hj : ∃ j, jweFromStr s = .ok j := by
    refine Classical.byContradiction fun hne => ?_
    have e1 : jweFromStr s = .error (.kind .malformed) :=
      unfit hs fun j hj => hne ⟨j, (C74_encrypted s j).2 ⟨t, hs, (decodes_encrypted t hs.ok j).1 hj⟩⟩
    obtain ⟨t1, t2, t3, t4, msg1, md1, auth, md2, signed, md3, -, h1, h2, h3, h4⟩ := unpack_ok.1 h
    have e : msg1 = s ∧ md1.encrypted = false := by
      unfold unwrapLoop at h1
      obtain ⟨⟨anon, md'⟩, _, _, -, h5, h6⟩ := runs_bind_ok.1 h1
      rcases tryUnpackAnoncrypt_ok.1 h5 with ⟨rfl, rfl, -⟩ | ⟨_, _, _, _, _, _, -, h, _⟩
      · obtain ⟨-, h6⟩ := runs_pure.1 h6
        cases h6; exact ⟨rfl, rfl⟩
      · rw [e1] at h; cases h
    obtain ⟨rfl, e⟩ := e
    have e2 : md2.encrypted = false := by
      rcases tryUnpackAuthcrypt_ok.1 h2 with ⟨-, rfl, -⟩ | ⟨_, _, _, _, _, _, _, _, _, _, -, h, _⟩
      · exact e
      · rw [e1] at h; cases h
    have e3 : md3.encrypted = false := by
      rcases tryUnpackSign_ok.1 h3 with ⟨-, rfl, -⟩ | ⟨_, _, _, _, _, _, _, _, -, -, -, -, -, -, -, -, -, -, -, -, -, -, rfl⟩
      · exact e2
      · exact e2
    have e4 : md.encrypted = false := by
      rcases tryUnpackPlaintext_ok.1 h4 with ⟨-, rfl, -⟩ | ⟨_, -, -, -, ⟨-, -, rfl⟩ | ⟨_, _, _, -, -, rfl⟩⟩ <;> exact e3
    rw [e4] at he
    cases he
  obtain ⟨j, hj⟩ := hj
  obtain ⟨t0, ht0, hj⟩ := (C74_encrypted s j).1 hj
  obtain rfl : t = t0 := by
    have := (parseJson_iff s t).2 hs
    rw [(parseJson_iff s t0).2 ht0] at this
    cases this; rfl
  obtain ⟨t', ht', hj'⟩ := C114_encrypted hf s t v j hs hv hj
  exact C113_encrypted hd hf s v.print t t' j hs ht' hj hj' o tr m md h he

/-- C114: an encrypted envelope in any text, of whatever origin, that is wrapped in forwards travels along the routing keys, and what
the last mediator finds for the recipient is unpacked by everybody who can unpack the original text to the same message and
metadata.  The doubles in it, if there are any, have to be read back as they are printed, and it may be nested up to 123 levels
deep. -/
theorem C114_journey (E : Env) (Ms : Str → Env) (mopts : Str → UnpackOptions) (s : Str) (t : Tree) (v : Value)
    (headers : Option (List (Str × Value))) (to : Str) (keys : List Str) (alg : AnonCryptAlg) (tr : List Event) (out : Str)
    (law : C.Lawful pairs) (hu : ∀ r, validUtf8 (C.uuid r) = true) (hnl : NeverLonger C) (hpf : PrintsFloats C)
    (hh : HeadersOk C.f64 headers) (hs : JsonText t s) (hv : Means C.f64 t v) (hb : ReadBack C.f64 v.doubles) (hd : t.depth < 124)
    (hto : validUtf8 to = true)
    (hk : ∀ k ∈ keys, WireParty E (didOf k) ∧ validUtf8 k = true ∧ OpensAny C pairs (Ms k) E k)
    (hm : ∀ pre k post, keys = pre ++ k :: post → (mopts k).unwrapReWrappingForward = true →
      NotMine (Ms k) (post.head?.getD to))
    (ha : Answers E tr) (h : Runs (wrapInForward C s headers to keys alg) tr (.ok out)) :
    Travels C headers alg Ms mopts to v keys out ∧
      ∀ (E' : Env) (o : UnpackOptions) (m : Message) (md : UnpackMetadata), md.encrypted = true →
        Returns E' (unpack C s o) (m, md) → Returns E' (unpack C v.print o) (m, md) := by
  obtain ⟨hw, hdv⟩ := means_wf hpf t v hs.texts hv
  have hp : fromJson (toValue C.f64) s = .ok v :=
    (C72_reads_json _ s v).2 ⟨t, hs, (toValue_iff C.f64 t _ v hs.ok (by decide)).2 ⟨hv, by unfold depthLimit; omega⟩⟩
  refine ⟨C08_each_hop E Ms mopts s v headers to keys alg tr out law hu hh hp (hw hb) (by omega) hto hk hm ha h, ?_⟩
  rintro E' o m md he ⟨⟨t0, ht0, hr⟩, -⟩
  exact unpack_returns ht0 (C114_unpacked hnl hpf s t v hs hv o t0 m md hr he)

/-! ## Examples -/

/-- Packing for Bob by Alice; the text is changed, then carried as a JSON value, and unpacked. -/
def World.carriedProg (change : Str → Str) : Prog (Str × Value × (Message × UnpackMetadata)) := do
  let (out, _) ← packEncrypted Toy.crypto World.msg World.bob (some World.alice) (some World.alice) { forward := false }
  let v ← Prog.lift (fromJson (toValue Toy.crypto.f64) (change out))
  let x ← unpack Toy.crypto v.print {}
  pure (out, v, x)

theorem World.carried_ok {change : Str → Str} {tr : List Event} {out : Str} {v : Value} {m : Message} {md : UnpackMetadata}
    (h : Runs (World.carriedProg change) tr (.ok (out, v, m, md))) (ha : Answers World.env tr) :
    (∃ t, JsonText t (change out) ∧ Means Toy.crypto.f64 t v) ∧
      ∃ t2, Answers World.env t2 ∧ Runs (unpack Toy.crypto v.print {}) t2 (.ok (m, md)) := by
  unfold World.carriedProg at h
  obtain ⟨⟨out', _⟩, t1, _, rfl, _, h⟩ := runs_bind_ok.1 h
  obtain ⟨v', h1, h⟩ := runs_lift_bind_ok.1 h
  obtain ⟨⟨m', md'⟩, t2, t3, rfl, h3, h4⟩ := runs_bind_ok.1 h
  obtain ⟨rfl, h4⟩ := runs_pure.1 h4
  cases h4
  obtain ⟨t, ht, h5⟩ := (C72_reads_json _ _ _).1 h1
  simp only [answers_append] at ha
  exact ⟨⟨t, ht, ((toValue_iff _ t _ _ ht.ok (by decide)).1 h5).1⟩, t2, ha.2.1, h3⟩

set_option maxRecDepth 1000000 in
theorem World.carriedTest : World.test World.env (World.carriedProg World.stuffed)
    (fun x => (jweFromStr (World.stuffed x.1)).toOption.isSome && decide (x.2.1.print ≠ World.stuffed x.1) && x.2.2.2.encrypted) = true := by
  decide +kernel

/-- White space, a foreign member and members in another order are lost on the way; the envelope is not. -/
example : ∃ s t v j tr m md, JsonText t s ∧ Means Toy.crypto.f64 t v ∧ IsEncrypted t j ∧ v.print ≠ s ∧
    Runs (unpack Toy.crypto v.print {}) tr (.ok (m, md)) ∧ md.encrypted = true := by
  obtain ⟨tr, ⟨out, v, m, md⟩, h, ha, hk⟩ := World.of_test World.carriedTest
  simp only [Bool.and_eq_true] at hk
  obtain ⟨⟨hk, h1⟩, h2⟩ := hk
  obtain ⟨⟨t, ht, hv⟩, t2, -, h3⟩ := World.carried_ok h ha
  obtain ⟨j, hj⟩ : ∃ j, jweFromStr (World.stuffed out) = .ok j := by
    cases e : jweFromStr (World.stuffed out) with
    | ok j => exact ⟨j, rfl⟩
    | error e' => rw [e] at hk; cases hk
  obtain ⟨t', ht', hj⟩ := (C74_encrypted _ _).1 hj
  obtain rfl : t = t' := by
    have := (parseJson_iff _ t).2 ht
    rw [(parseJson_iff _ t').2 ht'] at this
    cases this; rfl
  exact ⟨_, t, v, j, t2, m, md, ht, hv, hj, of_decide_eq_true h1, h3, h2⟩

/-- Signing by Alice; the text is stuffed and carried as a JSON value. -/
def World.carriedSigned : Prog (Str × Value) := do
  let (out, _) ← packSigned Toy.crypto World.msg World.alice
  let v ← Prog.lift (fromJson (toValue Toy.crypto.f64) (World.stuffed out))
  pure (out, v)

set_option maxRecDepth 1000000 in
theorem World.carriedSignedTest : World.test World.env World.carriedSigned
    (fun x => sameOk (jwsFromStr (World.stuffed x.1)) (jwsFromStr x.2.print) && decide (x.2.print ≠ World.stuffed x.1)) = true := by
  decide +kernel

example : ∃ s t v j, JsonText t s ∧ Means Toy.crypto.f64 t v ∧ IsSigned t j ∧ v.print ≠ s := by
  obtain ⟨tr, ⟨out, v⟩, h, -, hk⟩ := World.of_test World.carriedSignedTest
  simp only [Bool.and_eq_true] at hk
  obtain ⟨j, e1, -⟩ := sameOk_iff hk.1
  obtain ⟨t, ht, hj⟩ := (C74_signed _ _).1 e1
  unfold World.carriedSigned at h
  obtain ⟨⟨out', _⟩, t1, _, rfl, _, h⟩ := runs_bind_ok.1 h
  obtain ⟨v', h1, h⟩ := runs_lift_bind_ok.1 h
  obtain ⟨rfl, h4⟩ := runs_pure.1 h
  cases h4
  obtain ⟨t', ht', h5⟩ := (C72_reads_json _ _ _).1 h1
  obtain rfl : t = t' := by
    have := (parseJson_iff _ t).2 ht
    rw [(parseJson_iff _ t').2 ht'] at this
    cases this; rfl
  exact ⟨_, t, v, j, ht, ((toValue_iff _ t _ _ ht.ok (by decide)).1 h5).1, hj, of_decide_eq_true hk.2⟩

/-- Alice packs for Bob; the text, stuffed by somebody, is wrapped for the mediator. -/
def World.carriedFar : Prog (Str × Value × Str) := do
  let (out, _) ← packEncrypted Toy.crypto World.msg World.bob (some World.alice) none { forward := false }
  let v ← Prog.lift (fromJson (toValue Toy.crypto.f64) (World.stuffed out))
  let w ← wrapInForward Toy.crypto (World.stuffed out) none World.bob [World.mediator, b!"did:example:mediator#x1"] .xc20pEcdhEsA256kw
  pure (out, v, w)

set_option maxRecDepth 1000000 in
theorem World.carriedFarTest : World.test World.aliceEnv World.carriedFar (fun x => decide (x.2.1.doubles = []) &&
    (parseJson (World.stuffed x.1)).toOption.any fun t => decide (t.depth < 124)) = true := by
  decide +kernel

example : ∃ out v w, Travels Toy.crypto none .xc20pEcdhEsA256kw (fun _ => World.mediatorEnv)
      (fun _ => { unwrapReWrappingForward := false }) World.bob v [World.mediator, b!"did:example:mediator#x1"] w ∧
    ∀ (E' : Env) (o : UnpackOptions) (m : Message) (md : UnpackMetadata), md.encrypted = true →
      Returns E' (unpack Toy.crypto (World.stuffed out) o) (m, md) → Returns E' (unpack Toy.crypto v.print o) (m, md) := by
  obtain ⟨tr, ⟨out, v, w⟩, h, ha, hk⟩ := World.of_test World.carriedFarTest
  unfold World.carriedFar at h
  obtain ⟨⟨out', _⟩, t1, _, rfl, _, h⟩ := runs_bind_ok.1 h
  obtain ⟨v', h1, h⟩ := runs_lift_bind_ok.1 h
  obtain ⟨w', t2, t3, rfl, h3, h4⟩ := runs_bind_ok.1 h
  obtain ⟨rfl, h4⟩ := runs_pure.1 h4
  cases h4
  simp only [answers_append] at ha
  obtain ⟨t, ht, h5⟩ := (C72_reads_json _ _ _).1 h1
  simp only [Bool.and_eq_true] at hk
  obtain ⟨hk, hd⟩ := hk
  rw [(parseJson_iff _ t).2 ht] at hd
  exact ⟨out, v, w, C114_journey World.aliceEnv _ _ _ t v none World.bob _ _ _ w Toy.lawful World.uuid_utf8 World.neverLonger
    World.printsFloats World.headersOk_none ht ((toValue_iff _ t _ _ ht.ok (by decide)).1 h5).1
    (by rw [of_decide_eq_true hk]; intro t h; cases h) (of_decide_eq_true hd) (by decide)
    (fun k hk => by
      simp only [List.mem_cons, List.not_mem_nil, or_false] at hk
      rcases hk with rfl | rfl
      · exact ⟨World.wire_mediator, by decide, World.mediator_opens.1⟩
      · exact ⟨World.wire_mediator, by decide, World.mediator_opens.2⟩)
    (fun _ _ _ _ h => by cases h) ha.2.1 h3⟩

/-! ## Forwarding heals -/

/-- The text with the first character of its first value, an `e`, written as an escape. -/
def World.escapeOnce (out : Str) : Str := out.take 14 ++ b!"\\u0065" ++ out.drop 15

set_option maxRecDepth 1000000 in
theorem World.escapeTest : World.test World.env (World.carriedProg World.escapeOnce)
    (fun x => (jweFromStr (World.escapeOnce x.1)).toOption.isNone && (jwsFromStr (World.escapeOnce x.1)).toOption.isNone &&
      (messageFromStr Toy.crypto (World.escapeOnce x.1)).toOption.isNone && x.2.2.2.encrypted && decide (x.2.2.1.id = World.msg.id)) = true := by
  decide +kernel

/-- C114 (negative): the converse is false.  There is a text that everybody refuses to unpack as malformed, because a character in
it is written as an escape, and which after forwarding is unpacked. -/
theorem C114_healed : ∃ (s : Str) (t : Tree) (v : Value) (tr : List Event) (m : Message) (md : UnpackMetadata),
    JsonText t s ∧ Means Toy.crypto.f64 t v ∧
    (∀ o tr r, Runs (unpack Toy.crypto s o) tr r → tr = [] ∧ r = .error (.kind .malformed)) ∧
    Answers World.env tr ∧ Runs (unpack Toy.crypto v.print {}) tr (.ok (m, md)) ∧ m.id = World.msg.id ∧ md.encrypted = true := by
  obtain ⟨tr, ⟨out, v, m, md⟩, h, ha, hk⟩ := World.of_test World.escapeTest
  simp only [Bool.and_eq_true] at hk
  obtain ⟨⟨⟨⟨k1, k2⟩, k3⟩, k4⟩, k5⟩ := hk
  obtain ⟨⟨t, ht, hv⟩, t2, ha2, h3⟩ := World.carried_ok h ha
  refine ⟨_, t, v, t2, m, md, ht, hv, fun o tr r hr => ?_, ha2, h3, of_decide_eq_true k5, k4⟩
  refine C74_refused _ t ht (fun j hj => ?_) (fun j hj => ?_) (fun j hj => ?_) o tr r hr
  · rw [(C74_encrypted _ j).2 ⟨t, ht, hj⟩] at k1; cases k1
  · rw [(C74_signed _ j).2 ⟨t, ht, hj⟩] at k2; cases k2
  · obtain ⟨l, e, -⟩ := C73_accepts _ t j ht hj
    rw [e] at k3; cases k3

/-- A message with two ids. -/
def World.twoIds : Str := b!"{\"id\":\"1\",\"type\":\"t\",\"body\":{},\"id\":\"2\"}"

/-- C114 (negative): a message with two ids is refused, and after forwarding it is the message with the last of them. -/
theorem C114_repeated (C : Crypto) : ∃ (s : Str) (t : Tree) (v : Value) (m : Message) (md : UnpackMetadata),
    JsonText t s ∧ Means C.f64 t v ∧
    (∀ o tr r, Runs (unpack C s o) tr r → tr = [] ∧ r = .error (.kind .malformed)) ∧
    Runs (unpack C v.print {}) [] (.ok (m, md)) ∧ m.id = b!"2" := by
  have hp : ∃ t, parseJson World.twoIds = .ok t ∧ dJwe depthLimit t = none ∧ dJws depthLimit t = none ∧ dMessage C.f64 depthLimit t = none ∧
      toValue C.f64 depthLimit t = some (.obj [(b!"body", .obj []), (b!"id", .str b!"2"), (b!"type", .str b!"t")]) := by
    refine ⟨_, rfl, rfl, rfl, rfl, rfl⟩
  obtain ⟨t, hp, h1, h2, h3, h4⟩ := hp
  have ht := (parseJson_iff _ _).1 hp
  refine ⟨World.twoIds, t, _, _, _, ht, ((toValue_iff _ t _ _ ht.ok (by decide)).1 h4).1, fun o tr r hr => ?_, runs_pure.2 ⟨rfl, rfl⟩, rfl⟩
  refine C74_refused _ t ht (fun j hj => ?_) (fun j hj => ?_) (fun m hm => ?_) o tr r hr
  · rw [(decodes_encrypted t ht.ok j).2 hj] at h1; cases h1
  · rw [(decodes_signed t ht.ok j).2 hj] at h2; cases h2
  · obtain ⟨l, e, -⟩ := dMessage_complete ht.ok hm
    rw [h3] at e; cases e

end DIDComm
