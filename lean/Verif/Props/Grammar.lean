import Verif.Proofs.Cut
import Verif.Proofs.EarlyTypes
import Verif.Proofs.CutNums
import Verif.Props.Secrecy

/-!
# C72: the library reads JSON, all of it and nothing else

`JsonText` (`Verif.Spec.Grammar`) is the grammar of RFC 8259.
-/

set_option autoImplicit false

namespace DIDComm

variable {C : Crypto}

/-- C72: the texts that the library can read as something are JSON texts, and what is read depends on the content only. -/
theorem C72_reads_json {α : Type} (d : Nat → Tree → Option α) [Early d] (s : Str) (a : α) :
    fromJson d s = .ok a ↔ ∃ t, JsonText t s ∧ d depthLimit t = some a := by
  constructor
  · intro h
    unfold fromJson at h
    split at h
    · cases h
    · cases h
    · cases h
    · rename_i t ht
      refine ⟨t, (parseJson_iff s t).1 ht, ?_⟩
      unfold okOr at h
      split at h
      · rename_i b hb; cases h; exact hb
      · cases h
  · rintro ⟨t, ht, hd⟩
    unfold fromJson
    rw [(parseJson_iff s t).2 ht]
    simp [okOr, hd]

/-- A message with white space, escapes, a surrogate pair and numbers of every form. -/
def World.spaced : Str :=
  b!" { \"i\\u0064\" : \"a\\/\\uD83D\\ude00\" ,\t\"type\":\"t\", \"body\":[ 1 , -2.5e+3, {}, [true ] ]\r\n}\n"

example : ∃ m t, fromJson (dMessage Toy.crypto.f64) World.spaced = .ok m ∧ JsonText t World.spaced ∧ m.id = b!"a/😀" := by
  have h : (match fromJson (dMessage Toy.crypto.f64) World.spaced with | .ok m => decide (m.id = b!"a/😀") | _ => false) = true := by
    decide +kernel
  split at h
  · rename_i m hm
    obtain ⟨t, ht, -⟩ := (C72_reads_json _ _ m).1 hm
    exact ⟨m, t, hm, ht, of_decide_eq_true h⟩
  · cases h

/-- C72: a text has at most one content. -/
theorem C72_one_content (s : Str) (t t' : Tree) (h : JsonText t s) (h' : JsonText t' s) : t = t' := by
  rw [← parseJson_iff] at h h'
  rw [h] at h'
  exact Except.ok.inj h'

/-- C72: what is refused is no JSON text, or one with a content that does not fit; then the error is `Malformed`. -/
theorem C72_refuses {α : Type} (d : Nat → Tree → Option α) [Early d] (s : Str) :
    (∀ t, JsonText t s → d depthLimit t = none → fromJson d s = .error (.kind .malformed)) ∧
    ((∀ t, ¬ JsonText t s) → fromJson d s = .error (.kind .malformed) ∨ fromJson d s = .error (.kind .invalidState)) := by
  refine ⟨fun t h hd => ?_, fun h => ?_⟩
  · unfold fromJson
    rw [(parseJson_iff s t).2 h]
    simp [okOr, hd]
  · unfold fromJson
    split
    · split
      · exact .inl rfl
      · exact .inr rfl
    · exact .inl rfl
    · rename_i hf; exact absurd hf (parseJson_fuel s)
    · rename_i t ht; exact absurd ((parseJson_iff s t).1 ht) (h t)

/-- Each of the two cases, and a text that only lacks its end. -/
example : JsonText (.obj []) b!"{}" ∧ dJws depthLimit (.obj []) = none ∧ (∀ t, ¬ JsonText t b!"{\"a\":01}") ∧
    (∀ t, ¬ JsonText t b!"{\"a\":") := by
  refine ⟨(parseJson_iff _ _).1 (by rfl), by decide +kernel, fun t h => ?_, fun t h => ?_⟩
  · rw [← parseJson_iff] at h
    have : parseJson b!"{\"a\":01}" = .error .syn := by rfl
    rw [this] at h; cases h
  · rw [← parseJson_iff] at h
    have : parseJson b!"{\"a\":" = .error .eof := by rfl
    rw [this] at h; cases h

/-- The beginning of a text with this content is `InvalidState` unless the type refuses it early. -/
theorem cut_early {α : Type} {d : Nat → Tree → Option α} [Early d] {s x : Str} {t : Tree} (hj : ∀ t, ¬ JsonText t s)
    (hx : JsonText t (s ++ x)) (h : Begins (cutOf s) t → Early.early d depthLimit (cutOf s) = false) :
    fromJson d s = .error (.kind .invalidState) := by
  have hx' := (parseJson_iff _ _).2 hx
  unfold fromJson
  rcases parseJson_prefix hx' with e | ⟨t', e⟩
  · rw [e]
    simp only [h (cutOf_begins e hx'), Bool.false_eq_true, if_false]
  · exact absurd ((parseJson_iff s t').1 e) (hj t')

theorem cut_steady {α : Type} {d : Nat → Tree → Option α} [Early d] {s x : Str} {t : Tree} {a : α} {p : NumTok → Prop}
    (hj : ∀ t, ¬ JsonText t s) (hx : JsonText t (s ++ x)) (h : fromJson d (s ++ x) = .ok a) (hp : Nums p t)
    (hs : Steady p (fun t => (d depthLimit t).isSome) (Early.early d depthLimit)) :
    fromJson d s = .error (.kind .invalidState) := by
  obtain ⟨t', ht', hd⟩ := (C72_reads_json d _ a).1 h
  have := C72_one_content _ _ _ hx ht'
  subst this
  exact cut_early hj hx fun hb => hs _ _ hb hp (by simp only [hd]; rfl)

/-- C72: a text that lost its end is `InvalidState`, not `Malformed`, whenever the whole text is accepted — as an encrypted
envelope, as a signed envelope, as one of their headers and as the claims of a `from_prior`. -/
theorem C72_cut (s x : Str) (hj : ∀ t, ¬ JsonText t s) :
    (∀ a, fromJson dJwe (s ++ x) = .ok a → fromJson dJwe s = .error (.kind .invalidState)) ∧
    (∀ a, fromJson dJws (s ++ x) = .ok a → fromJson dJws s = .error (.kind .invalidState)) ∧
    (∀ a, fromJson dJwsHeader (s ++ x) = .ok a → fromJson dJwsHeader s = .error (.kind .invalidState)) ∧
    (∀ a, fromJson dCompactHeader (s ++ x) = .ok a → fromJson dCompactHeader s = .error (.kind .invalidState)) ∧
    (∀ a, fromJson dFromPrior (s ++ x) = .ok a → fromJson dFromPrior s = .error (.kind .invalidState)) := by
  refine ⟨fun a h => ?_, fun a h => ?_, fun a h => ?_, fun a h => ?_, fun a h => ?_⟩
  · obtain ⟨t, ht, -⟩ := (C72_reads_json _ _ a).1 h
    exact cut_steady (p := fun _ => True) hj ht h (fun _ _ => trivial) (steady_jwe _)
  · obtain ⟨t, ht, -⟩ := (C72_reads_json _ _ a).1 h
    exact cut_steady (p := fun _ => True) hj ht h (fun _ _ => trivial) (steady_jws _)
  · obtain ⟨t, ht, -⟩ := (C72_reads_json _ _ a).1 h
    exact cut_steady (p := fun _ => True) hj ht h (fun _ _ => trivial) (steady_jwsHeader _)
  · obtain ⟨t, ht, -⟩ := (C72_reads_json _ _ a).1 h
    exact cut_steady (p := fun _ => True) hj ht h (fun _ _ => trivial) (steady_compactHeader _)
  · obtain ⟨t, ht, -⟩ := (C72_reads_json _ _ a).1 h
    exact cut_steady (p := fun _ => True) hj ht h (fun _ _ => trivial) (steady_fromPrior _)

example : (∀ t, ¬ JsonText t b!"{\"iss\":\"a\",\"exp\":1,\"s") ∧
    fromJson dFromPrior (b!"{\"iss\":\"a\",\"exp\":1,\"s" ++ b!"ub\":\"b\"}") = .ok { iss := b!"a", sub := b!"b", exp := some 1 } := by
  refine ⟨fun t h => ?_, by rfl⟩
  rw [← parseJson_iff] at h
  have : parseJson b!"{\"iss\":\"a\",\"exp\":1,\"s" = .error .eof := by rfl
  rw [this] at h; cases h

/-- C72: the same for messages, for the protected headers of encrypted envelopes and for JSON values, if no number of the text
has a beginning that is out of range. -/
theorem C72_cut_numbers (f64 : Str → Option Str) (s x : Str) (hj : ∀ t, ¬ JsonText t s) (t : Tree) (ht : JsonText t (s ++ x))
    (hn : NumbersCut f64 t) :
    (∀ a, fromJson (dMessage f64) (s ++ x) = .ok a → fromJson (dMessage f64) s = .error (.kind .invalidState)) ∧
    (∀ a, fromJson (dJweHeader f64) (s ++ x) = .ok a → fromJson (dJweHeader f64) s = .error (.kind .invalidState)) ∧
    (∀ a, fromJson (toValue f64) (s ++ x) = .ok a → fromJson (toValue f64) s = .error (.kind .invalidState)) :=
  ⟨fun _ h => cut_steady hj ht h (numbersCut_nums hn) (steady_message (fun _ h => h) _),
    fun _ h => cut_steady hj ht h (numbersCut_nums hn) (steady_jweHeader (fun _ h => h) _),
    fun _ h => cut_steady hj ht h (numbersCut_nums hn) (steady_value (fun _ h => h) _)⟩

/-- C72 needs this condition: a text that ends inside a number whose beginning is out of range is `Malformed` although it can
be completed.  (The numbers here are too large for the toy's doubles.  For real ones take 400 digits.) -/
theorem C72_cut_number_example : ∃ f64 s x, (∀ t, ¬ JsonText t s) ∧ (∃ v, fromJson (toValue f64) (s ++ x) = .ok v) ∧
    fromJson (toValue f64) s = .error (.kind .malformed) := by
  refine ⟨Toy.crypto.f64, b!"[20000000000000000000", b!"e-5]", fun t h => ?_, ⟨.arr [.num (.flt b!"20000000000000000000e-5")], by rfl⟩, by rfl⟩
  rw [← parseJson_iff] at h
  have : parseJson b!"[20000000000000000000" = .error .eof := by rfl
  rw [this] at h; cases h

/-- A text that is not JSON cannot be read as a message or envelope. -/
theorem unpack_refuses {s : Str} {opts : UnpackOptions} {tr : List Event} {r : Res (Message × UnpackMetadata)}
    (h : Runs (unpack C s opts) tr r) (hj : ∀ t, ¬ JsonText t s) :
    tr = [] ∧ (r = .error (.kind .malformed) ∨ r = .error (.kind .invalidState)) ∧
    (fromJson dJwe s = .error (.kind .invalidState) ∨ fromJson dJws s = .error (.kind .invalidState) ∨
      fromJson (dMessage C.f64) s = .error (.kind .invalidState) → r = .error (.kind .invalidState)) := by
  have err : ∀ {α : Type} (d : Nat → Tree → Option α) [Early d], ∃ k, (k = .malformed ∨ k = .invalidState) ∧ fromJson d s = .error (.kind k) := by
    intro α d _
    rcases (C72_refuses d s).2 hj with e | e
    · exact ⟨_, .inl rfl, e⟩
    · exact ⟨_, .inr rfl, e⟩
  obtain ⟨a, ha, he⟩ := err dJwe
  obtain ⟨b, hb, hs⟩ := err dJws
  obtain ⟨c, hc, hm⟩ := err (dMessage C.f64)
  obtain ⟨rfl, rfl⟩ := unpack_unreadable ha hb hc he hs hm h
  refine ⟨rfl, ?_, ?_⟩
  · split
    · exact .inr rfl
    · rcases hc with rfl | rfl
      · exact .inl rfl
      · exact .inr rfl
  · rw [he, hs, hm]
    simp only [Except.error.injEq, Err.kind.injEq]
    rintro (rfl | rfl | rfl) <;> simp

/-- C72: `unpack` refuses what is not a JSON text, without asking anything. -/
theorem C72_unpack_json (s : Str) (opts : UnpackOptions) (tr : List Event) (r : Res (Message × UnpackMetadata))
    (h : Runs (unpack C s opts) tr r) (hj : ∀ t, ¬ JsonText t s) :
    tr = [] ∧ (r = .error (.kind .malformed) ∨ r = .error (.kind .invalidState)) :=
  ⟨(unpack_refuses h hj).1, (unpack_refuses h hj).2.1⟩

example : ∃ tr r, Runs (unpack Toy.crypto b!"{'id':1}" {}) tr r ∧ ∀ t, ¬ JsonText t b!"{'id':1}" := by
  refine ⟨_, _, (Prog.run_spec World.env id _).1, fun t ht => ?_⟩
  rw [← parseJson_iff] at ht
  have : parseJson b!"{'id':1}" = .error .syn := by rfl
  rw [this] at ht; cases ht

/-- C72: `unpack` refuses every text that lacks the end of an encrypted envelope, a signed envelope or a message, with
`InvalidState` and without asking anything. -/
theorem C72_unpack_cut (s x : Str) (m : List (StrTok × Tree)) (hx : JsonText (.obj m) (s ++ x)) (hn : ¬ Ws x)
    (hd : (∃ j, fromJson dJwe (s ++ x) = .ok j) ∨ (∃ j, fromJson dJws (s ++ x) = .ok j) ∨
      ((∃ a, fromJson (dMessage C.f64) (s ++ x) = .ok a) ∧ NumbersCut C.f64 (.obj m)))
    (opts : UnpackOptions) (tr : List Event) (r : Res (Message × UnpackMetadata)) (h : Runs (unpack C s opts) tr r) :
    tr = [] ∧ r = .error (.kind .invalidState) := by
  have hj : ∀ t, ¬ JsonText t s := fun t ht => hn (jsonText_ext ht (jsonText_cut hx ht) hx)
  refine ⟨(unpack_refuses h hj).1, (unpack_refuses h hj).2.2 ?_⟩
  rcases hd with ⟨j, hd⟩ | ⟨j, hd⟩ | ⟨⟨a, hd⟩, hf⟩
  · exact .inl ((C72_cut s x hj).1 j hd)
  · exact .inr (.inl ((C72_cut s x hj).2.1 j hd))
  · exact .inr (.inr ((C72_cut_numbers C.f64 s x hj _ hx hf).1 a hd))

/-- The message of `World.spaced` without its end. -/
example : ∃ s x m, World.spaced = s ++ x ∧ x.length = 4 ∧ JsonText (.obj m) (s ++ x) ∧ ¬ Ws x ∧
    (∃ a, fromJson (dMessage fun t => some t) (s ++ x) = .ok a) ∧ NumbersCut (fun t => some t) (.obj m) := by
  have h : (match parseJson World.spaced with | .ok (.obj _) => true | _ => false) = true := by decide +kernel
  split at h
  · rename_i m hm
    refine ⟨World.spaced.take (World.spaced.length - 4), World.spaced.drop (World.spaced.length - 4), m,
      (List.take_append_drop _ _).symm, by decide +kernel, ?_, ?_, ?_, ?_⟩
    · rw [List.take_append_drop]; exact (parseJson_iff _ _).1 hm
    · intro hw
      exact absurd (hw 0x7D (by decide +kernel)) (by decide)
    · rw [List.take_append_drop]
      have : (match fromJson (dMessage fun t => some t) World.spaced with | .ok _ => true | _ => false) = true := by decide +kernel
      split at this
      · rename_i a ha; exact ⟨a, ha⟩
      · cases this
    · intro n _ s x k _ hk
      exact isNum_all hk
  · cases h

/-- The text of an object that lost its end. -/
theorem cut_obj {v : Value} {l : List (Str × Value)} (hl : v = .obj l) (hv : v.NumsOk) {s x : Str} (h : v.print = s ++ x) (hx : x ≠ []) :
    JsonText v.tree (s ++ x) ∧ ∀ t, ¬ JsonText t s := by
  subst hl
  have ht := jsonText_print _ hv
  rw [h] at ht
  refine ⟨ht, fun t hs => print_obj_cut h hx ?_⟩
  rw [Value.tree] at ht
  exact jsonText_ext hs (jsonText_cut ht hs) ht

/-- A struct that knows none of the members of an object does not refuse it early. -/
theorem cut_unknown {fs : List Fld} {c : Cut} {a : List (StrTok × Tree)} {m : List (Str × Tree)} (hb : Begins c (.obj a))
    (hm : decKeys a = some m) (hn : (fs.map Fld.name).Nodup) (hs : AllSteady (fun _ => True) fs)
    (hd : ∀ k ∈ fs.map Fld.name, k ∉ m.map Prod.fst) : earlyStruct fs depthLimit c = false := by
  refine steady_struct hb (p := fun _ => True) (fun _ _ => trivial) hn (m := m) (by simpa [asStruct, asMap, depthLimit] using hm) (fun f hf => .inl ?_) hs
  unfold field
  rw [List.filter_eq_nil_iff.2 (fun q hq => by
    intro e
    have : q.1 = f.name := by simpa using e
    exact hd f.name (List.mem_map.2 ⟨f, hf, rfl⟩) (this ▸ List.mem_map.2 ⟨q, hq, rfl⟩))]

/-- C72: an encrypted message that lost its end is refused with `InvalidState`, without asking anything. -/
theorem C72_encrypted_cut (m : Message) (to : Str) (from_ signBy : Option Str) (popts : PackEncryptedOptions)
    (tr : List Event) (out : Str) (md : PackEncryptedMetadata)
    (h : Runs (packEncrypted C m to from_ signBy popts) tr (.ok (out, md))) (s x : Str) (hs : out = s ++ x) (hx : x ≠ [])
    (opts : UnpackOptions) (tr' : List Event) (r : Res (Message × UnpackMetadata)) (hr : Runs (unpack C s opts) tr' r) :
    tr' = [] ∧ r = .error (.kind .invalidState) := by
  obtain ⟨j, _, rfl, -⟩ := C42_sealed m to from_ signBy popts tr out md h
  obtain ⟨ht, hj⟩ := cut_obj rfl j.numsOk hs hx
  refine ⟨(unpack_refuses hr hj).1, (unpack_refuses hr hj).2.2 (.inr (.inl (cut_early hj ht fun hb => ?_)))⟩
  rw [Value.tree] at hb
  exact cut_unknown hb (by simp only [Value.treeMembers, decKeys]; rfl) (by decide) (allSteady_jws _) (by simp only [List.map, Fld.req]; decide)

/-- The text of such a message has more than one byte, so that it has proper beginnings. -/
example : ∃ tr out md s x, Runs (packEncrypted Toy.crypto World.msg World.bob (some World.alice) (some World.alice) {}) tr (.ok (out, md)) ∧
    out = s ++ x ∧ x ≠ [] ∧ s ≠ [] := by
  have h : World.test World.env (packEncrypted Toy.crypto World.msg World.bob (some World.alice) (some World.alice) {})
    (fun x => decide (x.1.take 100 ≠ [] ∧ x.1.drop 100 ≠ [])) = true := by decide +kernel
  obtain ⟨tr, ⟨out, md⟩, h, -, hp⟩ := World.of_test h
  have hp := of_decide_eq_true hp
  exact ⟨tr, out, md, out.take 100, out.drop 100, h, (List.take_append_drop _ _).symm, hp.2, hp.1⟩

/-- C72: so is a signed message. -/
theorem C72_signed_cut (m : Message) (signBy : Str) (tr : List Event) (out kid : Str)
    (h : Runs (packSigned C m signBy) tr (.ok (out, kid))) (s x : Str) (hs : out = s ++ x) (hx : x ≠ [])
    (opts : UnpackOptions) (tr' : List Event) (r : Res (Message × UnpackMetadata)) (hr : Runs (unpack C s opts) tr' r) :
    tr' = [] ∧ r = .error (.kind .invalidState) := by
  obtain ⟨_, _, _, -, -, ⟨sig, rfl⟩, -⟩ := C50_signed m signBy tr out kid h
  rw [JWS.onWire_eq] at hs
  obtain ⟨ht, hj⟩ := cut_obj rfl (JWS.numsOk _) hs hx
  refine ⟨(unpack_refuses hr hj).1, (unpack_refuses hr hj).2.2 (.inl (cut_early hj ht fun hb => ?_))⟩
  rw [Value.tree] at hb
  exact cut_unknown hb (by simp only [Value.treeMembers, decKeys]; rfl) (by decide) (allSteady_jwe _) (by simp only [List.map, Fld.req]; decide)

example : ∃ tr out kid s x, Runs (packSigned Toy.crypto World.msg World.alice) tr (.ok (out, kid)) ∧
    out = s ++ x ∧ x ≠ [] ∧ s ≠ [] := by
  have h : World.test World.env (packSigned Toy.crypto World.msg World.alice)
    (fun x => decide (x.1.take 100 ≠ [] ∧ x.1.drop 100 ≠ [])) = true := by decide +kernel
  obtain ⟨tr, ⟨out, kid⟩, h, -, hp⟩ := World.of_test h
  have hp := of_decide_eq_true hp
  exact ⟨tr, out, kid, out.take 100, out.drop 100, h, (List.take_append_drop _ _).symm, hp.2, hp.1⟩

/-- C72: so is a plaintext message. -/
theorem C72_plaintext_cut (m : Message) (hm : m.WF C.f64) (hf : FloatCuts C.f64) (tr : List Event) (out : Str)
    (h : Runs (packPlaintext C m) tr (.ok out)) (s x : Str) (hs : out = s ++ x) (hx : x ≠ [])
    (opts : UnpackOptions) (tr' : List Event) (r : Res (Message × UnpackMetadata)) (hr : Runs (unpack C s opts) tr' r) :
    tr' = [] ∧ r = .error (.kind .invalidState) := by
  obtain ⟨-, rfl⟩ := draws_plaintext h
  obtain ⟨ht, hj⟩ := cut_obj rfl (Message.numsOk hm) hs hx
  refine ⟨(unpack_refuses hr hj).1, (unpack_refuses hr hj).2.2 (.inr (.inr ?_))⟩
  exact cut_steady hj ht (hs ▸ message_print m hm) ((Message.numsWF hm).cuts hf) (steady_message (fun _ h => h) _)

/-- A toy with doubles that know no limits. -/
def Toy.wide : Crypto := { Toy.crypto with f64 := some }

/-- A message with numbers. -/
def World.floats : Message :=
  { World.msg with body := .obj [(b!"x", .num (.flt b!"2.5e-7")), (b!"y", .num (.neg 12))], expiresTime := some 1650000000 }

example : World.floats.WF Toy.wide.f64 ∧ FloatCuts Toy.wide.f64 ∧ ∃ tr out s x, Runs (packPlaintext Toy.wide World.floats) tr (.ok out) ∧
    out = s ++ x ∧ x ≠ [] ∧ s ≠ [] := by
  have h : World.test World.env (packPlaintext Toy.wide World.floats)
    (fun x => decide (x.take 100 ≠ [] ∧ x.drop 100 ≠ [])) = true := by decide +kernel
  obtain ⟨tr, out, h, -, hp⟩ := World.of_test h
  have hp := of_decide_eq_true hp
  refine ⟨?_, fun _ _ _ _ _ _ hn => isNum_all hn, tr, out, out.take 100, out.drop 100, h, (List.take_append_drop _ _).symm, hp.2, hp.1⟩
  have wf := World.msg_wf
  exact { id := wf.id, typ := wf.typ, type_ := wf.type_, body := by
            simp only [World.floats, Value.WF, Value.WFM, SortedKeys, Num.WF]
            exact ⟨List.pairwise_cons.2 ⟨by simp [strLt]; decide, List.pairwise_singleton _ _⟩, by decide, ⟨by decide +kernel, rfl⟩, by decide, by decide, trivial⟩
          bodyDepth := by decide, from_ := wf.from_, to := wf.to, thid := wf.thid, pthid := wf.pthid, fromPrior := wf.fromPrior,
          extra := by simp only [World.floats, World.msg, Value.WFM, Value.WF]; decide
          extraDepth := wf.extraDepth, extraReserved := wf.extraReserved, extraNodup := wf.extraNodup,
          attachments := by intro l h; cases h }

end DIDComm
