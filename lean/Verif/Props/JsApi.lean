import Verif.Spec.JsApi
import Verif.Model.JsApi
import Verif.Props.Reading
import Verif.Props.Documents
import Verif.Props.Routing

/-!
# C86: the objects of the JavaScript and uniffi bindings

`new Message(value)`, `as_value()`, `new FromPrior(value)`, `try_parse_forward()`, the metadata of `pack_signed` and the JSON values
of uniffi, each given by the JSON text of the JavaScript value.
-/

set_option autoImplicit false

namespace DIDComm

variable {C : Crypto}

/-- What is read from JavaScript is what is read from the text; only the error differs. -/
theorem jsRead_ok {α : Type} {d : Nat → Tree → Option α} {k : ErrorKind} {s : Str} {a : α} :
    intoSerde k d s = .ok a ↔ ∃ t, JsonText t s ∧ d depthLimit t = some a := by
  rw [← @C72_reads_json _ d ⟨fun _ _ => false⟩ s a]
  unfold intoSerde readDoc
  cases @fromJson α d ⟨fun _ _ => false⟩ s with
  | ok b => exact Iff.rfl
  | error e => cases e <;> simp [withKind]

/-! ## Messages -/

/-- C86: a JavaScript object becomes a message only if its JSON says that message. -/
theorem C86_message (s : Str) (m : Message) (h : wasmMessageNew C s = .ok m) : ∃ t, JsonText t s ∧ IsMessage C.f64 t m := by
  obtain ⟨t, ht, hd⟩ := jsRead_ok.1 h
  exact ⟨t, ht, dMessage_sound ht.ok hd⟩

/-- C86: every JavaScript object whose JSON says a message becomes that message; the order of the extra headers, which are a
map, is not fixed. -/
theorem C86_message_accepts (s : Str) (t : Tree) (m : Message) (h : JsonText t s) (hm : IsMessage C.f64 t m) :
    ∃ l, wasmMessageNew C s = .ok { m with extraHeaders := l } ∧ (l.map Prod.fst).Nodup ∧ ∀ p, p ∈ l ↔ p ∈ m.extraHeaders := by
  obtain ⟨l, h1, h2, h3⟩ := dMessage_complete h.ok hm
  exact ⟨l, jsRead_ok.2 ⟨t, h, h1⟩, h2, h3⟩

/-- C86: any other value is refused as `Malformed`; reading never panics. -/
theorem C86_message_refuses (s : Str) (h : ∀ t m, JsonText t s → ¬ IsMessage C.f64 t m) :
    wasmMessageNew C s = .error (.kind .malformed) := by
  rcases C69_read .malformed (dMessage C.f64) s with ⟨m, hm⟩ | he
  · obtain ⟨t, ht, hi⟩ := C86_message s m hm
    exact absurd hi (h t m ht)
  · exact he

example : (∃ m, wasmMessageNew Toy.crypto World.varied = .ok m ∧ m.extraHeaders.length = 1) ∧
    ∀ t m, JsonText t b!"null" → ¬ IsMessage Toy.crypto.f64 t m := by
  constructor
  · have h : (match wasmMessageNew Toy.crypto World.varied with
      | .ok m => decide (m.extraHeaders.length = 1)
      | _ => false) = true := by decide +kernel
    split at h
    · rename_i m hm
      exact ⟨m, hm, of_decide_eq_true h⟩
    · cases h
  · rintro t m ht ⟨_, ⟨l, hl, -⟩, -⟩
    have h : parseJson b!"null" = .ok t := (parseJson_iff _ _).2 ht
    subst hl
    cases h

/-- C86: the plain object of an ordinary message says that message, and gives it back. -/
theorem C86_value (m : Message) (hm : m.WF C.f64) :
    (∃ t, JsonText t (wasmMessageValue m) ∧ IsMessage C.f64 t m) ∧ wasmMessageNew C (wasmMessageValue m) = .ok m := by
  have h := (C72_reads_json _ _ m).1 (message_print m hm)
  have h' : wasmMessageNew C (wasmMessageValue m) = .ok m := jsRead_ok.2 h
  exact ⟨C86_message _ _ h', h'⟩

/-- C86: so two ordinary messages with the same plain object are the same. -/
theorem C86_value_tells (m m' : Message) (hm : m.WF C.f64) (hm' : m'.WF C.f64) (h : wasmMessageValue m = wasmMessageValue m') : m = m' := by
  have h1 := (C86_value (C := C) m hm).2
  rw [h, (C86_value (C := C) m' hm').2] at h1
  cases h1
  rfl

/-- C86: a message without `from_prior` made from a JavaScript object is packed as plaintext to a text that says what the
object said, without asking anything. -/
theorem C86_packed (m : Message) (hp : m.fromPrior = none) (tr : List Event) (r : Res Str)
    (h : Runs (packPlaintext C m) tr r) : tr = [] ∧ r = .ok (wasmMessageValue m) := by
  unfold packPlaintext at h
  rw [hp] at h
  exact runs_ret.1 h

example : World.msg.fromPrior = none ∧ World.msg.body ≠ .null := ⟨rfl, by simp [World.msg]⟩

/-! ## Claims -/

/-- C86: a JavaScript object becomes the claims of a `from_prior` exactly if its JSON says them; any other value is
`Malformed`. -/
theorem C86_claims (s : Str) :
    (∀ f, wasmFromPriorNew s = .ok f ↔ ∃ t, JsonText t s ∧ IsClaims t f) ∧
    ((∀ t f, JsonText t s → ¬ IsClaims t f) → wasmFromPriorNew s = .error (.kind .malformed)) := by
  have h1 : ∀ f, wasmFromPriorNew s = .ok f ↔ ∃ t, JsonText t s ∧ IsClaims t f := by
    intro f
    refine jsRead_ok.trans ?_
    exact ⟨fun ⟨t, ht, h⟩ => ⟨t, ht, (decodes_claims t ht.ok f).1 h⟩, fun ⟨t, ht, h⟩ => ⟨t, ht, (decodes_claims t ht.ok f).2 h⟩⟩
  refine ⟨h1, fun h => ?_⟩
  rcases C69_read .malformed dFromPrior s with ⟨f, hf⟩ | he
  · obtain ⟨t, ht, hi⟩ := (h1 f).1 hf
    exact absurd hi (h t f ht)
  · exact he

/-- C86: the plain object of claims says them, and gives them back. -/
theorem C86_claims_value (f : FromPrior) (hf : f.WF) :
    (∃ t, JsonText t (wasmFromPriorValue f) ∧ IsClaims t f) ∧ wasmFromPriorNew (wasmFromPriorValue f) = .ok f := by
  have h := (C74_claims _ f).1 (fromPrior_print f hf)
  exact ⟨h, ((C86_claims _).1 f).2 h⟩

example : (⟨b!"did:x:a", b!"did:x:b", none, some 5, none, some 3, some b!"\""⟩ : FromPrior).WF where
  iss := by decide
  sub := by decide
  aud := fun _ h => nomatch h
  jti := by intro s h; cases h; decide

/-! ## Forwards -/

theorem mem_wf {l : List (Str × Value)} {f64 : Str → Option Str} (h : Value.WFM f64 l) {k : Str} {v : Value} (hm : (k, v) ∈ l) : v.WF f64 := by
  induction l with
  | nil => cases hm
  | cons p r ih =>
    obtain ⟨k', v'⟩ := p
    simp only [Value.WFM] at h
    rcases List.mem_cons.1 hm with hp | hp
    · cases hp; exact h.2.1
    · exact ih h.2.2 hp

theorem mem_of_lookup {l : List (Str × Value)} {k : Str} {v : Value} (h : l.lookup k = some v) : (k, v) ∈ l := by
  induction l with
  | nil => cases h
  | cons p r ih =>
    obtain ⟨k', v'⟩ := p
    simp only [List.lookup] at h
    split at h
    · rename_i he
      cases h
      rw [eq_of_beq he]
      exact List.mem_cons_self ..
    · exact List.mem_cons_of_mem _ (ih h)

/-- C86: `try_parse_forward()` gives, for an ordinary message that asks for forwarding, an object with the message, the next
hop and what to forward. -/
theorem C86_forward (m : Message) (hm : m.WF C.f64) (next : Str) (v : Value) (h : AsksForward m next v) :
    ∃ t, JsonText t (wasmTryParseForward m) ∧ IsParsedForward C.f64 t m next v := by
  have hf := (C41_only m next v).2 h
  obtain ⟨-, ⟨l, hb, hl⟩, a, r, jws, ha, hd⟩ := h
  have hnext : validUtf8 next = true := by
    have hw := hm.body
    rw [hb] at hw
    exact mem_wf hw.2 (mem_of_lookup hl)
  have hdata := (hm.attachments _ ha a (List.mem_cons_self ..)).data
  rw [hd] at hdata
  obtain ⟨hv, hdepth, -⟩ := hdata
  have hmsg := (C72_reads_json _ _ m).1 (message_print m hm)
  obtain ⟨t1, ht1, hd1⟩ := hmsg
  have e1 : parseJson m.toJson.print = .ok t1 := (parseJson_iff _ _).2 ht1
  have hn : m.toJson.NumsOk := Message.numsOk hm
  rw [parseJson_print _ hn] at e1
  cases e1
  refine ⟨(ParsedForward.toJson m ⟨next, v⟩).tree, ?_, m.toJson.tree, (Value.str next).tree, v.tree, ?_, dMessage_sound ht1.ok hd1, ?_, ?_⟩
  · have : wasmTryParseForward m = (ParsedForward.toJson m ⟨next, v⟩).print := by
      unfold wasmTryParseForward
      rw [hf]
      rfl
    rw [this]
    refine (parseJson_iff _ _).1 (parseJson_print _ ?_)
    simp only [ParsedForward.toJson, Value.NumsOk, Value.NumsOkM, and_true, true_and]
    exact ⟨hn, hv.numsOk⟩
  · refine (asMap_iff (n := 2) (by decide) _ _).1 (asMap_tree _ 2 (by decide) ?_)
    intro k hk
    simp only [List.mem_cons, List.not_mem_nil, or_false] at hk
    rcases hk with rfl | rfl | rfl <;> (dsimp only; decide)
  · exact (decodes_str _ ((parseJson_iff _ _).1 (parseJson_print (.str next) trivial)).ok next).1 (dStr_tree hnext)
  · exact ((toValue_iff C.f64 v.tree 124 v ((parseJson_iff _ _).1 (parseJson_print v hv.numsOk)).ok (by decide)).1
      (toValue_tree v 124 hv hdepth)).1

/-- C86: for a message that does not ask for forwarding it gives `null`. -/
theorem C86_no_forward (m : Message) (h : ∀ next v, ¬ AsksForward m next v) : wasmTryParseForward m = b!"null" := by
  unfold wasmTryParseForward
  cases hf : tryParseForward m with
  | none => rfl
  | some p => exact absurd ((C41_only m p.next p.forwardedMsg).1 hf) (h _ _)

example : (forwardMessage b!"1" (.obj [(b!"a", .null)]) World.bob none).WF Toy.crypto.f64 ∧
    AsksForward (forwardMessage b!"1" (.obj [(b!"a", .null)]) World.bob none) World.bob (.obj [(b!"a", .null)]) ∧
    ∀ next v, ¬ AsksForward World.msg next v := by
  refine ⟨?_, (C41_only _ _ _).1 (C41_inverse _ _ _ _), fun next v h => ?_⟩
  · constructor <;> simp [forwardMessage, addHeaders, MessageBuilder.new,
      MessageBuilder.addAttachment, MessageBuilder.finalize, OptUtf8, Value.WF, Value.WFM, Value.depth, Value.depthM,
      SortedKeys, AttachmentBuilder.finalize, AttachmentBuilder.json, forwardMsgType, plaintextTyp, World.bob] <;>
      try decide
    constructor <;> simp [AttachmentData.WF, OptUtf8, Value.WF, Value.WFM, Value.depth, Value.depthM, SortedKeys] ; decide
  · exact absurd h.1 (by decide)

/-! ## `pack_signed` -/

/-- C86: the JavaScript `pack_signed` asks the same questions and ends the same way as `pack_signed`. -/
theorem C86_signed (m : Message) (signBy : Str) (tr : List Event) (r : Res (Str × Value)) :
    Runs (wasmPackSigned C m signBy) tr r ↔
      ∃ r', Runs (packSigned C m signBy) tr r' ∧ r = r'.map fun p => (p.1, packSignedMetadataJson p.2) := by
  unfold wasmPackSigned
  constructor
  · intro hr
    rcases runs_bind.1 hr with ⟨e, he, rfl⟩ | ⟨⟨m, md⟩, t1, t2, rfl, h1, h2⟩
    · exact ⟨_, he, rfl⟩
    · obtain ⟨rfl, rfl⟩ := runs_lift.1 h2
      exact ⟨_, by simpa using h1, rfl⟩
  · rintro ⟨r', hr, rfl⟩
    refine runs_bind.2 ?_
    cases r' with
    | error e => exact .inl ⟨e, hr, rfl⟩
    | ok p => exact .inr ⟨p, tr, [], by simp, hr, runs_lift.2 ⟨rfl, rfl⟩⟩

/-- C86: its metadata says the key that signed. -/
theorem C86_signed_metadata (kid : Str) (h : validUtf8 kid = true) :
    ∃ t, JsonText t (packSignedMetadataJson kid).print ∧ IsSignedMetadata t kid := by
  refine ⟨(packSignedMetadataJson kid).tree, (parseJson_iff _ _).1 (parseJson_print _ ?_), (Value.str kid).tree, ?_, ?_⟩
  · simp [packSignedMetadataJson, Value.NumsOk, Value.NumsOkM]
  · refine (asMap_iff (n := 2) (by decide) _ _).1 (asMap_tree _ 2 (by decide) ?_)
    intro k hk
    simp only [List.mem_cons, List.not_mem_nil, or_false] at hk
    subst hk
    dsimp only
    decide
  · exact (decodes_str _ ((parseJson_iff _ _).1 (parseJson_print (.str kid) trivial)).ok kid).1 (dStr_tree h)

example : ∃ tr p, Runs (wasmPackSigned Toy.crypto World.msg World.alice) tr (.ok p) := by
  have h : World.test World.env (wasmPackSigned Toy.crypto World.msg World.alice) (fun _ => true) = true := by decide +kernel
  obtain ⟨tr, out, h, -⟩ := World.of_test h
  exact ⟨tr, out, h⟩

/-! ## JSON values of uniffi -/

/-- C86: a text becomes a JSON value exactly if it is JSON with that meaning, nested less than 128 levels deep. -/
theorem C86_json (s : Str) (v : Value) : uniffiJson C s = .ok v ↔ ∃ t, JsonText t s ∧ MeansWithin C.f64 128 t v := by
  unfold uniffiJson
  rw [C72_reads_json]
  exact ⟨fun ⟨t, ht, h⟩ => ⟨t, ht, (decodes_value (by decide) t ht.ok v).1 h⟩,
    fun ⟨t, ht, h⟩ => ⟨t, ht, (decodes_value (by decide) t ht.ok v).2 h⟩⟩

/-- C86: an ordinary JSON value survives the way to the other language and back. -/
theorem C86_json_back (v : Value) (h : v.WF C.f64) (hd : v.depth < 128) : uniffiJson C (uniffiJsonText v) = .ok v := by
  refine (C72_reads_json _ _ v).2 ⟨v.tree, (parseJson_iff _ _).1 (parseJson_print v h.numsOk), toValue_tree v 128 h hd⟩

example : (Value.obj [(b!"a", .arr [.num (.neg 5), .str b!"\n", .null])]).WF Toy.crypto.f64 ∧
    (Value.obj [(b!"a", .arr [.num (.neg 5), .str b!"\n", .null])]).depth < 128 := by
  constructor
  · simp [Value.WF, Value.WFM, Value.WFL, SortedKeys, Num.WF]; decide
  · decide

end DIDComm
