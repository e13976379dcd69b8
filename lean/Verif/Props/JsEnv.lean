import Verif.Spec.JsSystem
import Verif.Props.JsApi
import Verif.Props.Bindings
import Verif.Props.SendOn

/-!
# C94: resolvers written in JavaScript

What the core sees of JavaScript resolvers, and what that means for the operations.
-/

set_option autoImplicit false

namespace DIDComm

variable {C : Crypto} {pairs : Curve → C.Key → C.Key → Prop}

/-- C94: when JavaScript resolvers say what `E` says, in any JSON, with errors by their names and ids in any order, the core sees `E`,
but for `SecretNotFound`, which it sees as `InvalidState`, and for the order of the ids and ids nobody asked for. -/
theorem C94_env {f64 : Str → Option Str} (J : JsEnv) (E : Env) (h : JsSays f64 J E) : J.env f64 = E.throughJs := by
  have err : ∀ (k : ErrorKind) (t : Thrown), NamesKind k t → fromJs t = k.throughJs := by
    rintro k t rfl
    cases k <;> decide +kernel
  have object : ∀ {α : Type} (Is : Tree → α → Prop) (read : Str → Res (Option α)) (x : Except Thrown JsValue)
      (e : Except ErrorKind (Option α)), (∀ s a, read s = .ok (some a) ↔ ∃ t, JsonText t s ∧ Is t a) →
      (∀ s, read s = .ok none ↔ JsonText .null s) → SaysObject Is x e →
      wasmObject (x.map fun v => (read v.json).toOption) = e.mapError ErrorKind.throughJs := by
    intro α Is read x e h1 h2 hs
    rcases e with k | _ | a
    · obtain ⟨t, rfl, ht⟩ := hs
      exact congrArg Except.error (err k t ht)
    · obtain ⟨v, rfl, hv⟩ := hs
      simp only [Except.map, (h2 v.json).2 hv]
      rfl
    · obtain ⟨v, t, rfl, hv, hi⟩ := hs
      simp only [Except.map, (h1 v.json a).2 ⟨t, hv, hi⟩]
      rfl
  unfold JsEnv.env Env.throughJs
  simp only [Env.mk.injEq]
  refine ⟨funext fun d => ?_, funext fun ks => ?_, funext fun k => ?_⟩
  · exact object _ (wasmDoc f64) _ _ (fun s => (C75_answers s).1) (fun s => (C75_answers s).2.1) (h.resolve d)
  · have hs := h.findSecrets ks
    cases he : E.findSecrets ks with
    | error k =>
      rw [he] at hs
      obtain ⟨t, hx, ht⟩ := hs
      rw [hx]
      exact congrArg Except.error (err k t ht)
    | ok found =>
      rw [he] at hs
      obtain ⟨v, l, hx, hl, hf⟩ := hs
      rw [hx]
      simp only [Except.map, JsValue.found, hl, wasmFindSecrets, Except.mapError, keepRequested]
      refine congrArg Except.ok (List.filter_congr fun k hk => ?_)
      rw [Bool.eq_iff_iff, decide_eq_true_iff, ← hf k hk, List.find?_isSome]
      simp
  · exact object _ (wasmSecret f64) _ _ (fun s => (C75_answers s).2.2.2.1) (fun s => (C75_answers s).2.2.2.2.1) (h.getSecret k)

/-- C94: what a JavaScript resolver says that cannot be understood is `InvalidState` for the core, never an empty answer: a value that is
neither `null` nor a document or secret, something other than an array for the ids found, or an error without one of the library's names. -/
theorem C94_nonsense {f64 : Str → Option Str} (J : JsEnv) :
    (∀ d v, J.resolve d = .ok v → ¬ JsonText .null v.json → (∀ t x, JsonText t v.json → ¬ IsDocument f64 t x) →
      (J.env f64).resolve d = .error .invalidState) ∧
    (∀ k v, J.getSecret k = .ok v → ¬ JsonText .null v.json → (∀ t x, JsonText t v.json → ¬ IsSecret f64 t x) →
      (J.env f64).getSecret k = .error .invalidState) ∧
    (∀ ks v, J.findSecrets ks = .ok v → v.elements = none → (J.env f64).findSecrets ks = .error .invalidState) ∧
    (∀ t, (∀ k, ¬ NamesKind k t) →
      (∀ d, J.resolve d = .error t → (J.env f64).resolve d = .error .invalidState) ∧
      (∀ k, J.getSecret k = .error t → (J.env f64).getSecret k = .error .invalidState) ∧
      ∀ ks, J.findSecrets ks = .error t → (J.env f64).findSecrets ks = .error .invalidState) := by
  have object : ∀ {α : Type} (Is : Tree → α → Prop) (read : Str → Res (Option α)) (v : JsValue),
      (∀ s a, read s = .ok (some a) ↔ ∃ t, JsonText t s ∧ Is t a) → (∀ s, read s = .ok none ↔ JsonText .null s) →
      ¬ JsonText .null v.json → (∀ t x, JsonText t v.json → ¬ Is t x) →
      wasmObject ((Except.ok v : Except Thrown JsValue).map fun v => (read v.json).toOption) = .error .invalidState := by
    intro α Is read v h1 h2 h3 h4
    simp only [Except.map]
    cases hr : read v.json with
    | error e => rfl
    | ok a =>
      rcases a with _ | a
      · exact absurd ((h2 _).1 hr) h3
      · obtain ⟨t, ht, hi⟩ := (h1 _ _).1 hr
        exact absurd hi (h4 t a ht)
  refine ⟨fun d v h hn ho => ?_, fun k v h hn ho => ?_, fun ks v h he => ?_, fun t ht => ?_⟩
  · simp only [JsEnv.env, h]
    exact object _ (wasmDoc f64) v (fun s => (C75_answers s).1) (fun s => (C75_answers s).2.1) hn ho
  · simp only [JsEnv.env, h]
    exact object _ (wasmSecret f64) v (fun s => (C75_answers s).2.2.2.1) (fun s => (C75_answers s).2.2.2.2.1) hn ho
  · simp only [JsEnv.env, h, Except.map, JsValue.found, he, wasmFindSecrets]
  · have hf : fromJs t = .invalidState := by
      rcases t with _ | n | _
      · rfl
      · rcases n with _ | n
        · rfl
        · have hn : ∀ k, n ≠ asJs k := by
            rintro k rfl
            exact ht k rfl
          refine (if_neg (hn .didNotResolved)).trans ((if_neg (hn .didUrlNotFound)).trans ((if_neg (hn .malformed)).trans
            ((if_neg (hn .ioError)).trans ((if_neg (hn .invalidState)).trans ((if_neg (hn .noCompatibleCrypto)).trans
            ((if_neg (hn .unsupported)).trans (if_neg (hn .illegalArgument))))))))
      · rfl
    refine ⟨fun d h => ?_, fun k h => ?_, fun ks h => ?_⟩ <;>
      simp only [JsEnv.env, h, Except.map, wasmObject, wasmFindSecrets, hf]

/-- A resolver that answers `find_secrets` with a single id instead of an array, and `resolve` with a string; errors without a name, and
`TypeError`, name no kind of the library's. -/
example : ∃ J : JsEnv, (∃ v, J.findSecrets [b!"a"] = .ok v ∧ v.elements = none) ∧
    (∃ v, J.resolve b!"d" = .ok v ∧ (J.env Toy.crypto.f64).resolve b!"d" = .error .invalidState) ∧
    (∀ k, ¬ NamesKind k (.error none)) ∧ ∀ k, ¬ NamesKind k (.error (some b!"TypeError")) := by
  refine ⟨⟨fun _ => .ok ⟨b!"\"x\"", none⟩, fun _ => .ok ⟨b!"null", none⟩, fun _ => .ok ⟨b!"\"a\"", none⟩⟩, ⟨_, rfl, rfl⟩, ⟨_, rfl, rfl⟩, ?_, ?_⟩
  · intro k h; cases h
  · intro k h
    unfold NamesKind at h
    simp only [Thrown.error.injEq, Option.some.injEq] at h
    revert h; cases k <;> decide +kernel

/-- C94: if `E` never fails with `SecretNotFound` and reports ids in the order of the question, the core sees `E` itself. -/
theorem C94_same {f64 : Str → Option Str} (J : JsEnv) (E : Env) (h : JsSays f64 J E) (hE : JsProof E) : J.env f64 = E := by
  rw [C94_env J E h]
  have key : ∀ {α : Type} (e : Except ErrorKind α), e ≠ .error .secretNotFound → e.mapError ErrorKind.throughJs = e := by
    intro α e he
    rcases e with k | a
    · cases k <;> first | rfl | exact absurd rfl he
    · rfl
  cases E with
  | mk r f g =>
    unfold Env.throughJs
    simp only [Env.mk.injEq]
    refine ⟨funext fun d => key _ (hE.resolve d), funext fun ks => ?_, funext fun k => key _ (hE.getSecret k)⟩
    rw [key _ (hE.findSecrets ks)]
    have ho := hE.order ks
    show Except.map _ (f ks) = f ks
    simp only at ho
    cases e : f ks with
    | error k => rfl
    | ok found => exact congrArg Except.ok (ho found e)

/-- C94: so the JavaScript operations end with such resolvers as the operations of the library end with `E`: with the same texts and
messages, and metadata given as JSON. -/
theorem C94_operations (J : JsEnv) (E : Env) (h : JsSays C.f64 J E) (hE : JsProof E) :
    (∀ msg text o, intoSerde .malformed dUnpackOptions text = .ok o → ∀ r, MayEnd (J.env C.f64) (wasmUnpack C msg text) r ↔
      ∃ r', MayEnd E (unpack C msg o) r' ∧ r = r'.map fun p => (p.1, p.2.toJson)) ∧
    (∀ m to from_ signBy text o, intoSerde .malformed (dPackOptions C.f64) text = .ok o →
      ∀ r, MayEnd (J.env C.f64) (wasmPackEncrypted C m to from_ signBy text) r ↔
      ∃ r', MayEnd E (packEncrypted C m to from_ signBy o) r' ∧ r = r'.map fun p => (p.1, p.2.toJson)) ∧
    (∀ m signBy r, MayEnd (J.env C.f64) (wasmPackSigned C m signBy) r ↔
      ∃ r', MayEnd E (packSigned C m signBy) r' ∧ r = r'.map fun p => (p.1, packSignedMetadataJson p.2)) ∧
    (∀ m r, MayEnd (J.env C.f64) (packPlaintext C m) r ↔ MayEnd E (packPlaintext C m) r) ∧
    (∀ f kid r, MayEnd (J.env C.f64) (FromPrior.pack C f kid) r ↔ MayEnd E (FromPrior.pack C f kid) r) ∧
    (∀ jwt r, MayEnd (J.env C.f64) (FromPrior.unpack C jwt) r ↔ MayEnd E (FromPrior.unpack C jwt) r) := by
  rw [C94_same J E h hE]
  refine ⟨fun msg text o ho r => ?_, fun m to from_ signBy text o ho r => ?_, fun m signBy r => ?_, fun m r => Iff.rfl,
    fun f kid r => Iff.rfl, fun jwt r => Iff.rfl⟩
  · constructor
    · rintro ⟨tr, ha, hr⟩
      obtain ⟨r', h1, h2⟩ := (C69_unpack C msg text o ho tr r).1 hr
      exact ⟨r', ⟨tr, ha, h1⟩, h2⟩
    · rintro ⟨r', ⟨tr, ha, h1⟩, h2⟩
      exact ⟨tr, ha, (C69_unpack C msg text o ho tr r).2 ⟨r', h1, h2⟩⟩
  · constructor
    · rintro ⟨tr, ha, hr⟩
      obtain ⟨r', h1, h2⟩ := (C69_pack_encrypted C m to from_ signBy text o ho tr r).1 hr
      exact ⟨r', ⟨tr, ha, h1⟩, h2⟩
    · rintro ⟨r', ⟨tr, ha, h1⟩, h2⟩
      exact ⟨tr, ha, (C69_pack_encrypted C m to from_ signBy text o ho tr r).2 ⟨r', h1, h2⟩⟩
  · constructor
    · rintro ⟨tr, ha, hr⟩
      obtain ⟨r', h1, h2⟩ := (C86_signed m signBy tr r).1 hr
      exact ⟨r', ⟨tr, ha, h1⟩, h2⟩
    · rintro ⟨r', ⟨tr, ha, h1⟩, h2⟩
      exact ⟨tr, ha, (C86_signed m signBy tr r).2 ⟨r', h1, h2⟩⟩

/-- C94: from a JavaScript object to a JavaScript object.  An object that says a message is made a message, encrypted in any way by one
application and unpacked by another, whose resolvers are JavaScript on both sides; the message that arrives is the one the object
said, and the plain object made of it says it again.  Conditions as for C03–C06. -/
theorem C94_roundTrip (hf : PrintsFloats C) (s : Str) (m : Message) (hm : wasmMessageNew C s = .ok m)
    (ht : m.typ = b!"application/didcomm-plain+json") (hb : ReadBack C.f64 m.doubles) (J J' : JsEnv) (E E' : Env)
    (hJ : JsSays C.f64 J E) (hJ' : JsSays C.f64 J' E') (hE : JsProof E) (hE' : JsProof E') (law : C.Lawful pairs) (hs : SeesDocsOf E' E)
    (to : Str) (from_ signBy : Option Str) (text utext : Str) (opts : PackEncryptedOptions) (uopts : UnpackOptions)
    (ho : intoSerde .malformed (dPackOptions C.f64) text = .ok opts) (huo : intoSerde .malformed dUnpackOptions utext = .ok uopts)
    (hn : signBy = none → NotEnvelope m) (hu : from_ = none → signBy = none → NotUnwrapped uopts.unwrapReWrappingForward m)
    (hwire : WireParty E (didOf to)) (hw : ∀ d, from_ = some d ∨ signBy = some d → WireParty E (didOf d) ∧ KeysFit C pairs E (didOf d))
    (out : Str) (mdv : Value) (h : MayEnd (J.env C.f64) (wasmPackEncrypted C m to from_ signBy text) (.ok (out, mdv))) :
    ∃ md, mdv = PackEncryptedMetadata.toJson md ∧ (md.messagingService = none → Opens C pairs E' E (didOf to) md.toKids →
      (∃ t, JsonText t s ∧ IsMessage C.f64 t m) ∧ (∃ t, JsonText t (wasmMessageValue m) ∧ IsMessage C.f64 t m) ∧
      ∃ md', Returns (J'.env C.f64) (wasmUnpack C out utext) (m, UnpackMetadata.toJson md') ∧
        md'.encrypted = true ∧ md'.authenticated = (from_.isSome || signBy.isSome) ∧ md'.nonRepudiation = signBy.isSome ∧
        md'.encryptedFromKid = md.fromKid ∧ md'.encryptedToKids = some md.toKids ∧ md'.signFrom = md.signByKid) := by
  obtain ⟨t, htext, him⟩ := C86_message s m hm
  have hwf := isMessage_wf hf htext.texts him hb
  rw [C94_same J E hJ hE] at h
  obtain ⟨tr, ha, hr⟩ := h
  obtain ⟨r', h1, h2⟩ := (C69_pack_encrypted C m to from_ signBy text opts ho tr _).1 hr
  rcases r' with e | ⟨out', md⟩
  · cases h2
  · simp only [Except.map, Except.ok.injEq, Prod.mk.injEq] at h2
    obtain ⟨rfl, rfl⟩ := h2
    have hh : HonestSecrets E := by
      intro ks found hk k hkm
      have := hE.order ks found hk
      rw [← this] at hkm
      exact (List.mem_filter.1 hkm).1
    refine ⟨md, rfl, fun hmd hopen => ⟨⟨t, htext, him⟩, (C86_value m hwf).1, ?_⟩⟩
    obtain ⟨fp, k, alg, jws, md', -, -, ⟨⟨tr', ha', hr'⟩, hall⟩, rfl⟩ := encrypted_roundTrip m hwf ht E E' law hs hh to from_ signBy opts uopts tr out md hn hu hwire hopen
      hw ha h1 hmd
    refine ⟨_, ⟨⟨tr', by rw [C94_same J' E' hJ' hE']; exact ha', (C69_unpack C out utext uopts huo tr' _).2 ⟨_, hr', rfl⟩⟩, ?_⟩, rfl, rfl,
      rfl, rfl, rfl, rfl⟩
    intro tr2 r2 ha2 hr2
    rw [C94_same J' E' hJ' hE'] at ha2
    obtain ⟨r3, h3, rfl⟩ := (C69_unpack C out utext uopts huo tr2 r2).1 hr2
    rw [hall tr2 r3 ha2 h3]
    rfl

/-! ## Examples -/

/-- The JSON of a document. -/
def World.docText (d : DIDDoc) : Str := (d.toJson.map Value.print).getD []

/-- JavaScript resolvers with these documents and secrets.  `find_secrets` answers with all the ids it has, asked for or
not, in another order, and with a value that is no string. -/
def World.jsEnv (docs : List DIDDoc) (secrets : List Secret) : JsEnv where
  resolve d := .ok ⟨match exampleResolve docs d with
    | some doc => World.docText doc
    | none => b!" null ", none⟩
  getSecret k := .ok ⟨match exampleGetSecret secrets k with
    | some x => x.toJson.print
    | none => b!"null", none⟩
  findSecrets _ := .ok ⟨b!"", some (none :: (secrets.map fun x => some x.id).reverse)⟩

theorem World.jsSays (docs : List DIDDoc) (secrets : List Secret)
    (hd : ∀ d ∈ docs, wasmDoc Toy.crypto.f64 (World.docText d) = .ok (some d))
    (hs : ∀ x ∈ secrets, wasmSecret Toy.crypto.f64 x.toJson.print = .ok (some x)) :
    JsSays Toy.crypto.f64 (World.jsEnv docs secrets) (World.envOf docs secrets) := by
  refine ⟨fun d => ?_, fun k => ?_, fun ks => ?_⟩
  · cases h : exampleResolve docs d with
    | none =>
      simp only [World.envOf, World.jsEnv, h]
      exact ⟨_, rfl, (C75_answers (f64 := Toy.crypto.f64) _).2.1.1 rfl⟩
    | some doc =>
      simp only [World.envOf, World.jsEnv, h]
      have hm : doc ∈ docs := List.mem_of_find?_eq_some h
      obtain ⟨t, h1, h2⟩ := ((C75_answers _).1 doc).1 (hd doc hm)
      exact ⟨_, t, rfl, h1, h2⟩
  · cases h : exampleGetSecret secrets k with
    | none =>
      simp only [World.envOf, World.jsEnv, h]
      exact ⟨_, rfl, (C75_answers (f64 := Toy.crypto.f64) _).2.2.2.2.1.1 rfl⟩
    | some x =>
      simp only [World.envOf, World.jsEnv, h]
      have hm : x ∈ secrets := List.mem_of_find?_eq_some h
      obtain ⟨t, h1, h2⟩ := ((C75_answers _).2.2.2.1 x).1 (hs x hm)
      exact ⟨_, t, rfl, h1, h2⟩
  · refine ⟨_, _, rfl, rfl, fun k hk => ?_⟩
    simp only [exampleFindSecrets, List.mem_filter, hk, true_and, List.find?_isSome, beq_iff_eq]
    simp

set_option maxRecDepth 100000 in
theorem World.jsSays_all (secrets : List Secret) (h : ∀ x ∈ secrets, x ∈ World.secrets) :
    JsSays Toy.crypto.f64 (World.jsEnv [World.aliceDoc, World.bobDoc, World.mediatorDoc] secrets)
      (World.envOf [World.aliceDoc, World.bobDoc, World.mediatorDoc] secrets) := by
  refine World.jsSays _ _ (fun d hd => ?_) (fun x hx => ?_)
  · simp only [List.mem_cons, List.not_mem_nil, or_false] at hd
    rcases hd with rfl | rfl | rfl <;> rfl
  · have hx := h x hx
    simp only [World.secrets, List.mem_cons, List.not_mem_nil, or_false] at hx
    rcases hx with rfl | rfl | rfl | rfl | rfl | rfl | rfl | rfl | rfl <;> rfl

theorem World.jsProof (docs : List DIDDoc) (secrets : List Secret) : JsProof (World.envOf docs secrets) := by
  refine ⟨fun d h => (by cases h), fun d h => (by cases h), fun d h => (by cases h), fun ks found h => ?_⟩
  cases h
  unfold exampleFindSecrets
  apply List.filter_congr
  intro k hk
  rw [Bool.eq_iff_iff, decide_eq_true_iff, List.mem_filter]
  exact ⟨fun h => h.2, fun h => ⟨hk, h⟩⟩

/-- C94_env, C94_same and C94_operations: the resolvers of the example world, in JavaScript. -/
example : JsSays Toy.crypto.f64 (World.jsEnv [World.aliceDoc, World.bobDoc, World.mediatorDoc] World.secrets) World.env ∧ JsProof World.env :=
  ⟨World.jsSays_all _ fun _ h => h, World.jsProof _ _⟩

/-- The object Alice's application makes a message of. -/
def World.jsObject : Str :=
  b!"{ \"to\":[\"did:example:bob\"], \"from\":\"did:example:alice\", \"body\":{\"k\":\"v\\n\"}, \"x-h\":true, \"id\":\"1\", \"type\":\"t\" }"

set_option maxRecDepth 100000 in
/-- C94_roundTrip: Alice's application packs for Bob, with authenticated encryption. -/
example : ∃ out mdv, wasmMessageNew Toy.crypto World.jsObject = .ok World.msg ∧ ReadBack Toy.crypto.f64 World.msg.doubles ∧
    intoSerde .malformed (dPackOptions Toy.crypto.f64) b!"{\"forward\":false}" = .ok { forward := false } ∧
    intoSerde .malformed dUnpackOptions b!"{}" = .ok ⟨false, false⟩ ∧
    MayEnd ((World.jsEnv [World.aliceDoc, World.bobDoc, World.mediatorDoc] (World.secrets.take 5)).env Toy.crypto.f64)
      (wasmPackEncrypted Toy.crypto World.msg World.bob (some World.alice) none b!"{\"forward\":false}") (.ok (out, mdv)) ∧
    JsSays Toy.crypto.f64 (World.jsEnv [World.aliceDoc, World.bobDoc, World.mediatorDoc] (World.secrets.take 5)) World.aliceEnv ∧
    JsSays Toy.crypto.f64 (World.jsEnv [World.aliceDoc, World.bobDoc, World.mediatorDoc] ((World.secrets.drop 5).take 3)) World.bobEnv ∧
    SeesDocsOf World.bobEnv World.aliceEnv ∧ Toy.crypto.Lawful Toy.pairs ∧ WireParty World.aliceEnv (didOf World.alice) ∧
    KeysFit Toy.crypto Toy.pairs World.aliceEnv (didOf World.alice) ∧ WireParty World.aliceEnv (didOf World.bob) ∧ NotEnvelope World.msg := by
  have h1 := World.jsSays_all (World.secrets.take 5) fun _ h => List.mem_of_mem_take h
  have h2 := World.jsSays_all ((World.secrets.drop 5).take 3) fun _ h => List.mem_of_mem_drop (List.mem_of_mem_take h)
  have h : World.test World.aliceEnv (wasmPackEncrypted Toy.crypto World.msg World.bob (some World.alice) none b!"{\"forward\":false}")
      (fun _ => true) = true := by decide +kernel
  obtain ⟨tr, ⟨out, mdv⟩, hr, ha, -⟩ := World.of_test h
  refine ⟨out, mdv, rfl, by unfold ReadBack; decide, rfl, rfl, ⟨tr, ?_, hr⟩, h1, h2, World.bob_sees, Toy.lawful, World.wire_alice,
    World.fit_alice, World.wire_bob, World.msg_notEnvelope⟩
  rw [C94_same _ _ h1 (World.jsProof _ _)]
  exact ha

set_option maxRecDepth 100000 in
/-- C94: `SecretNotFound` is lost on the way.  JavaScript resolvers that say what `E` says, and throw `DIDCommSecretNotFound` where `E`
fails with `SecretNotFound`: signing then ends with `InvalidState` where it ends with `SecretNotFound` in Rust. -/
theorem C94_lost : ∃ (J : JsEnv) (E : Env) (m : Message) (signBy : Str), JsSays Toy.crypto.f64 J E ∧
    MayEnd E (packSigned Toy.crypto m signBy) (.error (.kind .secretNotFound)) ∧
    MayEnd (J.env Toy.crypto.f64) (wasmPackSigned Toy.crypto m signBy) (.error (.kind .invalidState)) := by
  have hall := World.jsSays_all World.secrets fun _ h => h
  let E : Env := { World.env with getSecret := fun _ => .error .secretNotFound }
  let J : JsEnv := { World.jsEnv [World.aliceDoc, World.bobDoc, World.mediatorDoc] World.secrets with
    getSecret := fun _ => .error (.error (some b!"DIDCommSecretNotFound")) }
  have hs : JsSays Toy.crypto.f64 J E := ⟨hall.resolve, fun k => ⟨_, rfl, rfl⟩, hall.findSecrets⟩
  refine ⟨J, E, World.msg, World.alice, hs, ?_, ?_⟩
  · have h : World.testError E (packSigned Toy.crypto World.msg World.alice) (.kind .secretNotFound) = true := by decide +kernel
    obtain ⟨tr, h1, h2⟩ := World.of_testError h
    exact ⟨tr, h2, h1⟩
  · rw [C94_env J E hs]
    have h : World.testError E.throughJs (wasmPackSigned Toy.crypto World.msg World.alice) (.kind .invalidState) = true := by decide +kernel
    obtain ⟨tr, h1, h2⟩ := World.of_testError h
    exact ⟨tr, h2, h1⟩

end DIDComm
