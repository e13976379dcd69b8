import Verif.Model.Api
import Verif.Spec.Pool
import Verif.Spec.JsSystem

/-! # Vocabulary for what a call of a binding can come to -/

set_option autoImplicit false

namespace DIDComm

/-- A call of the uniffi binding can come to calling back with `x`: on some number of threads, with anything happening before it, after
it and at the same time, if the foreign side answers the questions of this call as `E`. -/
def UniffiOutcome {α : Type} (E : Env) (call : PoolAct) (x : Callback α) : Prop :=
  ∃ (n : Nat) (before after : List PoolAct) (s : List PoolTask) (place : Place) (t : Task α),
    poolRun n (before ++ call :: after) [] = some s ∧
    s[(started (before.filterMap PoolAct.forget)).length]? = some ⟨place, α, t⟩ ∧
    Faithful E (ownActs (started (before.filterMap PoolAct.forget)).length ((before ++ call :: after).filterMap PoolAct.forget)) ∧
    x ∈ t.reports

/-- The promises that operation number `i` gets when it asks a resolver are settled, if they are, with what `J` replies to the
question. -/
def JsReplies (f64 : Str → Option Str) (J : JsEnv) (first : Nat → Str) (H : List JsAct) (i : Nat) : Prop :=
  ∀ (H1 : List JsAct) (n : Nat) (H2 : List JsAct) (s : JsSystem) (α : Type) (t : JsTask α) (q : Query) (k : q.Ans → Prog α),
    H = H1 ++ .task i (.call n) :: H2 → JsSystem.run f64 H1 (.init first) = some s → s.tasks[i]? = some ⟨α, t⟩ →
    t.phase = .running (.ask q k) → ∀ x, settledWith n H = some x → J.reply q = some x

/-- A call of the JavaScript binding can come to its promise being settled with `x`: with anything happening before it, after it and at
the same time, if the objects are `objects` when it first runs and its questions are answered as by `J`. -/
def JsOutcome {α : Type} (f64 : Str → Option Str) (J : JsEnv) (call : JsAct) (objects : Nat → Str) (x : Except Str α) : Prop :=
  ∃ (first : Nat → Str) (before after : List JsAct) (s : JsSystem) (t : JsTask α) (B : List JsAct),
    JsSystem.run f64 (before ++ call :: after) (.init first) = some s ∧
    s.tasks[(jsStarted before).length]? = some ⟨α, t⟩ ∧
    beforeBegin (jsStarted before).length (before ++ call :: after) = some B ∧ (∀ o, objectAfter o (first o) B = objects o) ∧
    JsReplies f64 J first (before ++ call :: after) (jsStarted before).length ∧ x ∈ t.settled

/-- With the resolvers `E` the operation can end so that its caller is to be told `x`. -/
def CanTell {α : Type} (E : Env) (p : Prog α) : Callback α → Prop
  | .success a => MayEnd E p (.ok a)
  | .error k => MayEnd E p (.error (.kind k))

/-- The same for JavaScript, where results are shown in some way and errors have names. -/
def CanTellJs {α β : Type} (E : Env) (p : Prog α) (shown : α → β) : Except Str β → Prop
  | .ok b => ∃ a, b = shown a ∧ MayEnd E p (.ok a)
  | .error name => ∃ k, name = asJs k ∧ MayEnd E p (.error (.kind k))

/-- An application: the binding it uses, and what its resolvers answer. -/
inductive App
  | uniffi (E : Env)
  | js (J : JsEnv)

/-- The application's resolvers as the library sees them. -/
def App.env (f64 : Str → Option Str) : App → Env
  | .uniffi E => E.throughUniffi
  | .js J => J.env f64

/-- Packing by the application can come to this text and metadata. -/
def App.Packs (C : Crypto) (m : Message) (to : Str) (from_ signBy : Option Str) (opts : PackEncryptedOptions) (out : Str)
    (md : PackEncryptedMetadata) : App → Prop
  | .uniffi E => UniffiOutcome E (uniffiPackEncrypted C m to from_ signBy opts) (.success (out, md))
  | .js J => ∃ o objects, intoSerde .malformed (dPackOptions C.f64) (objects o) = .ok opts ∧
      JsOutcome C.f64 J (.packEncrypted C m to from_ signBy o) objects (.ok (out, md.toJson))

/-- Unpacking by the application comes to this message and metadata, and to nothing else. -/
def App.UnpacksAs (C : Crypto) (text : Str) (opts : UnpackOptions) (m : Message) (md : UnpackMetadata) : App → Prop
  | .uniffi E => ∀ x, UniffiOutcome E (uniffiUnpack C text opts) x ↔ x = .success (m, md)
  | .js J => ∀ o objects, intoSerde .malformed dUnpackOptions (objects o) = .ok opts →
      ∀ x, JsOutcome C.f64 J (.unpack C text o) objects x ↔ x = .ok (m, md.toJson)

end DIDComm
