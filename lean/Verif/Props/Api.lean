import Verif.Proofs.Api
import Verif.Props.JsEnv
import Verif.Props.JsApi

/-!
# C100: the operations of both bindings are those of the library, end to end

Whatever happens before, after and at the same time, on however many threads.
-/

set_option autoImplicit false

namespace DIDComm

variable {C : Crypto} {pairs : Curve → C.Key → C.Key → Prop}

theorem uniffi_tells {α : Type} {E : Env} {p : Prog α} {x : Callback α} : UniffiOutcome E (.start p) x ↔ CanTell E.throughUniffi p x := by
  rw [uniffiOutcome_iff]
  constructor
  · rintro ⟨r, h, hx⟩
    rcases r with (k | _ | _) | a
    · cases List.mem_singleton.1 hx; exact h
    · cases hx
    · cases hx
    · cases List.mem_singleton.1 hx; exact h
  · intro h
    cases x with
    | success a => exact ⟨.ok a, h, List.mem_singleton.2 rfl⟩
    | error k => exact ⟨.error (.kind k), h, List.mem_singleton.2 rfl⟩

theorem js_tells {α β : Type} {E : Env} {p : Prog α} {p' : Prog β} {shown : α → β}
    (hp : ∀ tr r, Runs p' tr r ↔ ∃ r', Runs p tr r' ∧ r = r'.map shown) (x : Except Str β) :
    (∃ r, MayEnd E p' r ∧ x ∈ wasmReport r) ↔ CanTellJs E p shown x := by
  constructor
  · rintro ⟨r, ⟨tr, ha, h⟩, hx⟩
    obtain ⟨r', h', rfl⟩ := (hp tr r).1 h
    rcases r' with (k | _ | _) | a
    · cases List.mem_singleton.1 hx; exact ⟨k, rfl, tr, ha, h'⟩
    · cases hx
    · cases hx
    · cases List.mem_singleton.1 hx; exact ⟨a, rfl, tr, ha, h'⟩
  · intro h
    cases x with
    | ok b =>
      obtain ⟨a, rfl, tr, ha, h⟩ := h
      exact ⟨.ok (shown a), ⟨tr, ha, (hp tr _).2 ⟨_, h, rfl⟩⟩, List.mem_singleton.2 rfl⟩
    | error n =>
      obtain ⟨k, rfl, tr, ha, h⟩ := h
      exact ⟨.error (.kind k), ⟨tr, ha, (hp tr _).2 ⟨_, h, rfl⟩⟩, List.mem_singleton.2 rfl⟩

theorem shown_id {α : Type} (p : Prog α) (tr : List Event) (r : Res α) : Runs p tr r ↔ ∃ r', Runs p tr r' ∧ r = r'.map id := by
  have e : ∀ x : Res α, x.map id = x := by intro x; cases x <;> rfl
  simp only [e, exists_eq_right']

/-- C100: what the seven calls of the uniffi binding can come to, on any number of threads, with anything else going on, is what the
operation of the library can come to with the same arguments and with the foreign resolvers as it sees them: no more and no less. -/
theorem C100_uniffi (E : Env) :
    (∀ m x, UniffiOutcome E (uniffiPackPlaintext C m) x ↔ CanTell E.throughUniffi (packPlaintext C m) x) ∧
    (∀ m signBy x, UniffiOutcome E (uniffiPackSigned C m signBy) x ↔ CanTell E.throughUniffi (packSigned C m signBy) x) ∧
    (∀ m to from_ signBy opts x, UniffiOutcome E (uniffiPackEncrypted C m to from_ signBy opts) x ↔
      CanTell E.throughUniffi (packEncrypted C m to from_ signBy opts) x) ∧
    (∀ text opts x, UniffiOutcome E (uniffiUnpack C text opts) x ↔ CanTell E.throughUniffi (unpack C text opts) x) ∧
    (∀ f kid x, UniffiOutcome E (uniffiPackFromPrior C f kid) x ↔ CanTell E.throughUniffi (f.pack C kid) x) ∧
    (∀ jwt x, UniffiOutcome E (uniffiUnpackFromPrior C jwt) x ↔ CanTell E.throughUniffi (FromPrior.unpack C jwt) x) ∧
    (∀ text headers to keys alg x, UniffiOutcome E (uniffiWrapInForward C text headers to keys alg) x ↔
      CanTell E.throughUniffi (wrapInForward C text (some headers) to keys alg) x) :=
  ⟨fun _ _ => uniffi_tells, fun _ _ _ => uniffi_tells, fun _ _ _ _ _ _ => uniffi_tells, fun _ _ _ => uniffi_tells, fun _ _ _ => uniffi_tells,
    fun _ _ => uniffi_tells, fun _ _ _ _ _ _ => uniffi_tells⟩

/-- C100: what the seven calls of the JavaScript binding can come to, with anything else going on, is what the operation of the library
can come to with the same arguments, with what the objects say when the operation first runs, and with the resolvers as it sees
them: no more and no less. -/
theorem C100_js (J : JsEnv) (objects : Nat → Str) :
    (∀ m x, JsOutcome C.f64 J (jsPackPlaintext C m) objects x ↔ CanTellJs (J.env C.f64) (packPlaintext C m) id x) ∧
    (∀ m signBy x, JsOutcome C.f64 J (jsPackSigned C m signBy) objects x ↔
      CanTellJs (J.env C.f64) (packSigned C m signBy) (fun p => (p.1, packSignedMetadataJson p.2)) x) ∧
    (∀ m to from_ signBy o opts x, intoSerde .malformed (dPackOptions C.f64) (objects o) = .ok opts →
      (JsOutcome C.f64 J (.packEncrypted C m to from_ signBy o) objects x ↔
        CanTellJs (J.env C.f64) (packEncrypted C m to from_ signBy opts) (fun p => (p.1, p.2.toJson)) x)) ∧
    (∀ text o opts x, intoSerde .malformed dUnpackOptions (objects o) = .ok opts →
      (JsOutcome C.f64 J (.unpack C text o) objects x ↔ CanTellJs (J.env C.f64) (unpack C text opts) (fun p => (p.1, p.2.toJson)) x)) ∧
    (∀ f kid x, JsOutcome C.f64 J (jsPackFromPrior C f kid) objects x ↔ CanTellJs (J.env C.f64) (f.pack C kid) id x) ∧
    (∀ jwt x, JsOutcome C.f64 J (jsUnpackFromPrior C jwt) objects x ↔ CanTellJs (J.env C.f64) (FromPrior.unpack C jwt) id x) ∧
    (∀ text to h k a headers keys alg x, intoSerde .malformed (dHeaders C.f64) (objects h) = .ok headers →
      intoSerde .malformed (dVec (fun _ => dStr)) (objects k) = .ok keys → intoSerde .malformed (dUnit anonAlgNames) (objects a) = .ok alg →
      (JsOutcome C.f64 J (.wrapInForward C text to h k a) objects x ↔
        CanTellJs (J.env C.f64) (wrapInForward C text (some headers) to keys alg) id x)) := by
  refine ⟨fun m x => jsOutcome_iff.trans (js_tells (shown_id _) x), fun m s x => jsOutcome_iff.trans (js_tells (C86_signed m s) x),
    fun m to f s o opts x h => jsOutcome_iff.trans (js_tells (C69_pack_encrypted C m to f s _ opts h) x),
    fun t o opts x h => jsOutcome_iff.trans (js_tells (C69_unpack C t _ opts h) x), fun f k x => jsOutcome_iff.trans (js_tells (shown_id _) x),
    fun jwt x => jsOutcome_iff.trans (js_tells (shown_id _) x), fun text to h k a headers keys alg x e1 e2 e3 => jsOutcome_iff.trans ?_⟩
  have e : wasmWrapInForward C text (objects h) to (objects k) (objects a) = wrapInForward C text (some headers) to keys alg := by
    unfold wasmWrapInForward
    rw [e1, e2, e3]
    rfl
  show (∃ r, MayEnd (J.env C.f64) (wasmWrapInForward C text (objects h) to (objects k) (objects a)) r ∧ x ∈ wasmReport r) ↔ _
  rw [e]
  exact js_tells (shown_id _) x

/-- C100: an object that does not say what it should makes the promise be rejected as malformed, and nothing else. -/
theorem C100_js_bad (J : JsEnv) (objects : Nat → Str) :
    (∀ m to from_ signBy o, (∀ opts, intoSerde .malformed (dPackOptions C.f64) (objects o) ≠ .ok opts) →
      ∀ x : Except Str (Str × Value), JsOutcome C.f64 J (.packEncrypted C m to from_ signBy o) objects x ↔ x = .error b!"DIDCommMalformed") ∧
    (∀ text o, (∀ opts, intoSerde .malformed dUnpackOptions (objects o) ≠ .ok opts) →
      ∀ x : Except Str (Message × Value), JsOutcome C.f64 J (.unpack C text o) objects x ↔ x = .error b!"DIDCommMalformed") ∧
    (∀ text to h k a, ((∀ l, intoSerde .malformed (dHeaders C.f64) (objects h) ≠ .ok l) ∨
        (∀ l, intoSerde .malformed (dVec (fun _ => dStr)) (objects k) ≠ .ok l) ∨ ∀ alg, intoSerde .malformed (dUnit anonAlgNames) (objects a) ≠ .ok alg) →
      ∀ x : Except Str Str, JsOutcome C.f64 J (.wrapInForward C text to h k a) objects x ↔ x = .error b!"DIDCommMalformed") := by
  have key : ∀ {β : Type} (x : Except Str β), (∃ r, MayEnd (J.env C.f64) (.ret (.error (.kind .malformed)) : Prog β) r ∧ x ∈ wasmReport r) ↔
      x = .error b!"DIDCommMalformed" := by
    intro β x
    constructor
    · rintro ⟨r, ⟨tr, -, hr⟩, hx⟩
      cases hr
      exact List.mem_singleton.1 hx
    · rintro rfl
      exact ⟨_, ⟨[], (by intro ev h; cases h), .ret _⟩, List.mem_singleton.2 rfl⟩
  refine ⟨fun m to f s o h x => jsOutcome_iff.trans ?_, fun t o h x => jsOutcome_iff.trans ?_, fun text to h k a hb x => jsOutcome_iff.trans ?_⟩
  · have e : wasmPackEncrypted C m to f s (objects o) = .ret (.error (.kind .malformed)) := by
      rcases C69_read .malformed (dPackOptions C.f64) (objects o) with ⟨opts, ho⟩ | he
      · exact absurd ho (h opts)
      · unfold wasmPackEncrypted; rw [he]; rfl
    show (∃ r, MayEnd (J.env C.f64) (wasmPackEncrypted C m to f s (objects o)) r ∧ x ∈ wasmReport r) ↔ _
    rw [e]
    exact key x
  · have e : wasmUnpack C t (objects o) = .ret (.error (.kind .malformed)) := by
      rcases C69_read .malformed dUnpackOptions (objects o) with ⟨opts, ho⟩ | he
      · exact absurd ho (h opts)
      · unfold wasmUnpack; rw [he]; rfl
    show (∃ r, MayEnd (J.env C.f64) (wasmUnpack C t (objects o)) r ∧ x ∈ wasmReport r) ↔ _
    rw [e]
    exact key x
  · have e : wasmWrapInForward C text (objects h) to (objects k) (objects a) = .ret (.error (.kind .malformed)) := by
      unfold wasmWrapInForward
      rcases C69_read .malformed (dHeaders C.f64) (objects h) with ⟨l1, h1⟩ | h1
      · rcases C69_read .malformed (dVec (fun _ => dStr)) (objects k) with ⟨l2, h2⟩ | h2
        · rcases C69_read .malformed (dUnit anonAlgNames) (objects a) with ⟨l3, h3⟩ | h3
          · rcases hb with hb | hb | hb
            · exact absurd h1 (hb _)
            · exact absurd h2 (hb _)
            · exact absurd h3 (hb _)
          · rw [h1, h2, h3]; rfl
        · rw [h1, h2]; rfl
      · rw [h1]; rfl
    show (∃ r, MayEnd (J.env C.f64) (wasmWrapInForward C text (objects h) to (objects k) (objects a)) r ∧ x ∈ wasmReport r) ↔ _
    rw [e]
    exact key x

theorem PackEncryptedMetadata.toJson_inj {md md' : PackEncryptedMetadata} (h : md.toJson = md'.toJson) : md = md' := by
  have o : ∀ x y : Option Str, orNull Value.str x = orNull Value.str y → x = y := by
    intro x y h
    cases x <;> cases y <;> simp_all [orNull]
  have l : ∀ x y : List Str, x.map Value.str = y.map Value.str → x = y := by
    intro x
    induction x with
    | nil => intro y h; cases y <;> simp_all
    | cons a r ih =>
      intro y h
      cases y with
      | nil => cases h
      | cons b t =>
        simp only [List.map_cons, List.cons.injEq, Value.str.injEq] at h
        rw [h.1, ih _ h.2]
  have s : ∀ x y : Option MessagingServiceMetadata, orNull MessagingServiceMetadata.toJson x = orNull MessagingServiceMetadata.toJson y → x = y := by
    intro x y h
    cases x <;> cases y <;> simp_all [orNull, MessagingServiceMetadata.toJson]
    rename_i a b
    cases a; cases b; simp_all
  cases md
  cases md'
  simp only [PackEncryptedMetadata.toJson, Value.obj.injEq, List.cons.injEq, Prod.mk.injEq, true_and, and_true, Value.arr.injEq] at h
  obtain ⟨h1, h2, h3, h4⟩ := h
  rw [PackEncryptedMetadata.mk.injEq]
  refine ⟨s _ _ h1, ?_⟩
  first
    | exact ⟨o _ _ h2, o _ _ h3, l _ _ h4⟩
    | exact ⟨l _ _ h4, o _ _ h2, o _ _ h3⟩

theorem App.env_honest (f64 : Str → Option Str) (A : App) : HonestSecrets (A.env f64) := by
  intro ks found h k hk
  cases A with
  | uniffi E =>
    simp only [App.env, Env.throughUniffi] at h
    cases e : blurred (E.findSecrets ks) with
    | error _ => rw [e] at h; cases h
    | ok l =>
      rw [e] at h
      cases h
      exact (List.mem_filter.1 hk).1
  | js J =>
    simp only [App.env, JsEnv.env] at h
    cases e : (J.findSecrets ks).map JsValue.found with
    | error _ => rw [e] at h; cases h
    | ok f =>
      rw [e] at h
      cases f with
      | other => cases h
      | array l =>
        simp only [wasmFindSecrets, Except.ok.injEq] at h
        subst h
        rw [keepRequested_eq] at hk
        exact (List.mem_filter.1 hk).1

theorem App.packs_ends {A : App} {m : Message} {to : Str} {from_ signBy : Option Str} {opts : PackEncryptedOptions} {out : Str}
    {md : PackEncryptedMetadata} (h : A.Packs C m to from_ signBy opts out md) :
    MayEnd (A.env C.f64) (packEncrypted C m to from_ signBy opts) (.ok (out, md)) := by
  cases A with
  | uniffi E => exact ((C100_uniffi E).2.2.1 m to from_ signBy opts _).1 h
  | js J =>
    obtain ⟨o, objects, ho, h⟩ := h
    obtain ⟨⟨out', md0⟩, e, h⟩ := ((C100_js J objects).2.2.1 m to from_ signBy o opts _ ho).1 h
    rw [Prod.mk.injEq] at e
    obtain ⟨rfl, e⟩ := e
    rw [PackEncryptedMetadata.toJson_inj e]
    exact h

theorem App.unpacksAs {B : App} {text : Str} {uopts : UnpackOptions} {m : Message} {md : UnpackMetadata}
    (h : Returns (B.env C.f64) (unpack C text uopts) (m, md)) : B.UnpacksAs C text uopts m md := by
  obtain ⟨⟨tr', ha', hr'⟩, hall⟩ := h
  cases B with
  | uniffi E =>
    intro x
    rw [(C100_uniffi E).2.2.2.1 text uopts x]
    constructor
    · intro hx
      cases x with
      | success a =>
        obtain ⟨t2, a2, r2⟩ := hx
        have := hall t2 _ a2 r2
        cases this
        rfl
      | error k =>
        obtain ⟨t2, a2, r2⟩ := hx
        have := hall t2 _ a2 r2
        cases this
    · rintro rfl
      exact ⟨tr', ha', hr'⟩
  | js J =>
    intro o objects ho x
    rw [(C100_js J objects).2.2.2.1 text o uopts x ho]
    constructor
    · intro hx
      cases x with
      | ok b =>
        obtain ⟨a, rfl, t2, a2, r2⟩ := hx
        have := hall t2 _ a2 r2
        cases this
        rfl
      | error n =>
        obtain ⟨k, rfl, t2, a2, r2⟩ := hx
        have := hall t2 _ a2 r2
        cases this
    · rintro rfl
      exact ⟨_, rfl, tr', ha', hr'⟩

/-- C100: from application to application.  Whatever bindings the two use, whatever else is going on on both sides: what packing came to on
one side, unpacking on the other side comes to the message packed, with metadata that tell how it was packed, and to nothing else.
Conditions as for C03–C06. -/
theorem C100_between (A B : App) (law : C.Lawful pairs) (hs : SeesDocsOf (B.env C.f64) (A.env C.f64)) (m : Message) (hwf : m.WF C.f64)
    (ht : m.typ = b!"application/didcomm-plain+json") (to : Str) (from_ signBy : Option Str) (opts : PackEncryptedOptions)
    (uopts : UnpackOptions) (hn : signBy = none → NotEnvelope m)
    (hu : from_ = none → signBy = none → NotUnwrapped uopts.unwrapReWrappingForward m) (hwire : WireParty (A.env C.f64) (didOf to))
    (hw : ∀ d, from_ = some d ∨ signBy = some d → WireParty (A.env C.f64) (didOf d) ∧ KeysFit C pairs (A.env C.f64) (didOf d))
    (out : Str) (md : PackEncryptedMetadata) (h : A.Packs C m to from_ signBy opts out md) (hmd : md.messagingService = none)
    (hopen : Opens C pairs (B.env C.f64) (A.env C.f64) (didOf to) md.toKids) :
    ∃ md', B.UnpacksAs C out uopts m md' ∧
      md'.encrypted = true ∧ md'.authenticated = (from_.isSome || signBy.isSome) ∧ md'.nonRepudiation = signBy.isSome ∧
      md'.encryptedFromKid = md.fromKid ∧ md'.encryptedToKids = some md.toKids ∧ md'.signFrom = md.signByKid := by
  obtain ⟨tr, ha, hr⟩ := App.packs_ends h
  obtain ⟨fp, k, alg, jws, md', -, -, hret, hmd'⟩ := encrypted_roundTrip m hwf ht (A.env C.f64) (B.env C.f64) law hs
    (App.env_honest C.f64 A) to from_ signBy opts uopts tr out md hn hu hwire hopen hw ha hr hmd
  exact ⟨md', App.unpacksAs hret, by rw [hmd'], by rw [hmd'], by rw [hmd'], by rw [hmd'], by rw [hmd'], by rw [hmd']⟩

/-! ## Examples -/

/-- Alice's application, and Bob's, through either binding. -/
def World.aliceApps : List App :=
  [.uniffi World.aliceEnv, .js (World.jsEnv [World.aliceDoc, World.bobDoc, World.mediatorDoc] (World.secrets.take 5))]

def World.bobApps : List App :=
  [.uniffi World.bobEnv, .js (World.jsEnv [World.aliceDoc, World.bobDoc, World.mediatorDoc] ((World.secrets.drop 5).take 3))]

theorem World.aliceApps_env : ∀ A ∈ World.aliceApps, A.env Toy.crypto.f64 = World.aliceEnv := by
  intro A h
  simp only [World.aliceApps, List.mem_cons, List.not_mem_nil, or_false] at h
  rcases h with rfl | rfl
  · exact throughUniffi_envOf _ _
  · exact C94_same _ _ (World.jsSays_all (World.secrets.take 5) fun _ h => List.mem_of_mem_take h) (World.jsProof _ _)

theorem World.bobApps_env : ∀ B ∈ World.bobApps, B.env Toy.crypto.f64 = World.bobEnv := by
  intro A h
  simp only [World.bobApps, List.mem_cons, List.not_mem_nil, or_false] at h
  rcases h with rfl | rfl
  · exact throughUniffi_envOf _ _
  · exact C94_same _ _ (World.jsSays_all ((World.secrets.drop 5).take 3) fun _ h => List.mem_of_mem_drop (List.mem_of_mem_take h)) (World.jsProof _ _)

set_option maxRecDepth 100000 in
/-- C100_between, C100_uniffi and C100_js: Alice packs through either binding, with authenticated encryption, and Bob unpacks through
either binding. -/
example : ∀ A ∈ World.aliceApps, ∀ B ∈ World.bobApps, ∃ out md md',
    A.Packs Toy.crypto World.msg World.bob (some World.alice) none { forward := false } out md ∧ B.UnpacksAs Toy.crypto out {} World.msg md' ∧
    md'.encryptedFromKid = some b!"did:example:alice#p1" ∧ md'.authenticated = true := by
  intro A hA B hB
  have h : World.test World.aliceEnv (packEncrypted Toy.crypto World.msg World.bob (some World.alice) none { forward := false })
      (fun x => decide (x.2.messagingService = none) && decide (x.2.toKids = [b!"did:example:bob#p1"]) &&
        decide (x.2.fromKid = some b!"did:example:alice#p1")) = true := by decide +kernel
  obtain ⟨tr, ⟨out, md⟩, hr, ha, hc⟩ := World.of_test h
  simp only [Bool.and_eq_true, decide_eq_true_eq] at hc
  obtain ⟨⟨h1, h2⟩, h3⟩ := hc
  have eA := World.aliceApps_env A hA
  have eB := World.bobApps_env B hB
  have hp : A.Packs Toy.crypto World.msg World.bob (some World.alice) none { forward := false } out md := by
    have hm : MayEnd (A.env Toy.crypto.f64) (packEncrypted Toy.crypto World.msg World.bob (some World.alice) none { forward := false }) (.ok (out, md)) := by
      rw [eA]
      exact ⟨tr, ha, hr⟩
    cases A with
    | uniffi E => exact ((C100_uniffi E).2.2.1 _ _ _ _ _ _).2 hm
    | js J =>
      exact ⟨0, fun _ => b!"{\"forward\":false}", rfl, ((C100_js J _).2.2.1 _ _ _ _ 0 { forward := false } _ rfl).2 ⟨_, rfl, hm⟩⟩
  obtain ⟨md', g1, -, g2, -, g3, -⟩ := C100_between A B Toy.lawful (by rw [eA, eB]; exact World.bob_sees) World.msg World.msg_wf rfl World.bob
    (some World.alice) none { forward := false } {} (fun _ => World.msg_notEnvelope) (fun h => (by cases h)) (by rw [eA]; exact World.wire_bob)
    (by
      rw [eA]
      rintro d (hd | hd)
      · cases hd; exact ⟨World.wire_alice, World.fit_alice⟩
      · cases hd) out md hp h1 (by rw [eA, eB]; exact World.bob_opens (by rw [h2]; decide) (by rw [h2]; decide))
  exact ⟨out, md, md', hp, g1, by rw [g3]; exact h3, by rw [g2]; rfl⟩

/-- C100_js_bad: objects that are not options, headers, keys or an algorithm. -/
example : (∀ o, intoSerde .malformed (dPackOptions Toy.crypto.f64) b!"[]" ≠ .ok o) ∧ (∀ o, intoSerde .malformed dUnpackOptions b!"7" ≠ .ok o) ∧
    (∀ l, intoSerde .malformed (dHeaders Toy.crypto.f64) b!"[]" ≠ .ok l) ∧ (∀ l, intoSerde .malformed (dVec (fun _ => dStr)) b!"{}" ≠ .ok l) ∧
    ∀ l, intoSerde .malformed (dUnit anonAlgNames) b!"\"none\"" ≠ .ok l :=
  ⟨fun _ h => (by cases h), fun _ h => (by cases h), fun _ h => (by cases h), fun _ h => (by cases h), fun _ h => (by cases h)⟩

end DIDComm
