import Verif.Proofs.Written
import Verif.Props.ReadingDocs
import Verif.Props.Reading
import Verif.Props.JsEnv

/-!
# C115: how documents, secrets, options and messages are written makes no difference

`SameSaid` (`Verif.Spec.Written`): two texts differ only in white space, the order of members and the escapes in names and strings.
-/

set_option autoImplicit false

namespace DIDComm

variable {f64 : Str → Option Str} {C : Crypto}

theorem readDoc_of {α : Type} {d : Nat → Tree → Option α} {s : Str} {t : Tree} (h : JsonText t s) :
    readDoc d s = okOr .malformed (d depthLimit t) := by
  unfold readDoc fromJson
  rw [(parseJson_iff _ _).2 h]

theorem readDoc_same {α : Type} {d : Nat → Tree → Option α} (h1 : ∀ n, Deaf (d n)) (h2 : ∀ n, Blind (d n)) {s s' : Str} (h : SameSaid s s') :
    readDoc d s' = readDoc d s := by
  obtain ⟨t, t', ht, ht', h⟩ := h
  rw [readDoc_of ht, readDoc_of ht', same_of (h1 _) (h2 _) h]

theorem intoSerde_same {α : Type} {k : ErrorKind} {d : Nat → Tree → Option α} (h1 : ∀ n, Deaf (d n)) (h2 : ∀ n, Blind (d n)) {s s' : Str}
    (h : SameSaid s s') : intoSerde k d s' = intoSerde k d s := by
  unfold intoSerde
  rw [readDoc_same h1 h2 h]

/-- C115: texts that say the same are the same DID document, or are refused alike. -/
theorem C115_document (s s' : Str) (h : SameSaid s s') : readDoc (dDIDDoc f64) s' = readDoc (dDIDDoc f64) s :=
  readDoc_same dDIDDoc_deaf dDIDDoc_blind h

example : ∃ s s' d, SameSaid s s' ∧ s ≠ s' ∧ readDoc (dDIDDoc Toy.crypto.f64) s = .ok d ∧ readDoc (dDIDDoc Toy.crypto.f64) s' = .ok d ∧
    d.authentication = [b!"did:x#1"] := by
  have h : SameSaid b!"{\"id\":\"did:x\",\"keyAgreement\":[],\"authentication\":[\"did:x#1\"],\"verificationMethod\":[],\"service\":[]}"
      b!"{\"keyAgreement\":[ ], \"i\\u0064\":\"did\\u003ax\",\"authentication\":[\"did:x\\u00231\"],\"verificationMethod\":[],\"service\":[]}\n" := by
    refine ⟨_, _, (parseJson_iff _ _).1 rfl, (parseJson_iff _ _).1 rfl, ?_⟩
    exact .obj (m' := [(⟨true, some b!"id"⟩, .str ⟨false, some b!"did:x"⟩), (⟨false, some b!"keyAgreement"⟩, .arr []),
        (⟨false, some b!"authentication"⟩, .arr [.str ⟨false, some b!"did:x#1"⟩]), (⟨false, some b!"verificationMethod"⟩, .arr []),
        (⟨false, some b!"service"⟩, .arr [])]) (by decide)
      (.cons rfl (.str _) (.cons rfl (.arr .nil) (.cons rfl (.arr (.cons (.str _) .nil)) (.cons rfl (.arr .nil) (.cons rfl (.arr .nil) .nil)))))
      (.swap _ _ _)
  refine ⟨_, _, _, h, by decide, rfl, ?_, rfl⟩
  rw [C115_document _ _ h]
  rfl

/-- C115: texts that say the same are the same secret, or are refused alike. -/
theorem C115_secret (s s' : Str) (h : SameSaid s s') : readDoc (dSecret f64) s' = readDoc (dSecret f64) s :=
  readDoc_same dSecret_deaf dSecret_blind h

/-- A secret, and the same with its members in another order and letters escaped. -/
def World.tidySecret : Str := b!"{\"id\":\"did:x#1\",\"type\":\"JsonWebKey2020\",\"privateKeyJwk\":{\"kty\":\"OKP\",\"crv\":\"X25519\"}}"
@[inherit_doc World.tidySecret]
def World.untidySecret : Str :=
  b!" {\"privateKeyJwk\":{\"crv\":\"X25519\", \"kt\\u0079\":\"OKP\"},\"type\":\"Json\\u0057ebKey2020\",\"id\":\"did:x\\u00231\"}"

theorem World.sameSecret : SameSaid World.tidySecret World.untidySecret := by
  let k (s : Str) : StrTok := ⟨false, some s⟩
  let e (s : Str) : StrTok := ⟨true, some s⟩
  refine ⟨.obj [(k b!"id", .str (k b!"did:x#1")), (k b!"type", .str (k b!"JsonWebKey2020")),
      (k b!"privateKeyJwk", .obj [(k b!"kty", .str (k b!"OKP")), (k b!"crv", .str (k b!"X25519"))])],
    .obj [(k b!"privateKeyJwk", .obj [(k b!"crv", .str (k b!"X25519")), (e b!"kty", .str (k b!"OKP"))]),
      (k b!"type", .str (e b!"JsonWebKey2020")), (k b!"id", .str (e b!"did:x#1"))],
    (parseJson_iff _ _).1 (by rfl), (parseJson_iff _ _).1 (by rfl), ?_⟩
  unfold SameWriting
  simp only [Tree.unescaped, unescapedMembers]
  refine .obj (m' := [(k b!"id", .str (k b!"did:x#1")), (k b!"type", .str (k b!"JsonWebKey2020")),
      (k b!"privateKeyJwk", .obj [(k b!"crv", .str (k b!"X25519")), (e b!"kty", .str (k b!"OKP"))])]) (by decide) ?_ ?_
  · exact .cons rfl (.str _) (.cons rfl (.str _) (.cons rfl
      (.obj (m' := [(e b!"kty", .str (k b!"OKP")), (k b!"crv", .str (k b!"X25519"))]) (by decide)
        (.cons rfl (.str _) (.cons rfl (.str _) .nil)) (.swap _ _ _)) .nil))
  · exact (List.reverse_perm _).symm

example : ∃ x, readDoc (dSecret Toy.crypto.f64) World.tidySecret = .ok x ∧ readDoc (dSecret Toy.crypto.f64) World.untidySecret = .ok x ∧
    x.id = b!"did:x#1" := by
  refine ⟨_, rfl, ?_, rfl⟩
  rw [C115_secret _ _ World.sameSecret]
  rfl

/-- C115: what JavaScript resolvers return for a document or a secret is the same for the library when it says the same. -/
theorem C115_answers (s s' : Str) (h : SameSaid s s') : wasmDoc f64 s' = wasmDoc f64 s ∧ wasmSecret f64 s' = wasmSecret f64 s := by
  unfold wasmDoc wasmSecret
  exact ⟨intoSerde_same (fun n => dOpt_deaf (dDIDDoc_deaf n)) (fun n => dOpt_blind (dDIDDoc_blind n)) h,
    intoSerde_same (fun n => dOpt_deaf (dSecret_deaf n)) (fun n => dOpt_blind (dSecret_blind n)) h⟩

/-- C115: options of unpacking that say the same are the same; so unpacking through JavaScript is the same. -/
theorem C115_unpack_options (s s' : Str) (h : SameSaid s s') (msg : Str) :
    intoSerde .malformed dUnpackOptions s' = intoSerde .malformed dUnpackOptions s ∧ wasmUnpack C msg s' = wasmUnpack C msg s := by
  have e : intoSerde .malformed dUnpackOptions s' = intoSerde .malformed dUnpackOptions s :=
    intoSerde_same dUnpackOptions_deaf dUnpackOptions_blind h
  refine ⟨e, ?_⟩
  unfold wasmUnpack
  rw [e]

/-- C115: options of packing that say the same are both `Malformed`, or the same but for the order of the forward headers, which
are a map. -/
theorem C115_pack_options (s s' : Str) (h : SameSaid s s') :
    (intoSerde .malformed (dPackOptions f64) s = .error (.kind .malformed) ∧ intoSerde .malformed (dPackOptions f64) s' = .error (.kind .malformed)) ∨
    ∃ o o', intoSerde .malformed (dPackOptions f64) s = .ok o ∧ intoSerde .malformed (dPackOptions f64) s' = .ok o' ∧ SameOptions o o' := by
  obtain ⟨t, t', ht, ht', h⟩ := h
  unfold intoSerde
  rw [readDoc_of ht, readDoc_of ht', ← dPackOptions_deaf _ t, ← dPackOptions_deaf _ t']
  rcases dPackOptions_alike (f64 := f64) h depthLimit with ⟨e, e'⟩ | ⟨o, o', e, e', ho⟩ <;> rw [e, e']
  · exact .inl ⟨rfl, rfl⟩
  · exact .inr ⟨o, o', rfl, rfl, ho⟩

/-- C115: where no forward headers are given the options are the same, so packing through JavaScript is the same. -/
theorem C115_pack (s s' : Str) (h : SameSaid s s') (o : PackEncryptedOptions) (ho : intoSerde .malformed (dPackOptions C.f64) s = .ok o)
    (hn : o.forwardHeaders = none) (m : Message) (to : Str) (from_ signBy : Option Str) :
    wasmPackEncrypted C m to from_ signBy s' = wasmPackEncrypted C m to from_ signBy s := by
  have e : intoSerde .malformed (dPackOptions C.f64) s' = intoSerde .malformed (dPackOptions C.f64) s := by
    rcases C115_pack_options (f64 := C.f64) s s' h with ⟨e, -⟩ | ⟨o1, o2, e, e', h1, h2, h3, h4, h5, h6⟩
    · rw [ho] at e; cases e
    · rw [ho] at e
      cases e
      rw [e', ho]
      obtain ⟨p, f, hd, ms, a, b⟩ := o
      obtain ⟨p', f', hd', ms', a', b'⟩ := o2
      simp only at h1 h2 h3 h4 h5 h6 hn
      subst hn h1 h2 h4 h6
      cases a
      cases a'
      cases hd' with
      | none => rfl
      | some x => exact h3.elim
  unfold wasmPackEncrypted
  rw [e]

/-- Options in two writings. -/
def World.tidyOptions : Str := b!"{\"forward\":false,\"enc_alg_anon\":\"A256gcmEcdhEsA256kw\"}"
@[inherit_doc World.tidyOptions]
def World.untidyOptions : Str := b!"{ \"enc_alg_anon\" : \"A256gcmEcdhEsA256k\\u0077\" , \"forward\" : false }"

theorem World.sameOptions : SameSaid World.tidyOptions World.untidyOptions := by
  let k (s : Str) : StrTok := ⟨false, some s⟩
  refine ⟨.obj [(k b!"forward", .bool false), (k b!"enc_alg_anon", .str (k b!"A256gcmEcdhEsA256kw"))],
    .obj [(k b!"enc_alg_anon", .str ⟨true, some b!"A256gcmEcdhEsA256kw"⟩), (k b!"forward", .bool false)],
    (parseJson_iff _ _).1 (by rfl), (parseJson_iff _ _).1 (by rfl), ?_⟩
  unfold SameWriting
  simp only [Tree.unescaped, unescapedMembers]
  exact .obj (m' := [(k b!"forward", .bool false), (k b!"enc_alg_anon", .str (k b!"A256gcmEcdhEsA256kw"))]) (by decide)
    (.cons rfl (.bool _) (.cons rfl (.str _) .nil)) (.swap _ _ _)

example : ∃ o, intoSerde .malformed (dPackOptions Toy.crypto.f64) World.tidyOptions = .ok o ∧ o.forwardHeaders = none ∧ o.forward = false ∧
    o.encAlgAnon = .a256gcmEcdhEsA256kw ∧ ∀ m to from_ signBy, wasmPackEncrypted Toy.crypto m to from_ signBy World.untidyOptions =
      wasmPackEncrypted Toy.crypto m to from_ signBy World.tidyOptions :=
  ⟨_, rfl, rfl, rfl, rfl, fun _ _ _ _ => C115_pack _ _ World.sameOptions _ rfl rfl _ _ _ _⟩

/-- C115: objects of messages that say the same are both `Malformed`, or the same message but for the order of the extra
headers, which are a map. -/
theorem C115_message (s s' : Str) (h : SameSaid s s') :
    (wasmMessageNew C s = .error (.kind .malformed) ∧ wasmMessageNew C s' = .error (.kind .malformed)) ∨
    ∃ m m', wasmMessageNew C s = .ok m ∧ wasmMessageNew C s' = .ok m' ∧ SameMessage m m' := by
  obtain ⟨t, t', ht, ht', h⟩ := h
  unfold wasmMessageNew intoSerde
  rw [readDoc_of ht, readDoc_of ht', ← dMessage_deaf _ t, ← dMessage_deaf _ t']
  rcases dMessage_alike (f64 := C.f64) h depthLimit with ⟨e, e'⟩ | ⟨o, o', e, e', ho⟩ <;> rw [e, e']
  · exact .inl ⟨rfl, rfl⟩
  · exact .inr ⟨o, o', rfl, rfl, ho⟩

example : ∃ s s' m m', SameSaid s s' ∧ wasmMessageNew Toy.crypto s = .ok m ∧ wasmMessageNew Toy.crypto s' = .ok m' ∧ SameMessage m m' ∧
    m.id = b!"i" := by
  have h : SameSaid b!"{\"id\":\"i\",\"type\":\"t\",\"body\":{}}" b!"{\"type\":\"\\u0074\",\"id\":\"\\u0069\", \"body\":{} }" := by
    refine ⟨_, _, (parseJson_iff _ _).1 rfl, (parseJson_iff _ _).1 rfl, ?_⟩
    exact .obj (m' := [(⟨false, some b!"id"⟩, .str ⟨false, some b!"i"⟩), (⟨false, some b!"type"⟩, .str ⟨false, some b!"t"⟩),
        (⟨false, some b!"body"⟩, .obj [])]) (by decide)
      (.cons rfl (.str _) (.cons rfl (.str _) (.cons rfl (.obj (m' := []) (by decide) .nil .nil) .nil))) (.swap _ _ _)
  rcases C115_message (C := Toy.crypto) _ _ h with ⟨e, -⟩ | ⟨m, m', e, e', hm⟩
  · cases e
  · refine ⟨_, _, m, m', h, e, e', hm, ?_⟩
    cases e
    rfl

/-- C115: an application whose resolvers say the same in another writing is in the same situation: the library sees the same
resolvers, so every operation has the same outcomes. -/
theorem C115_resolvers (J J' : JsEnv) (h : SameResolvers J J') :
    J'.env f64 = J.env f64 ∧ ∀ {α : Type} (p : Prog α) (r : Res α), MayEnd (J'.env f64) p r ↔ MayEnd (J.env f64) p r := by
  have e : J'.env f64 = J.env f64 := by
    have e1 : ∀ d, (J'.env f64).resolve d = (J.env f64).resolve d := by
      intro d
      have h := h.resolve d
      unfold JsEnv.env
      simp only
      generalize J.resolve d = x, J'.resolve d = x' at h
      cases h with
      | thrown t => rfl
      | value h => simp only [Except.map, (C115_answers _ _ h).1]
    have e2 : ∀ k, (J'.env f64).getSecret k = (J.env f64).getSecret k := by
      intro k
      have h := h.getSecret k
      unfold JsEnv.env
      simp only
      generalize J.getSecret k = x, J'.getSecret k = x' at h
      cases h with
      | thrown t => rfl
      | value h => simp only [Except.map, (C115_answers _ _ h).2]
    have e3 : ∀ ks, (J'.env f64).findSecrets ks = (J.env f64).findSecrets ks := by
      intro ks
      have h := h.findSecrets ks
      unfold JsEnv.env
      simp only
      have : (J'.findSecrets ks).map JsValue.found = (J.findSecrets ks).map JsValue.found := by
        have key : ∀ x : Except Thrown JsValue, x.map JsValue.found = (x.map JsValue.elements).map (fun o => match o with | some l => JsFound.array l | none => .other) := by
          intro x
          cases x <;> rfl
        rw [key, key, h]
      rw [this]
    cases h1 : J'.env f64
    cases h2 : J.env f64
    simp only [h1, h2] at e1 e2 e3
    rw [funext e1, funext e2, funext e3]
  exact ⟨e, fun p r => by rw [e]⟩

/-- Resolvers that know one secret, in two writings. -/
def World.oneSecret (text : Str) : JsEnv where
  resolve _ := .ok ⟨b!"null", none⟩
  getSecret k := .ok ⟨if k = b!"did:x#1" then text else b!" null", none⟩
  findSecrets _ := .ok ⟨text, some [some b!"did:x#1"]⟩

theorem World.sameNull (s : Str) (h : JsonText .null s) : SameSaid s s := ⟨_, _, h, h, .null⟩

example : SameResolvers (World.oneSecret World.tidySecret) (World.oneSecret World.untidySecret) ∧
    ∃ x, ((World.oneSecret World.untidySecret).env Toy.crypto.f64).getSecret b!"did:x#1" = .ok (some x) := by
  have h : SameResolvers (World.oneSecret World.tidySecret) (World.oneSecret World.untidySecret) := by
    refine ⟨fun d => .value (World.sameNull _ ((parseJson_iff _ _).1 rfl)), fun k => .value ?_, fun ks => rfl⟩
    simp only
    split
    · exact World.sameSecret
    · exact World.sameNull _ ((parseJson_iff _ _).1 rfl)
  refine ⟨h, ?_⟩
  rw [(C115_resolvers _ _ h).1]
  exact ⟨_, rfl⟩

/-- C115: headers, routing keys and algorithm of wrapping: keys and algorithms that say the same are the same. -/
theorem C115_wrapping (headers keys keys' alg alg' : Str) (hk : SameSaid keys keys') (ha : SameSaid alg alg') (msg to : Str) :
    wasmWrapInForward C msg headers to keys' alg' = wasmWrapInForward C msg headers to keys alg := by
  unfold wasmWrapInForward
  rw [intoSerde_same (dVec_deaf fun _ => dStr_deaf) (dVec_blind fun _ => dStr_blind) hk, intoSerde_same (dUnit_deaf _) (dUnit_blind _) ha]

example : SameSaid b!"[\"a\",\"b\"]" b!"[ \"\\u0061\", \"b\" ]" ∧ SameSaid b!"\"Xc20pEcdhEsA256kw\"" b!"\"\\u0058c20pEcdhEsA256kw\"" := by
  refine ⟨⟨_, _, (parseJson_iff _ _).1 rfl, (parseJson_iff _ _).1 rfl, ?_⟩, ⟨_, _, (parseJson_iff _ _).1 rfl, (parseJson_iff _ _).1 rfl, ?_⟩⟩
  · exact .arr (.cons (.str _) (.cons (.str _) .nil))
  · exact .str _

/-- C115: of envelopes this is not true: an escape in one of their strings makes a text that is none any more, although it says
the same. -/
theorem C115_not_envelopes : ∃ s s', SameSaid s s' ∧ (∃ t j, JsonText t s ∧ IsSigned t j) ∧ ∀ t j, JsonText t s' → ¬ IsSigned t j := by
  refine ⟨b!"{\"payload\":\"e30\",\"signatures\":[]}", b!"{\"payload\":\"e3\\u0030\",\"signatures\":[]}",
    ⟨_, _, (parseJson_iff _ _).1 rfl, (parseJson_iff _ _).1 rfl, ?_⟩, ?_, ?_⟩
  · unfold SameWriting
    simp only [Tree.unescaped, unescapedMembers, unescapedAll]
    exact .obj (by decide) (.cons rfl (.str _) (.cons rfl (.arr .nil) .nil)) (.refl _)
  · obtain ⟨t, h⟩ := (C74_signed b!"{\"payload\":\"e30\",\"signatures\":[]}" ⟨[], b!"e30"⟩).1 rfl
    exact ⟨t, _, h⟩
  · intro t j ht hj
    have := (C74_signed _ j).2 ⟨t, ht, hj⟩
    cases this

end DIDComm
