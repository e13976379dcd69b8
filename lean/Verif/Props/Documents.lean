import Verif.Proofs.Metadata
import Verif.Proofs.Runs
import Verif.Proofs.ParseTotal
import Verif.Spec.Toy

/-! # C64–C69: options, documents, secrets and metadata as JSON -/

set_option autoImplicit false

namespace DIDComm

variable {f64 : Str → Option Str}

/-! ## C64: options -/

/-- C64: packing options given as a JSON object.  Whatever the order of the members and whatever other members there
are, each option that is present is taken as given, each one that is absent takes its documented default. -/
theorem C64_pack_options (m : List (Str × Value)) (hm : Value.WFM f64 m)
    (protect forward : Option Bool) (headers : Option (List (Str × Value))) (service : Option Str)
    (auth : Option AuthCryptAlg) (anon : Option AnonCryptAlg)
    (h1 : Says m b!"protect_sender" (protect.map .bool)) (h2 : Says m b!"forward" (forward.map .bool))
    (h3 : Says m b!"forward_headers" (headers.map .obj)) (h4 : Says m b!"messaging_service" (service.map .str))
    (h5 : Says m b!"enc_alg_auth" (auth.map fun a => .str (AuthCryptAlg.name a)))
    (h6 : Says m b!"enc_alg_anon" (anon.map fun a => .str (AnonCryptAlg.name a)))
    (hh : ∀ h, headers = some h → HeadersWF f64 126 h) (hs : OptUtf8 service) :
    intoSerde .malformed (dPackOptions f64) (Value.obj m).print =
      .ok { protectSender := protect.getD false, forward := forward.getD true, forwardHeaders := headers,
            messagingService := service, encAlgAuth := auth.getD .a256cbcHs512Ecdh1puA256kw,
            encAlgAnon := anon.getD .xc20pEcdhEsA256kw } := by
  rw [intoSerde_print (by simp only [Value.NumsOk]; exact hm.numsOk)]
  have : dPackOptions f64 depthLimit (Value.obj m).tree =
      some ⟨protect.getD false, forward.getD true, headers, service, auth.getD .a256cbcHs512Ecdh1puA256kw,
        anon.getD .xc20pEcdhEsA256kw⟩ := by
    unfold dPackOptions
    rw [asStructFrom_tree _ _ _ _ (by decide) hm.keys]
    simp only [Option.bind_eq_bind, Option.bind_some]
    rw [defField_bool h1, defField_bool h2, optField_str hs h4, defField_tree h5, defField_tree h6]
    have e3 : optField (m.map fun p => (p.1, p.2.tree)) b!"forward_headers" (dHeaders f64 (depthLimit - 1)) = some headers := by
      cases headers with
      | none => exact optField_tree_none h3
      | some h =>
        rw [optField_tree_some h3]
        exact dOpt_some (dHeaders_tree _ (by decide) h (hh h rfl)) (by simp [Value.tree])
    rw [e3]
    cases auth <;> cases anon <;> simp [dUnit_auth, dUnit_anon]
  rw [this]

/-- C64: unpacking options likewise; both are false when absent. -/
theorem C64_unpack_options (m : List (Str × Value)) (hm : Value.WFM f64 m) (all unwrap : Option Bool)
    (h1 : Says m b!"expect_decrypt_by_all_keys" (all.map .bool))
    (h2 : Says m b!"unwrap_re_wrapping_forward" (unwrap.map .bool)) :
    intoSerde .malformed dUnpackOptions (Value.obj m).print =
      .ok { expectDecryptByAllKeys := all.getD false, unwrapReWrappingForward := unwrap.getD false } := by
  rw [intoSerde_print (by simp only [Value.NumsOk]; exact hm.numsOk)]
  have : dUnpackOptions depthLimit (Value.obj m).tree = some ⟨all.getD false, unwrap.getD false⟩ := by
    unfold dUnpackOptions
    rw [asStructFrom_tree _ _ _ _ (by decide) hm.keys]
    simp only [Option.bind_eq_bind, Option.bind_some]
    rw [defField_bool h1, defField_bool h2]
    rfl
  rw [this]

example : intoSerde .malformed (dPackOptions Toy.crypto.f64)
    b!"{\"x\":7,\"enc_alg_anon\":\"A256gcmEcdhEsA256kw\",\"forward\":false,\"forward_headers\":{\"expires_time\":9}}" =
      .ok ⟨false, false, some [(b!"expires_time", .num (.pos 9))], none, .a256cbcHs512Ecdh1puA256kw, .a256gcmEcdhEsA256kw⟩ := by
  have e : b!"{\"x\":7,\"enc_alg_anon\":\"A256gcmEcdhEsA256kw\",\"forward\":false,\"forward_headers\":{\"expires_time\":9}}" =
      (Value.obj [(b!"x", .num (.pos 7)), (b!"enc_alg_anon", .str b!"A256gcmEcdhEsA256kw"), (b!"forward", .bool false),
        (b!"forward_headers", .obj [(b!"expires_time", .num (.pos 9))])]).print := by decide +kernel
  rw [e]
  exact C64_pack_options _ (by simp [Value.WFM, Value.WF, Num.WF, SortedKeys]; decide) none (some false)
    (some [(b!"expires_time", .num (.pos 9))]) none none (some .a256gcmEcdhEsA256kw) rfl rfl rfl rfl rfl rfl
    (fun h hh => by cases hh; exact ⟨by simp [Value.WFM, Value.WF, Num.WF]; decide, by decide, by simp⟩)
    (fun s hs => by cases hs)

/-- C64: packing without options is packing with the default options. -/
theorem C64_pack_empty : intoSerde .malformed (dPackOptions f64) b!"{}" = .ok {} :=
  C64_pack_options (f64 := f64) [] (by simp [Value.WFM]) none none none none none none rfl rfl rfl rfl rfl rfl
    (fun _ h => by cases h) (fun _ h => by cases h)

/-- C64 (negative): unpacking without options is not unpacking with Rust's default options: a JavaScript caller who gives
`{}` does not get re-wrapped messages unwrapped, a Rust caller who gives `UnpackOptions::default()` does. -/
theorem C64_unpack_empty : ∃ o, intoSerde .malformed dUnpackOptions b!"{}" = .ok o ∧
    o.unwrapReWrappingForward = false ∧ ({} : UnpackOptions).unwrapReWrappingForward = true :=
  ⟨_, C64_unpack_options (f64 := fun _ => none) [] (by simp [Value.WFM]) none none rfl rfl, rfl, rfl⟩

/-- C64 (negative): `forward_headers` as the array of pairs that the TypeScript declarations ask for is refused, whatever
the pairs and the other options are. -/
theorem C64_header_pairs (m : List (Str × Value)) (hm : Value.WFM f64 m) (l : List Value)
    (h : Says m b!"forward_headers" (some (.arr l))) :
    intoSerde .malformed (dPackOptions f64) (Value.obj m).print = .error (.kind .malformed) := by
  rw [intoSerde_print (by simp only [Value.NumsOk]; exact hm.numsOk)]
  cases hd : dPackOptions f64 depthLimit (Value.obj m).tree with
  | none => rfl
  | some o =>
    unfold dPackOptions at hd
    rw [asStructFrom_tree _ _ _ _ (by decide) hm.keys] at hd
    simp only [Option.bind_eq_bind, Option.bind_some] at hd
    obtain ⟨_, -, hd⟩ := Option.bind_eq_some_iff.1 hd
    obtain ⟨_, -, hd⟩ := Option.bind_eq_some_iff.1 hd
    obtain ⟨_, h3, hd⟩ := Option.bind_eq_some_iff.1 hd
    rw [optField_tree_some h] at h3
    simp [Value.tree, dOpt, dHeaders, asMap] at h3

example : intoSerde .malformed (dPackOptions Toy.crypto.f64) b!"{\"forward_headers\":[[\"lang\",\"en\"]]}" = .error (.kind .malformed) := by
  have e : b!"{\"forward_headers\":[[\"lang\",\"en\"]]}" =
      (Value.obj [(b!"forward_headers", .arr [.arr [.str b!"lang", .str b!"en"]])]).print := by decide +kernel
  rw [e]
  exact C64_header_pairs _ (by simp [Value.WFM, Value.WFL, Value.WF]; decide) _ rfl

/-- C64: an algorithm that is not one of the three names is refused. -/
theorem C64_unknown_algorithm (m : List (Str × Value)) (hm : Value.WFM f64 m) (name : Str)
    (h : Says m b!"enc_alg_anon" (some (.str name)))
    (hn : name ≠ b!"A256cbcHs512EcdhEsA256kw" ∧ name ≠ b!"Xc20pEcdhEsA256kw" ∧ name ≠ b!"A256gcmEcdhEsA256kw") :
    intoSerde .malformed (dPackOptions f64) (Value.obj m).print = .error (.kind .malformed) := by
  rw [intoSerde_print (by simp only [Value.NumsOk]; exact hm.numsOk)]
  cases hd : dPackOptions f64 depthLimit (Value.obj m).tree with
  | none => rfl
  | some o =>
    unfold dPackOptions at hd
    rw [asStructFrom_tree _ _ _ _ (by decide) hm.keys] at hd
    simp only [Option.bind_eq_bind, Option.bind_some] at hd
    obtain ⟨_, -, hd⟩ := Option.bind_eq_some_iff.1 hd
    obtain ⟨_, -, hd⟩ := Option.bind_eq_some_iff.1 hd
    obtain ⟨_, -, hd⟩ := Option.bind_eq_some_iff.1 hd
    obtain ⟨_, -, hd⟩ := Option.bind_eq_some_iff.1 hd
    obtain ⟨_, -, hd⟩ := Option.bind_eq_some_iff.1 hd
    obtain ⟨_, h3, hd⟩ := Option.bind_eq_some_iff.1 hd
    rw [defField_tree h] at h3
    have hv : validUtf8 name = true ∨ validUtf8 name = false := by cases validUtf8 name <;> simp
    rcases hv with hv | hv <;>
      simp [Value.tree, strTokOf, hv, dUnit, variant, anonAlgNames, Ne.symm hn.1, Ne.symm hn.2.1, Ne.symm hn.2.2] at h3

example : intoSerde .malformed (dPackOptions Toy.crypto.f64) b!"{\"enc_alg_anon\":\"XC20P\"}" = .error (.kind .malformed) := by
  have e : b!"{\"enc_alg_anon\":\"XC20P\"}" = (Value.obj [(b!"enc_alg_anon", .str b!"XC20P")]).print := by decide +kernel
  rw [e]
  exact C64_unknown_algorithm _ (by simp [Value.WFM, Value.WF]; decide) b!"XC20P" rfl (by decide)

/-! ## C65: documents -/

/-- C65: an ordinary document can be written, and the text gives back the same document: to a Rust caller, and to the
core when a JavaScript resolver answers with it. -/
theorem C65_round_trip (d : DIDDoc) (h : d.WF f64) :
    ∃ v, d.toJson = some v ∧ readDoc (dDIDDoc f64) v.print = .ok d ∧ wasmDoc f64 v.print = .ok (some d) := by
  obtain ⟨v, h1, h2, h3⟩ := dDIDDoc_tree d h
  refine ⟨v, h1, fromJson_print h2 h3, ?_⟩
  unfold wasmDoc
  rw [intoSerde_print h2]
  have : dOptTop (dDIDDoc f64) depthLimit v.tree = some (some d) := by
    refine dOpt_some h3 ?_
    intro hn
    rw [hn] at h3
    simp [dDIDDoc, asStruct] at h3
  rw [this]

/-- C65: a document can be written exactly if each of its services of another kind holds an object. -/
theorem C65_writable (d : DIDDoc) :
    d.toJson.isSome ↔ ∀ s ∈ d.service, ∀ v, s.endpoint = .other v → ∃ m, v = .obj m := by
  have hl : ∀ l : List Service, (servicesJson l).isSome ↔ ∀ s ∈ l, ∀ v, s.endpoint = .other v → ∃ m, v = .obj m := by
    intro l
    induction l with
    | nil => simp [servicesJson]
    | cons s l ih =>
      have hs : s.toJson.isSome ↔ ∀ v, s.endpoint = .other v → ∃ m, v = .obj m := by
        obtain ⟨id, e⟩ := s
        cases e with
        | didCommMessaging x => simp [Service.toJson]
        | other v => cases v <;> simp [Service.toJson]
      simp only [List.forall_mem_cons, ← hs, ← ih, servicesJson]
      cases s.toJson <;> cases servicesJson l <;> simp
  rw [← hl d.service]
  unfold DIDDoc.toJson
  cases servicesJson d.service <;> simp

/-- A document with a key and two services. -/
def exampleDoc : DIDDoc :=
  { id := b!"did:x:a", keyAgreement := [b!"did:x:a#1"], authentication := [],
    verificationMethod := [⟨b!"did:x:a#1", .jsonWebKey2020, b!"did:x:a", .jwk (.obj [(b!"crv", .str b!"X25519"), (b!"x", .str b!"AQ")])⟩],
    service := [⟨b!"did:x:a#s", .didCommMessaging ⟨b!"http://a", some [b!"didcomm/v2"], [b!"did:x:m"]⟩⟩,
      ⟨b!"did:x:a#t", .other (.obj [(b!"n", .num (.pos 1))])⟩] }

theorem exampleDoc_wf : exampleDoc.WF f64 where
  id := by decide
  keyAgreement := by intro s hs; simp [exampleDoc] at hs; subst hs; decide
  authentication := by intro s hs; simp [exampleDoc] at hs
  methods := by
    intro v hv
    simp [exampleDoc] at hv
    subst hv
    refine ⟨by decide, by decide, ?_, by decide⟩
    simp only [Value.WF, Value.WFM, SortedKeys]
    refine ⟨by simp [strLt]; decide, by decide⟩
  services := by
    intro s hs
    simp [exampleDoc] at hs
    rcases hs with rfl | rfl
    · exact ⟨by decide, by decide, fun l hl => by cases hl; intro s hs; simp at hs; subst hs; decide,
        by intro s hs; simp at hs; subst hs; decide⟩
    · exact ⟨by decide, ⟨_, rfl⟩, by simp [Value.WF, Value.WFM, SortedKeys, Num.WF]; decide, by decide⟩

example : ∃ v, exampleDoc.toJson = some v ∧ wasmDoc f64 v.print = .ok (some exampleDoc) :=
  let ⟨v, h1, _, h3⟩ := C65_round_trip (f64 := f64) exampleDoc exampleDoc_wf
  ⟨v, h1, h3⟩

example : ({ exampleDoc with service := [⟨b!"did:x:a#u", .other (.str b!"http://b")⟩] } : DIDDoc).toJson = none := by
  have h := C65_writable { exampleDoc with service := [⟨b!"did:x:a#u", .other (.str b!"http://b")⟩] }
  rw [← Option.not_isSome_iff_eq_none, h]
  intro hall
  obtain ⟨m, hm⟩ := hall ⟨b!"did:x:a#u", .other (.str b!"http://b")⟩ (List.mem_singleton.2 rfl) (.str b!"http://b") rfl
  cases hm

/-! ## C66: secrets -/

/-- C66: an ordinary secret survives JSON, for a Rust caller and for a JavaScript secrets resolver. -/
theorem C66_round_trip (s : Secret) (h : s.WF f64) :
    readDoc (dSecret f64) s.toJson.print = .ok s ∧ wasmSecret f64 s.toJson.print = .ok (some s) := by
  have h2 : s.toJson.NumsOk := by
    simp only [Secret.toJson, Value.NumsOk, numsOkM_append]
    exact ⟨by simp [Value.NumsOkM, Value.NumsOk], Material.numsOk h.material⟩
  have h3 : dSecret f64 depthLimit s.toJson.tree = some s := dSecret_tree s h
  refine ⟨fromJson_print h2 h3, ?_⟩
  unfold wasmSecret
  rw [intoSerde_print h2]
  have : dOptTop (dSecret f64) depthLimit s.toJson.tree = some (some s) := by
    refine dOpt_some h3 ?_
    intro hn
    rw [hn] at h3
    simp [dSecret, asMap] at h3
  rw [this]

example : wasmSecret f64 b!"{\"id\":\"did:x:a#1\",\"type\":\"X25519KeyAgreementKey2019\",\"privateKeyBase58\":\"3\"}" =
    .ok (some ⟨b!"did:x:a#1", .x25519KeyAgreementKey2019, .base58 b!"3"⟩) := by
  have e : b!"{\"id\":\"did:x:a#1\",\"type\":\"X25519KeyAgreementKey2019\",\"privateKeyBase58\":\"3\"}" =
      (Secret.toJson ⟨b!"did:x:a#1", .x25519KeyAgreementKey2019, .base58 b!"3"⟩).print := by decide +kernel
  rw [e]
  exact (C66_round_trip ⟨b!"did:x:a#1", .x25519KeyAgreementKey2019, .base58 b!"3"⟩ ⟨by decide, (by decide : validUtf8 b!"3" = true)⟩).2

/-! ## C67: what a document may leave out and what makes it unreadable -/

theorem decAll_bad {α : Type} {d : Tree → Option α} {l : List Tree} {t : Tree} (ht : t ∈ l) (h : d t = none) : decAll d l = none := by
  induction l with
  | nil => cases ht
  | cons a l ih =>
    rcases List.mem_cons.1 ht with rfl | ht
    · simp [decAll, h]
    · simp [decAll, ih ht]

theorem mem_trees {l : List Value} {v : Value} (h : v ∈ l) : v.tree ∈ Value.trees l := by
  induction l with
  | nil => cases h
  | cons a l ih =>
    rcases List.mem_cons.1 h with rfl | h
    · simp [Value.trees]
    · simp [Value.trees, ih h]

theorem dVec_bad {α : Type} {d : Nat → Tree → Option α} {n : Nat} {l : List Value} {v : Value} (hv : v ∈ l)
    (h : d (n - 1) v.tree = none) : dVec d n (Value.arr l).tree = none := by
  simp only [Value.tree, dVec]
  split
  · rfl
  · exact decAll_bad (mem_trees hv) h

/-- The first field of a bad kind makes the document unreadable. -/
theorem doc_refused {m : List (Str × Value)} (hm : Value.WFM f64 m)
    (h : dDIDDoc f64 depthLimit (Value.obj m).tree = none) :
    readDoc (dDIDDoc f64) (Value.obj m).print = .error (.kind .malformed) ∧
      wasmDoc f64 (Value.obj m).print = .error (.kind .invalidState) := by
  have hn : (Value.obj m).NumsOk := by simp only [Value.NumsOk]; exact hm.numsOk
  constructor
  · simp [fromJson, parseJson_print _ hn, h, okOr]
  · unfold wasmDoc
    rw [intoSerde_print hn]
    simp only [dOptTop]
    have : dOpt (dDIDDoc f64 depthLimit) (Value.obj m).tree = none := by
      simp only [Value.tree] at h ⊢
      simp [dOpt, h]
    rw [this]

theorem WFL_mem {l : List Value} {v : Value} (h : Value.WFL f64 l) (hv : v ∈ l) : v.WF f64 := by
  induction l with
  | nil => cases hv
  | cons a l ih =>
    simp only [Value.WFL] at h
    rcases List.mem_cons.1 hv with rfl | hv
    · exact h.1
    · exact ih h.2 hv

theorem WFM_says {m : List (Str × Value)} {k : Str} {v : Value} (h : Value.WFM f64 m) (hs : Says m k (some v)) : v.WF f64 := by
  have hv : v ∈ (m.filter (fun p => p.1 == k)).map Prod.snd := by rw [hs]; simp
  obtain ⟨p, hp, rfl⟩ := List.mem_map.1 hv
  have hp0 := hp
  replace hp := (List.mem_filter.1 hp).1
  clear hs hv hp0
  induction m with
  | nil => cases hp
  | cons q m ih =>
    obtain ⟨k', w⟩ := q
    simp only [Value.WFM] at h
    rcases List.mem_cons.1 hp with rfl | hp
    · exact h.2.1
    · exact ih h.2.2 hp

/-- C67 (negative): one service whose `type` is neither `DIDCommMessaging` nor `Other`, such as the standard
`LinkedDomains`, makes the whole document unreadable: `Malformed` for a Rust caller, and when a JavaScript resolver
answers with it the operation sees `InvalidState`. -/
theorem C67_unknown_service (m : List (Str × Value)) (hm : Value.WFM f64 m) (l : List Value) (s : List (Str × Value)) (ty : Str)
    (h1 : Says m b!"service" (some (.arr l))) (h2 : .obj s ∈ l) (h3 : Says s b!"type" (some (.str ty)))
    (h4 : ty ≠ b!"DIDCommMessaging" ∧ ty ≠ b!"Other") :
    readDoc (dDIDDoc f64) (Value.obj m).print = .error (.kind .malformed) ∧
      wasmDoc f64 (Value.obj m).print = .error (.kind .invalidState) := by
  apply doc_refused hm
  have hl := WFM_says hm h1
  simp only [Value.WF] at hl
  have hs := WFL_mem hl h2
  simp only [Value.WF] at hs
  have hty := WFM_says hs.2 h3
  simp only [Value.WF] at hty
  have hbad : ∀ n, 1 < n → dService f64 n (Value.obj s).tree = none := by
    intro n hn
    cases hd : dService f64 n (Value.obj s).tree with
    | none => rfl
    | some x =>
      unfold dService at hd
      rw [asMap_tree _ _ hn hs.2.keys] at hd
      simp only [Option.bind_eq_bind, Option.bind_some] at hd
      obtain ⟨id, -, hd⟩ := Option.bind_eq_some_iff.1 hd
      split at hd
      · cases hd
      obtain ⟨tag, ht, hd⟩ := Option.bind_eq_some_iff.1 hd
      obtain ⟨kind, hk, hd⟩ := Option.bind_eq_some_iff.1 hd
      rw [reqField_tree h3, dStr_tree hty] at ht
      cases ht
      have : (fun t => dServiceKind f64 (n - 1) ty t) = fun _ => none := by
        funext t; simp [dServiceKind, h4.1, h4.2]
      have hk' : reqField (s.map fun p => (p.1, p.2.tree)) b!"serviceEndpoint" (fun t => dServiceKind f64 (n - 1) ty t) = some kind := hk
      rw [this] at hk'
      simp [reqField] at hk'
  cases hd : dDIDDoc f64 depthLimit (Value.obj m).tree with
  | none => rfl
  | some x =>
    unfold dDIDDoc at hd
    rw [asStruct_tree _ _ _ (by decide) hm.keys] at hd
    simp only [Option.bind_eq_bind, Option.bind_some] at hd
    obtain ⟨_, -, hd⟩ := Option.bind_eq_some_iff.1 hd
    obtain ⟨_, -, hd⟩ := Option.bind_eq_some_iff.1 hd
    obtain ⟨_, -, hd⟩ := Option.bind_eq_some_iff.1 hd
    obtain ⟨_, -, hd⟩ := Option.bind_eq_some_iff.1 hd
    obtain ⟨_, he, hd⟩ := Option.bind_eq_some_iff.1 hd
    rw [reqField_tree h1, dVec_bad h2 (hbad _ (by decide))] at he
    cases he

/-- C67 (negative): the same for one verification method of an unknown type, for example `Multikey`. -/
theorem C67_unknown_method (m : List (Str × Value)) (hm : Value.WFM f64 m) (l : List Value) (s : List (Str × Value)) (ty : Str)
    (h1 : Says m b!"verificationMethod" (some (.arr l))) (h2 : .obj s ∈ l) (h3 : Says s b!"type" (some (.str ty)))
    (h4 : ∀ t : VmType, ty ≠ t.name) :
    readDoc (dDIDDoc f64) (Value.obj m).print = .error (.kind .malformed) ∧
      wasmDoc f64 (Value.obj m).print = .error (.kind .invalidState) := by
  apply doc_refused hm
  have hl := WFM_says hm h1
  simp only [Value.WF] at hl
  have hs := WFL_mem hl h2
  simp only [Value.WF] at hs
  have hty := WFM_says hs.2 h3
  simp only [Value.WF] at hty
  have hbad : ∀ n, 1 < n → dVerificationMethod f64 n (Value.obj s).tree = none := by
    intro n hn
    cases hd : dVerificationMethod f64 n (Value.obj s).tree with
    | none => rfl
    | some x =>
      unfold dVerificationMethod at hd
      rw [asMap_tree _ _ hn hs.2.keys] at hd
      simp only [Option.bind_eq_bind, Option.bind_some] at hd
      obtain ⟨id, -, hd⟩ := Option.bind_eq_some_iff.1 hd
      obtain ⟨t, ht, hd⟩ := Option.bind_eq_some_iff.1 hd
      rw [reqField_tree h3] at ht
      simp only [Value.tree, strTokOf, hty, if_true, dUnit, variant, Option.map_eq_some_iff] at ht
      obtain ⟨p, hp, rfl⟩ := ht
      have hmem := List.mem_of_find?_eq_some hp
      have heq := List.find?_some hp
      simp only [beq_iff_eq] at heq
      exfalso
      simp only [vmTypeNames, List.mem_cons, List.not_mem_nil, or_false] at hmem
      rcases hmem with rfl | rfl | rfl | rfl | rfl | rfl | rfl
      · exact h4 .jsonWebKey2020 heq.symm
      · exact h4 .x25519KeyAgreementKey2019 heq.symm
      · exact h4 .ed25519VerificationKey2018 heq.symm
      · exact h4 .ecdsaSecp256k1VerificationKey2019 heq.symm
      · exact h4 .x25519KeyAgreementKey2020 heq.symm
      · exact h4 .ed25519VerificationKey2020 heq.symm
      · exact h4 .other heq.symm
  cases hd : dDIDDoc f64 depthLimit (Value.obj m).tree with
  | none => rfl
  | some x =>
    unfold dDIDDoc at hd
    rw [asStruct_tree _ _ _ (by decide) hm.keys] at hd
    simp only [Option.bind_eq_bind, Option.bind_some] at hd
    obtain ⟨_, -, hd⟩ := Option.bind_eq_some_iff.1 hd
    obtain ⟨_, -, hd⟩ := Option.bind_eq_some_iff.1 hd
    obtain ⟨_, -, hd⟩ := Option.bind_eq_some_iff.1 hd
    obtain ⟨_, he, hd⟩ := Option.bind_eq_some_iff.1 hd
    rw [reqField_tree h1, dVec_bad h2 (hbad _ (by decide))] at he
    cases he

/-- C67: a service endpoint without `accept` and `routingKeys` accepts any profile and has no routing keys; what is
present is taken as given. -/
theorem C67_endpoint (m : List (Str × Value)) (hm : Value.WFM f64 m) (uri : Str) (accept keys : Option (List Str))
    (h1 : Says m b!"uri" (some (.str uri))) (h2 : Says m b!"accept" (accept.map fun l => .arr (l.map .str)))
    (h3 : Says m b!"routingKeys" (keys.map fun l => .arr (l.map .str))) (hk : ∀ l, keys = some l → AllUtf8 l)
    (ha : ∀ l, accept = some l → AllUtf8 l) :
    readDoc dMessagingService (Value.obj m).print = .ok ⟨uri, accept, keys.getD []⟩ := by
  have hu := WFM_says hm h1
  simp only [Value.WF] at hu
  refine fromJson_print (by simp only [Value.NumsOk]; exact hm.numsOk) ?_
  unfold dMessagingService
  rw [asMap_tree _ _ (by decide) hm.keys]
  simp only [Option.bind_eq_bind, Option.bind_some]
  rw [reqField_tree h1, dStr_tree hu,
    optField_vec (o := accept) (fun _ => dStr) .str _ (by decide) (fun l hl a ha' => dStr_tree (ha l hl a ha')) h2,
    defField_tree h3]
  cases keys with
  | none => rfl
  | some l =>
    simp only [Option.map_some, Option.bind_some]
    rw [dVec_tree (fun _ => dStr) .str _ l (by decide) (fun a ha => dStr_tree (hk l rfl a ha))]
    rfl

/-- C67: the key of a verification method is its `publicKeyJwk` if it has one, else its `publicKeyMultibase`, else its
`publicKeyBase58`. -/
theorem C67_public_key (m : List (Str × Value)) (hm : Value.WFM f64 m) (vm : VerificationMethod)
    (h : readDoc (dVerificationMethod f64) (Value.obj m).print = .ok vm) :
    (∀ v, Says m b!"publicKeyJwk" (some v) → v.depth < 127 → vm.material = .jwk v) ∧
    (∀ s, Says m b!"publicKeyJwk" none → Says m b!"publicKeyMultibase" (some (.str s)) → vm.material = .multibase s) ∧
    (∀ s, Says m b!"publicKeyJwk" none → Says m b!"publicKeyMultibase" none → Says m b!"publicKeyBase58" (some (.str s)) →
      vm.material = .base58 s) := by
  have hn : (Value.obj m).NumsOk := by simp only [Value.NumsOk]; exact hm.numsOk
  simp only [fromJson, parseJson_print _ hn] at h
  cases hd : dVerificationMethod f64 depthLimit (Value.obj m).tree with
  | none => rw [hd] at h; simp [okOr] at h
  | some x =>
    rw [hd] at h
    simp only [okOr, Except.ok.injEq] at h
    subst h
    unfold dVerificationMethod at hd
    rw [asMap_tree _ _ (by decide) hm.keys] at hd
    simp only [Option.bind_eq_bind, Option.bind_some] at hd
    obtain ⟨_, -, hd⟩ := Option.bind_eq_some_iff.1 hd
    obtain ⟨_, -, hd⟩ := Option.bind_eq_some_iff.1 hd
    obtain ⟨_, -, hd⟩ := Option.bind_eq_some_iff.1 hd
    split at hd
    · cases hd
    obtain ⟨mat, hmat, hd⟩ := Option.bind_eq_some_iff.1 hd
    cases hd
    unfold dMaterial at hmat
    rw [reqField_rest (by decide), reqField_rest (by decide), reqField_rest (by decide)] at hmat
    simp only
    refine ⟨fun v hv hdep => ?_, fun s h1 h2 => ?_, fun s h1 h2 h3 => ?_⟩
    · rw [reqField_tree (name := publicNames.jwk) hv, toValue_tree v _ (WFM_says hm hv) (by simpa [depthLimit] using hdep)] at hmat
      cases hmat; rfl
    · have hs := WFM_says hm h2
      simp only [Value.WF] at hs
      rw [reqField_tree_none (name := publicNames.jwk) h1, reqField_tree (name := publicNames.multibase) h2, dStr_tree hs] at hmat
      cases hmat; rfl
    · have hs := WFM_says hm h3
      simp only [Value.WF] at hs
      rw [reqField_tree_none (name := publicNames.jwk) h1, reqField_tree_none (name := publicNames.multibase) h2,
        reqField_tree (name := publicNames.base58) h3, dStr_tree hs] at hmat
      cases hmat; rfl

/-- C67: the key of a secret is its `privateKeyJwk` if it has one, else its `privateKeyMultibase`, else its
`privateKeyBase58`. -/
theorem C67_private_key (m : List (Str × Value)) (hm : Value.WFM f64 m) (s : Secret)
    (h : readDoc (dSecret f64) (Value.obj m).print = .ok s) :
    (∀ v, Says m b!"privateKeyJwk" (some v) → v.depth < 127 → s.material = .jwk v) ∧
    (∀ t, Says m b!"privateKeyJwk" none → Says m b!"privateKeyMultibase" (some (.str t)) → s.material = .multibase t) ∧
    (∀ t, Says m b!"privateKeyJwk" none → Says m b!"privateKeyMultibase" none → Says m b!"privateKeyBase58" (some (.str t)) →
      s.material = .base58 t) := by
  have hn : (Value.obj m).NumsOk := by simp only [Value.NumsOk]; exact hm.numsOk
  simp only [fromJson, parseJson_print _ hn] at h
  cases hd : dSecret f64 depthLimit (Value.obj m).tree with
  | none => rw [hd] at h; simp [okOr] at h
  | some x =>
    rw [hd] at h
    simp only [okOr, Except.ok.injEq] at h
    subst h
    unfold dSecret at hd
    rw [asMap_tree _ _ (by decide) hm.keys] at hd
    simp only [Option.bind_eq_bind, Option.bind_some] at hd
    obtain ⟨_, -, hd⟩ := Option.bind_eq_some_iff.1 hd
    obtain ⟨_, -, hd⟩ := Option.bind_eq_some_iff.1 hd
    split at hd
    · cases hd
    obtain ⟨mat, hmat, hd⟩ := Option.bind_eq_some_iff.1 hd
    cases hd
    unfold dMaterial at hmat
    rw [reqField_rest (by decide), reqField_rest (by decide), reqField_rest (by decide)] at hmat
    simp only
    refine ⟨fun v hv hdep => ?_, fun s h1 h2 => ?_, fun s h1 h2 h3 => ?_⟩
    · rw [reqField_tree (name := privateNames.jwk) hv, toValue_tree v _ (WFM_says hm hv) (by simpa [depthLimit] using hdep)] at hmat
      cases hmat; rfl
    · have hs := WFM_says hm h2
      simp only [Value.WF] at hs
      rw [reqField_tree_none (name := privateNames.jwk) h1, reqField_tree (name := privateNames.multibase) h2, dStr_tree hs] at hmat
      cases hmat; rfl
    · have hs := WFM_says hm h3
      simp only [Value.WF] at hs
      rw [reqField_tree_none (name := privateNames.jwk) h1, reqField_tree_none (name := privateNames.multibase) h2,
        reqField_tree (name := privateNames.base58) h3, dStr_tree hs] at hmat
      cases hmat; rfl

/-- A document with a domain linkage service. -/
def linkedDoc : List (Str × Value) :=
  [(b!"id", .str b!"did:x:a"), (b!"keyAgreement", .arr []), (b!"authentication", .arr []), (b!"verificationMethod", .arr []),
   (b!"service", .arr [.obj [(b!"id", .str b!"did:x:a#l"), (b!"serviceEndpoint", .str b!"https://a"), (b!"type", .str b!"LinkedDomains")]])]

example : wasmDoc f64 (Value.obj linkedDoc).print = .error (.kind .invalidState) :=
  (C67_unknown_service linkedDoc (by simp [linkedDoc, Value.WFM, Value.WFL, Value.WF, SortedKeys, strLt]; decide) _
    [(b!"id", .str b!"did:x:a#l"), (b!"serviceEndpoint", .str b!"https://a"), (b!"type", .str b!"LinkedDomains")] b!"LinkedDomains"
    rfl (by simp) rfl (by decide)).2

/-- A document with a method of a newer type. -/
def multikeyDoc : List (Str × Value) :=
  [(b!"id", .str b!"did:x:a"), (b!"keyAgreement", .arr []), (b!"authentication", .arr []),
   (b!"verificationMethod", .arr [.obj [(b!"controller", .str b!"did:x:a"), (b!"id", .str b!"did:x:a#1"),
     (b!"publicKeyMultibase", .str b!"z3"), (b!"type", .str b!"Multikey")]]), (b!"service", .arr [])]

example : wasmDoc f64 (Value.obj multikeyDoc).print = .error (.kind .invalidState) :=
  (C67_unknown_method multikeyDoc (by simp [multikeyDoc, Value.WFM, Value.WFL, Value.WF, SortedKeys, strLt]; decide) _
    [(b!"controller", .str b!"did:x:a"), (b!"id", .str b!"did:x:a#1"), (b!"publicKeyMultibase", .str b!"z3"),
      (b!"type", .str b!"Multikey")] b!"Multikey"
    rfl (by simp) rfl (by intro t; cases t <;> decide)).2

example : (match readDoc (dVerificationMethod Toy.crypto.f64)
    b!"{\"id\":\"#1\",\"publicKeyBase58\":\"3\",\"type\":\"Other\",\"controller\":\"a\",\"publicKeyJwk\":{}}" with
    | .ok vm => (match vm.material with | .jwk _ => true | _ => false)
    | _ => false) = true := by decide +kernel

example : (match readDoc (dSecret Toy.crypto.f64)
    b!"{\"id\":\"#1\",\"privateKeyBase58\":\"3\",\"type\":\"Other\",\"privateKeyMultibase\":\"z4\"}" with
    | .ok s => (match s.material with | .multibase _ => true | _ => false)
    | _ => false) = true := by decide +kernel

example : readDoc dMessagingService b!"{\"uri\":\"http://a\"}" = .ok ⟨b!"http://a", none, []⟩ := by
  have e : b!"{\"uri\":\"http://a\"}" = (Value.obj [(b!"uri", .str b!"http://a")]).print := by decide +kernel
  rw [e]
  exact C67_endpoint (f64 := fun _ => none) _ (by simp [Value.WFM, Value.WF]; decide) _ none none rfl rfl rfl
    (fun _ h => by cases h) (fun _ h => by cases h)

/-! ## C68: metadata -/

/-- C68: the JSON given to a JavaScript caller determines the metadata: equal texts, equal metadata. -/
theorem C68_unpack_metadata (m m' : UnpackMetadata) (h : m.WF) (h' : m'.WF) (he : m.toJson.print = m'.toJson.print) : m = m' :=
  ofPrint m.numsOk m'.numsOk (dUnpackMetadata_tree m h) (dUnpackMetadata_tree m' h') he

/-- C68: the same for the metadata of packing. -/
theorem C68_pack_metadata (m m' : PackEncryptedMetadata) (h : m.WF) (h' : m'.WF) (he : m.toJson.print = m'.toJson.print) : m = m' :=
  ofPrint m.numsOk m'.numsOk (dPackMetadata_tree m h) (dPackMetadata_tree m' h') he

example : ({ encrypted := true, encryptedToKids := some [b!"did:x:a#1"], encAlgAnon := some .xc20pEcdhEsA256kw } : UnpackMetadata).WF where
  encryptedFromKid := fun _ h => nomatch h
  encryptedToKids := by intro l h; cases h; intro s hs; simp at hs; subst hs; decide
  signFrom := fun _ h => nomatch h
  fromPriorIssuerKid := fun _ h => nomatch h
  signedMessage := fun _ h => nomatch h
  fromPrior := fun _ h => nomatch h

example : (⟨some ⟨b!"did:x:m#s", b!"http://m"⟩, none, none, [b!"did:x:a#1"]⟩ : PackEncryptedMetadata).WF where
  service := by intro s h; cases h; exact ⟨by decide, by decide⟩
  fromKid := fun _ h => nomatch h
  signByKid := fun _ h => nomatch h
  toKids := by intro s hs; simp at hs; subst hs; decide

/-! ## C69: the JavaScript operations -/

/-- C69: with readable options the JavaScript `unpack` asks the same questions and ends the same way as `unpack`; the
metadata is handed out as JSON. -/
theorem C69_unpack (C : Crypto) (msg text : Str) (o : UnpackOptions) (h : intoSerde .malformed dUnpackOptions text = .ok o)
    (tr : List Event) (r : Res (Message × Value)) :
    Runs (wasmUnpack C msg text) tr r ↔ ∃ r', Runs (unpack C msg o) tr r' ∧ r = r'.map fun p => (p.1, p.2.toJson) := by
  unfold wasmUnpack
  rw [runs_lift_bind, h]
  constructor
  · rintro (⟨e, he, -, -⟩ | ⟨o', ho, hr⟩)
    · cases he
    · cases ho
      rcases runs_bind.1 hr with ⟨e, he, rfl⟩ | ⟨⟨m, md⟩, t1, t2, rfl, h1, h2⟩
      · exact ⟨_, he, rfl⟩
      · obtain ⟨rfl, rfl⟩ := runs_lift.1 h2
        exact ⟨_, by simpa using h1, rfl⟩
  · rintro ⟨r', hr, rfl⟩
    refine .inr ⟨o, rfl, runs_bind.2 ?_⟩
    cases r' with
    | error e => exact .inl ⟨e, hr, rfl⟩
    | ok p => exact .inr ⟨p, tr, [], by simp, hr, runs_lift.2 ⟨rfl, rfl⟩⟩

/-- C69: the same for packing. -/
theorem C69_pack_encrypted (C : Crypto) (m : Message) (to : Str) (from_ signBy : Option Str) (text : Str) (o : PackEncryptedOptions)
    (h : intoSerde .malformed (dPackOptions C.f64) text = .ok o) (tr : List Event) (r : Res (Str × Value)) :
    Runs (wasmPackEncrypted C m to from_ signBy text) tr r ↔
      ∃ r', Runs (packEncrypted C m to from_ signBy o) tr r' ∧ r = r'.map fun p => (p.1, p.2.toJson) := by
  unfold wasmPackEncrypted
  rw [runs_lift_bind, h]
  constructor
  · rintro (⟨e, he, -, -⟩ | ⟨o', ho, hr⟩)
    · cases he
    · cases ho
      rcases runs_bind.1 hr with ⟨e, he, rfl⟩ | ⟨⟨m, md⟩, t1, t2, rfl, h1, h2⟩
      · exact ⟨_, he, rfl⟩
      · obtain ⟨rfl, rfl⟩ := runs_lift.1 h2
        exact ⟨_, by simpa using h1, rfl⟩
  · rintro ⟨r', hr, rfl⟩
    refine .inr ⟨o, rfl, runs_bind.2 ?_⟩
    cases r' with
    | error e => exact .inl ⟨e, hr, rfl⟩
    | ok p => exact .inr ⟨p, tr, [], by simp, hr, runs_lift.2 ⟨rfl, rfl⟩⟩

/-- C69: reading a value from JavaScript succeeds or fails with the error kind of its place, never otherwise. -/
theorem C69_read {α : Type} (k : ErrorKind) (d : Nat → Tree → Option α) (text : Str) :
    (∃ a, intoSerde k d text = .ok a) ∨ intoSerde k d text = .error (.kind k) := by
  unfold intoSerde
  cases h : readDoc d text with
  | ok a => exact .inl ⟨a, rfl⟩
  | error e =>
    cases e with
    | kind k' => exact .inr rfl
    | panic =>
      exfalso
      unfold readDoc fromJson at h
      split at h <;> try cases h
      rename_i t _
      cases hd : d depthLimit t <;> rw [hd] at h <;> cases h
    | fuel =>
      exfalso
      unfold readDoc fromJson at h
      split at h <;> try cases h
      · rename_i hp; exact parseJson_fuel text hp
      · rename_i t _
        cases hd : d depthLimit t <;> rw [hd] at h <;> cases h

/-- C69: options that cannot be read end the operation with `Malformed` before anything is asked. -/
theorem C69_bad_options (C : Crypto) (msg text : Str) (h : ∀ o, intoSerde .malformed dUnpackOptions text ≠ .ok o)
    (tr : List Event) (r : Res (Message × Value)) (hr : Runs (wasmUnpack C msg text) tr r) :
    tr = [] ∧ r = .error (.kind .malformed) := by
  rcases C69_read .malformed dUnpackOptions text with ⟨o, ho⟩ | he
  · exact absurd ho (h o)
  · unfold wasmUnpack at hr
    rw [runs_lift_bind, he] at hr
    rcases hr with ⟨e, he, rfl, rfl⟩ | ⟨o, ho, -⟩
    · cases he; exact ⟨rfl, rfl⟩
    · cases ho

/-- C69: the same for packing. -/
theorem C69_bad_pack_options (C : Crypto) (m : Message) (to : Str) (from_ signBy : Option Str) (text : Str)
    (h : ∀ o, intoSerde .malformed (dPackOptions C.f64) text ≠ .ok o)
    (tr : List Event) (r : Res (Str × Value)) (hr : Runs (wasmPackEncrypted C m to from_ signBy text) tr r) :
    tr = [] ∧ r = .error (.kind .malformed) := by
  rcases C69_read .malformed (dPackOptions C.f64) text with ⟨o, ho⟩ | he
  · exact absurd ho (h o)
  · unfold wasmPackEncrypted at hr
    rw [runs_lift_bind, he] at hr
    rcases hr with ⟨e, he, rfl, rfl⟩ | ⟨o, ho, -⟩
    · cases he; exact ⟨rfl, rfl⟩
    · cases ho

/-- C69: wrapping in forward messages from JavaScript is wrapping with the headers, keys and algorithm that were given. -/
theorem C69_wrap (C : Crypto) (msg to : Str) (headers : List (Str × Value)) (keys : List Str) (alg : AnonCryptAlg)
    (hh : HeadersWF C.f64 127 headers) (hk : AllUtf8 keys) :
    wasmWrapInForward C msg (Value.obj headers).print to (Value.arr (keys.map .str)).print (Value.str alg.name).print =
      wrapInForward C msg (some headers) to keys alg := by
  have e1 : intoSerde .malformed (dHeaders C.f64) (Value.obj headers).print = .ok headers := by
    rw [intoSerde_print (by simp only [Value.NumsOk]; exact hh.values.numsOk)]
    rw [dHeaders_tree depthLimit (by decide) headers hh]
  have e2 : intoSerde .malformed (dVec (fun _ => dStr)) (Value.arr (keys.map .str)).print = .ok keys := by
    rw [intoSerde_print (by simp only [Value.NumsOk]; exact numsOkL_map_str keys)]
    rw [dVec_tree (fun _ => dStr) .str depthLimit keys (by decide) (fun a ha => dStr_tree (hk a ha))]
  have e3 : intoSerde .malformed (dUnit anonAlgNames) (Value.str alg.name).print = .ok alg := by
    rw [intoSerde_print (by simp [Value.NumsOk]), dUnit_anon]
  unfold wasmWrapInForward
  rw [e1, e2, e3]
  rfl

example : HeadersWF f64 127 [(b!"expires_time", .num (.pos 9))] ∧ AllUtf8 [b!"did:x:m"] :=
  ⟨⟨by simp [Value.WFM, Value.WF, Num.WF]; decide, by decide, by simp⟩, by intro s hs; simp at hs; subst hs; decide⟩

example : ∀ o, intoSerde .malformed dUnpackOptions b!"null" ≠ .ok o := by
  intro o ho
  have e : b!"null" = Value.null.print := by decide
  rw [e, intoSerde_print (by simp [Value.NumsOk])] at ho
  simp [Value.tree, dUnpackOptions, asStructFrom] at ho

end DIDComm
