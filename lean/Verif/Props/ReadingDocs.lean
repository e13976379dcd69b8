import Verif.Proofs.ReadingDocs
import Verif.Props.Grammar
import Verif.Props.Documents

/-!
# C75, C76: what texts are documents, secrets and options, and what they mean

`IsDocument`, `IsSecret`, `IsUnpackOptions` and `IsPackOptions` (`Verif.Spec.ReadingDocs`) say what the content of a JSON
text means.
-/

set_option autoImplicit false

namespace DIDComm

variable {f64 : Str → Option Str}

theorem fromJson_decodes {α : Type} {d : Nat → Tree → Option α} {_ : Early d} {R : Tree → α → Prop} (h : Decodes (d depthLimit) R) (s : Str) (a : α) :
    fromJson d s = .ok a ↔ ∃ t, JsonText t s ∧ R t a := by
  rw [C72_reads_json]
  exact ⟨fun ⟨t, ht, e⟩ => ⟨t, ht, (h t ht.ok a).1 e⟩, fun ⟨t, ht, e⟩ => ⟨t, ht, (h t ht.ok a).2 e⟩⟩

theorem intoSerde_ok {α : Type} {k : ErrorKind} {d : Nat → Tree → Option α} {s : Str} {a : α} :
    intoSerde k d s = .ok a ↔ readDoc d s = .ok a := by
  unfold intoSerde
  cases readDoc d s with
  | ok b => rfl
  | error e => cases e <;> simp [withKind]

theorem intoSerde_total {α : Type} (k : ErrorKind) (d : Nat → Tree → Option α) (s : Str) :
    (∃ a, intoSerde k d s = .ok a) ∨ intoSerde k d s = .error (.kind k) := by
  unfold intoSerde
  by_cases h : ∃ t, JsonText t s
  · obtain ⟨t, ht⟩ := h
    cases hd : d depthLimit t with
    | some a => exact .inl ⟨a, by rw [readDoc, (@C72_reads_json _ d ⟨fun _ _ => false⟩ s a).2 ⟨t, ht, hd⟩]; rfl⟩
    | none => rw [readDoc, (@C72_refuses _ d ⟨fun _ _ => false⟩ s).1 t ht hd]; exact .inr rfl
  · unfold readDoc
    rcases (@C72_refuses _ d ⟨fun _ _ => false⟩ s).2 (fun t ht => h ⟨t, ht⟩) with e | e <;> (rw [e]; exact .inr rfl)

/-! ## C75: documents and secrets -/

/-- C75: the texts of DID documents are the JSON texts with that meaning. -/
theorem C75_document (s : Str) (d : DIDDoc) : readDoc (dDIDDoc f64) s = .ok d ↔ ∃ t, JsonText t s ∧ IsDocument f64 t d :=
  fromJson_decodes decodes_document s d

/-- C75: the texts of secrets are the JSON texts with that meaning. -/
theorem C75_secret (s : Str) (x : Secret) : readDoc (dSecret f64) s = .ok x ↔ ∃ t, JsonText t s ∧ IsSecret f64 t x :=
  fromJson_decodes decodes_secret s x

/-- A document with an escaped name, a type given as an object, material in two forms, a service without routing keys, one
with `null` for `accept`, and members that are ignored; a secret whose JWK is preferred to another form. -/
def World.document : Str :=
  b!"{\"\\u0069d\":\"did:x:a\",\"keyAgreement\":[\"did:x:a#1\"],\"authentication\":[],\"@context\":[[]],\"verificationMethod\":[{\"id\":\"did:x:a#1\",\"type\":{\"JsonWebKey2020\":null},\"controller\":\"did:x:a\",\"publicKeyBase58\":\"z\",\"publicKeyMultibase\":\"m\"}],\"service\":[{\"id\":\"s\",\"type\":\"DIDCommMessaging\",\"serviceEndpoint\":{\"uri\":\"u\",\"accept\":null}},{\"id\":\"o\",\"type\":\"Other\",\"serviceEndpoint\":{\"b\":1,\"a\":2,\"a\":3}}]}"

example : ∃ d, readDoc (dDIDDoc Toy.crypto.f64) World.document = .ok d ∧
    d.id = b!"did:x:a" ∧ d.keyAgreement = [b!"did:x:a#1"] ∧ d.authentication = [] ∧
    (∃ v, d.verificationMethod = [v] ∧ v.type_ = .jsonWebKey2020 ∧ v.material = .multibase b!"m") ∧
    (∃ s o, d.service = [⟨b!"s", .didCommMessaging s⟩, ⟨b!"o", .other o⟩] ∧ s.uri = b!"u" ∧ s.accept = none ∧ s.routingKeys = [] ∧
      o.print = b!"{\"a\":3,\"b\":1}") := by
  have h : (match readDoc (dDIDDoc Toy.crypto.f64) World.document with
    | .ok ⟨i, ka, au, [⟨_, .jsonWebKey2020, _, .multibase m⟩], [⟨s, .didCommMessaging ⟨u, none, []⟩⟩, ⟨o, .other x⟩]⟩ =>
      decide (i = b!"did:x:a" ∧ ka = [b!"did:x:a#1"] ∧ au = [] ∧ m = b!"m" ∧ s = b!"s" ∧ u = b!"u" ∧ o = b!"o" ∧ x.print = b!"{\"a\":3,\"b\":1}")
    | _ => false) = true := by decide +kernel
  split at h
  · rename_i hd
    obtain ⟨rfl, rfl, rfl, rfl, rfl, rfl, rfl, hx⟩ := of_decide_eq_true h
    exact ⟨_, hd, rfl, rfl, rfl, ⟨_, rfl, rfl, rfl⟩, ⟨_, _, rfl, rfl, rfl, rfl, hx⟩⟩
  · cases h

example : readDoc (dSecret Toy.crypto.f64) b!"{\"privateKeyBase58\":\"z\",\"privateKeyJwk\":null,\"type\":\"Other\",\"id\":\"k\"}" =
    .ok ⟨b!"k", .other, .jwk .null⟩ := by rfl

/-- C75: a JavaScript resolver's answer counts as "no document" exactly if it is `null`, as a document exactly if its JSON is
one; everything else fails with `InvalidState`.  Likewise for secrets. -/
theorem C75_answers (s : Str) :
    (∀ d, wasmDoc f64 s = .ok (some d) ↔ ∃ t, JsonText t s ∧ IsDocument f64 t d) ∧
    (wasmDoc f64 s = .ok none ↔ JsonText .null s) ∧
    ((∃ o, wasmDoc f64 s = .ok o) ∨ wasmDoc f64 s = .error (.kind .invalidState)) ∧
    (∀ x, wasmSecret f64 s = .ok (some x) ↔ ∃ t, JsonText t s ∧ IsSecret f64 t x) ∧
    (wasmSecret f64 s = .ok none ↔ JsonText .null s) ∧
    ((∃ o, wasmSecret f64 s = .ok o) ∨ wasmSecret f64 s = .error (.kind .invalidState)) := by
  have some_iff : ∀ {α : Type} (d : Nat → Tree → Option α) (R : Tree → α → Prop), Decodes (d depthLimit) R → (∀ a, ¬ R .null a) →
      ∀ a, intoSerde .invalidState (dOptTop d) s = .ok (some a) ↔ ∃ t, JsonText t s ∧ R t a := by
    intro α d R hd hn a
    rw [intoSerde_ok, C72_reads_json]
    constructor
    · rintro ⟨t, ht, h⟩
      unfold dOptTop dOpt at h
      split at h
      · cases h
      · obtain ⟨b, hb, e⟩ := Option.map_eq_some_iff.1 h
        cases e
        exact ⟨t, ht, (hd t ht.ok _).1 hb⟩
    · rintro ⟨t, ht, h⟩
      refine ⟨t, ht, ?_⟩
      unfold dOptTop dOpt
      split
      · exact absurd h (hn a)
      · rw [(hd _ ht.ok a).2 h]; rfl
  have none_iff : ∀ {α : Type} (d : Nat → Tree → Option α), intoSerde .invalidState (dOptTop d) s = .ok none ↔ JsonText .null s := by
    intro α d
    rw [intoSerde_ok, C72_reads_json]
    constructor
    · rintro ⟨t, ht, h⟩
      unfold dOptTop dOpt at h
      split at h
      · exact ht
      · obtain ⟨b, hb, e⟩ := Option.map_eq_some_iff.1 h
        cases e
    · intro ht; exact ⟨_, ht, rfl⟩
  refine ⟨some_iff _ _ decodes_document ?_, none_iff _, intoSerde_total _ _ _, some_iff _ _ decodes_secret ?_, none_iff _,
    intoSerde_total _ _ _⟩
  · rintro a ⟨m, ⟨l, h, -⟩ | ⟨l, h, -⟩, -⟩ <;> cases h
  · rintro a ⟨m, ⟨l, h, -⟩, -⟩; cases h

example : wasmDoc Toy.crypto.f64 b!" null" = .ok none ∧ wasmDoc Toy.crypto.f64 b!"{}" = .error (.kind .invalidState) ∧
    wasmSecret Toy.crypto.f64 b!"nul" = .error (.kind .invalidState) :=
  ⟨rfl, rfl, rfl⟩

/-! ## C76: options -/

/-- C76: the unpacking options are read from exactly the JSON texts with that meaning; all other texts are `Malformed`. -/
theorem C76_unpack_options (s : Str) :
    (∀ o, intoSerde .malformed dUnpackOptions s = .ok o ↔ ∃ t, JsonText t s ∧ IsUnpackOptions t o) ∧
    ((∀ t o, JsonText t s → ¬ IsUnpackOptions t o) → intoSerde .malformed dUnpackOptions s = .error (.kind .malformed)) := by
  have h : ∀ o, intoSerde .malformed dUnpackOptions s = .ok o ↔ ∃ t, JsonText t s ∧ IsUnpackOptions t o := fun o => by
    rw [intoSerde_ok]; exact fromJson_decodes decodes_unpackOptions s o
  refine ⟨h, fun hn => ?_⟩
  rcases intoSerde_total .malformed dUnpackOptions s with ⟨o, ho⟩ | ho
  · obtain ⟨t, ht, hi⟩ := (h o).1 ho
    exact absurd hi (hn t o ht)
  · exact ho

/-- C76: the packing options that are read are what the JSON says; every JSON text of options is read, up to the order of the
headers; all other texts are `Malformed`. -/
theorem C76_pack_options (s : Str) :
    (∀ o, intoSerde .malformed (dPackOptions f64) s = .ok o → ∃ t, JsonText t s ∧ IsPackOptions f64 t o) ∧
    (∀ t o, JsonText t s → IsPackOptions f64 t o → ∃ o', intoSerde .malformed (dPackOptions f64) s = .ok o' ∧ SameOptions o o') ∧
    ((∀ t o, JsonText t s → ¬ IsPackOptions f64 t o) → intoSerde .malformed (dPackOptions f64) s = .error (.kind .malformed)) := by
  have h1 : ∀ o, intoSerde .malformed (dPackOptions f64) s = .ok o → ∃ t, JsonText t s ∧ IsPackOptions f64 t o := fun o ho => by
    rw [intoSerde_ok, C72_reads_json] at ho
    obtain ⟨t, ht, hd⟩ := ho
    exact ⟨t, ht, dPackOptions_sound ht.ok hd⟩
  refine ⟨h1, fun t o ht ho => ?_, fun hn => ?_⟩
  · obtain ⟨o', ho', hs⟩ := dPackOptions_complete ht.ok ho
    exact ⟨o', by rw [intoSerde_ok, C72_reads_json]; exact ⟨t, ht, ho'⟩, hs⟩
  · rcases intoSerde_total .malformed (dPackOptions f64) s with ⟨o, ho⟩ | ho
    · obtain ⟨t, ht, hi⟩ := h1 o ho
      exact absurd hi (hn t o ht)
    · exact ho

/-- Options as an array, with an escape and with equal headers; a text that is no options. -/
example : intoSerde .malformed dUnpackOptions b!"[true]" = .ok ⟨true, false⟩ ∧
    intoSerde .malformed dUnpackOptions b!"{\"unwrap_re_wrapping_forward\":null}" = .error (.kind .malformed) ∧
    intoSerde .malformed (dPackOptions Toy.crypto.f64) b!"{\"f\\u006frward\":false,\"forward_headers\":{\"a\":1,\"a\":2},\"enc_alg_anon\":{\"A256gcmEcdhEsA256kw\":null}}" =
      .ok ⟨false, false, some [(b!"a", .num (.pos 2))], none, .a256cbcHs512Ecdh1puA256kw, .a256gcmEcdhEsA256kw⟩ ∧
    intoSerde .malformed (dPackOptions Toy.crypto.f64) b!"[true,true,null]" = .error (.kind .malformed) :=
  ⟨rfl, rfl, rfl, rfl⟩

end DIDComm
