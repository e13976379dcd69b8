import Verif.Proofs.ReadingTypes
import Verif.Props.Grammar
import Verif.Props.Evidence

/-!
# C73, C74: what texts are messages, envelopes and claims, and what they mean

`IsMessage`, `IsEncrypted`, `IsSigned` and `IsClaims` (`Verif.Spec.Reading`) say what the content of a JSON text means.
-/

set_option autoImplicit false

namespace DIDComm

variable {C : Crypto}

/-! ## C73: messages -/

/-- C73: what is read from a text as a message is what its JSON says. -/
theorem C73_reads (s : Str) (m : Message) (h : messageFromStr C s = .ok m) : ∃ t, JsonText t s ∧ IsMessage C.f64 t m := by
  obtain ⟨t, ht, hd⟩ := (C72_reads_json _ s m).1 h
  exact ⟨t, ht, dMessage_sound ht.ok hd⟩

/-- C73: every JSON text of a message is read, as that message; the order of the extra headers, which are a map, is not
fixed. -/
theorem C73_accepts (s : Str) (t : Tree) (m : Message) (h : JsonText t s) (hm : IsMessage C.f64 t m) :
    ∃ l, messageFromStr C s = .ok { m with extraHeaders := l } ∧ (l.map Prod.fst).Nodup ∧ ∀ p, p ∈ l ↔ p ∈ m.extraHeaders := by
  obtain ⟨l, h1, h2, h3⟩ := dMessage_complete h.ok hm
  exact ⟨l, (C72_reads_json _ s _).2 ⟨t, h, h1⟩, h2, h3⟩

/-- A message with an escaped name, numbers of every kind, equal extra headers, an attachment given as an array and one
whose data has the members of all three forms. -/
def World.varied : Str :=
  b!"{\"x\":1, \"id\":\"i\", \"type\":\"t\", \"body\":{\"b\":-0.0,\"a\":18446744073709551615,\"a\":[-5]}, \"x\":{\"x\":null}, \"th\\u0069d\":null, \"created_time\":18446744073709551615, \"attachments\":[ [{\"json\":null,\"links\":3},\"a\",null,null,null,null,null,7], {\"data\":{\"base64\":\"AA\",\"json\":1}, \"id\":\"b\",\"other\":\"\\ud800\"} ] }"

example : ∃ m t, messageFromStr Toy.crypto World.varied = .ok m ∧ JsonText t World.varied ∧ IsMessage Toy.crypto.f64 t m ∧
    m.extraHeaders.length = 1 ∧ m.createdTime = some 18446744073709551615 ∧ (m.attachments.map List.length) = some 2 := by
  have h : (match messageFromStr Toy.crypto World.varied with
    | .ok m => decide (m.extraHeaders.length = 1 ∧ m.createdTime = some 18446744073709551615 ∧ (m.attachments.map List.length) = some 2)
    | _ => false) = true := by decide +kernel
  split at h
  · rename_i m hm
    obtain ⟨t, ht, hi⟩ := C73_reads _ _ hm
    exact ⟨m, t, hm, ht, hi, of_decide_eq_true h⟩
  · cases h

/-- C73: a message returned by `unpack` is what the JSON of the innermost text says. -/
theorem C73_unpacked (s : Str) (opts : UnpackOptions) (tr : List Event) (m : Message) (md : UnpackMetadata)
    (h : Runs (unpack C s opts) tr (.ok (m, md))) : ∃ u t, Within C s u ∧ JsonText t u ∧ IsMessage C.f64 t m := by
  obtain ⟨-, u, hw, hu⟩ := C17_plaintext s opts tr m md h
  obtain ⟨t, ht, hm⟩ := C73_reads u m hu
  exact ⟨u, t, hw, ht, hm⟩

example : ∃ (text : Str) (tr : List Event) (m : Message) (md : UnpackMetadata), Runs (unpack Toy.crypto text {}) tr (.ok (m, md)) ∧
    md.encryptedFromKid.isSome ∧ md.signFrom.isSome := by
  obtain ⟨text, tr, m, md, h, -, h1, h2, -⟩ := World.fullRun
  exact ⟨text, tr, m, md, h, by rw [h1]; rfl, by rw [h2]; rfl⟩

/-- C73: the JSON of a packed plaintext says the message. -/
theorem C73_packed (m : Message) (hm : m.WF C.f64) (tr : List Event) (out : Str) (h : Runs (packPlaintext C m) tr (.ok out)) :
    ∃ t, JsonText t out ∧ IsMessage C.f64 t m := by
  obtain ⟨-, rfl⟩ := draws_plaintext h
  exact C73_reads _ _ (message_print m hm)

example : World.msg.WF Toy.crypto.f64 ∧ ∃ tr out, Runs (packPlaintext Toy.crypto World.msg) tr (.ok out) := by
  have h : World.test World.env (packPlaintext Toy.crypto World.msg) (fun _ => true) = true := by decide +kernel
  obtain ⟨tr, out, h, -⟩ := World.of_test h
  exact ⟨World.msg_wf, tr, out, h⟩

/-! ## C74: envelopes, claims, and texts that are neither -/

/-- C74: the texts of encrypted envelopes are the JSON texts with that meaning. -/
theorem C74_encrypted (s : Str) (j : JWE) : jweFromStr s = .ok j ↔ ∃ t, JsonText t s ∧ IsEncrypted t j := by
  unfold jweFromStr
  rw [C72_reads_json]
  exact ⟨fun ⟨t, ht, h⟩ => ⟨t, ht, (decodes_encrypted t ht.ok j).1 h⟩, fun ⟨t, ht, h⟩ => ⟨t, ht, (decodes_encrypted t ht.ok j).2 h⟩⟩

/-- C74: the texts of signed envelopes are the JSON texts with that meaning. -/
theorem C74_signed (s : Str) (j : JWS) : jwsFromStr s = .ok j ↔ ∃ t, JsonText t s ∧ IsSigned t j := by
  unfold jwsFromStr
  rw [C72_reads_json]
  exact ⟨fun ⟨t, ht, h⟩ => ⟨t, ht, (decodes_signed t ht.ok j).1 h⟩, fun ⟨t, ht, h⟩ => ⟨t, ht, (decodes_signed t ht.ok j).2 h⟩⟩

/-- C74: the texts of the claims of a `from_prior` are the JSON texts with that meaning. -/
theorem C74_claims (s : Str) (f : FromPrior) : fromJson dFromPrior s = .ok f ↔ ∃ t, JsonText t s ∧ IsClaims t f := by
  rw [C72_reads_json]
  exact ⟨fun ⟨t, ht, h⟩ => ⟨t, ht, (decodes_claims t ht.ok f).1 h⟩, fun ⟨t, ht, h⟩ => ⟨t, ht, (decodes_claims t ht.ok f).2 h⟩⟩

/-- C74: the texts of the protected headers are the JSON texts with that meaning. -/
theorem C74_headers (s : Str) :
    (∀ h, fromJson (dJweHeader C.f64) s = .ok h ↔ ∃ t, JsonText t s ∧ IsJweHeader C.f64 t h) ∧
    (∀ h, fromJson dJwsHeader s = .ok h ↔ ∃ t, JsonText t s ∧ IsJwsHeader t h) ∧
    (∀ h, fromJson dCompactHeader s = .ok h ↔ ∃ t, JsonText t s ∧ IsCompactHeader t h) := by
  refine ⟨fun h => ?_, fun h => ?_, fun h => ?_⟩ <;> rw [C72_reads_json]
  · exact ⟨fun ⟨t, ht, e⟩ => ⟨t, ht, (decodes_jweHeader t ht.ok h).1 e⟩, fun ⟨t, ht, e⟩ => ⟨t, ht, (decodes_jweHeader t ht.ok h).2 e⟩⟩
  · exact ⟨fun ⟨t, ht, e⟩ => ⟨t, ht, (decodes_jwsHeader t ht.ok h).1 e⟩, fun ⟨t, ht, e⟩ => ⟨t, ht, (decodes_jwsHeader t ht.ok h).2 e⟩⟩
  · exact ⟨fun ⟨t, ht, e⟩ => ⟨t, ht, (decodes_compactHeader t ht.ok h).1 e⟩,
      fun ⟨t, ht, e⟩ => ⟨t, ht, (decodes_compactHeader t ht.ok h).2 e⟩⟩

example : (∃ h, fromJson (dJweHeader Toy.crypto.f64) b!"{\"alg\":\"none\",\"enc\":\"A256GCM\",\"apv\":\"\",\"epk\":{}}" = .ok h ∧ h.alg = .other b!"none") ∧
    (∃ h, fromJson dJwsHeader b!"{\"typ\":\"JWM\",\"alg\":\"EdDSA\",\"b64\":true}" = .ok h ∧ h.alg = .edDSA) ∧
    (∃ h, fromJson dCompactHeader b!"[\"JWT\",\"ES256K\",\"k\"]" = .ok h ∧ h.kid = b!"k") :=
  ⟨⟨_, rfl, rfl⟩, ⟨_, rfl, rfl⟩, ⟨_, rfl, rfl⟩⟩

/-- An encrypted envelope with an array in place of an object, a signed one with two signatures, claims with a `null`. -/
example : (∃ j, jweFromStr b!"{\"tag\":\"\",\"protected\":\"p\",\"recipients\":[[[\"k\"],\"e\"]],\"x\":[],\"iv\":\"\",\"ciphertext\":\"c\"}" = .ok j ∧ j.recipients.length = 1) ∧
    (∃ j, jwsFromStr b!"{\"payload\":\"p\",\"signatures\":[{\"header\":{\"kid\":\"k\"},\"protected\":\"\",\"signature\":\"\"},[[\"\"],\"\",\"\"]]}" = .ok j ∧ j.signatures.length = 2) ∧
    (∃ f, fromJson dFromPrior b!"{\"iss\":\"\\u0061\",\"sub\":\"b\",\"exp\":0,\"nbf\":null}" = .ok f ∧ f.exp = some 0 ∧ f.nbf = none) :=
  ⟨⟨_, rfl, rfl⟩, ⟨_, rfl, rfl⟩, ⟨_, rfl, rfl, rfl⟩⟩

/-- The error of reading a JSON text whose content does not fit. -/
theorem unfit {α : Type} {d : Nat → Tree → Option α} {_ : Early d} {s : Str} {t : Tree} (ht : JsonText t s) (h : ∀ a, d depthLimit t ≠ some a) :
    fromJson d s = .error (.kind .malformed) := by
  refine (C72_refuses d s).1 t ht ?_
  cases hd : d depthLimit t with
  | none => rfl
  | some a => exact absurd hd (h a)

/-- C74: a JSON text that is neither an envelope nor a message is refused as `Malformed`, without asking anything. -/
theorem C74_refused (s : Str) (t : Tree) (ht : JsonText t s) (h1 : ∀ j, ¬ IsEncrypted t j) (h2 : ∀ j, ¬ IsSigned t j)
    (h3 : ∀ m, ¬ IsMessage C.f64 t m) (opts : UnpackOptions) (tr : List Event) (r : Res (Message × UnpackMetadata))
    (h : Runs (unpack C s opts) tr r) : tr = [] ∧ r = .error (.kind .malformed) := by
  have e1 : jweFromStr s = .error (.kind .malformed) := unfit ht fun j hj => h1 j ((decodes_encrypted t ht.ok j).1 hj)
  have e2 : jwsFromStr s = .error (.kind .malformed) := unfit ht fun j hj => h2 j ((decodes_signed t ht.ok j).1 hj)
  have e3 : messageFromStr C s = .error (.kind .malformed) := unfit ht fun j hj => h3 j (dMessage_sound ht.ok hj)
  rw [unpack_plain e1 e2] at h
  unfold afterSign tryUnpackPlaintext at h
  rw [e3] at h
  exact runs_ret.1 h

/-- A message without a body; the result follows from the failure to read it. -/
example : ∃ t, JsonText t b!"{\"id\":\"i\",\"type\":\"t\"}" ∧ (∀ j, ¬ IsEncrypted t j) ∧ (∀ j, ¬ IsSigned t j) ∧
    ∀ m, ¬ IsMessage Toy.crypto.f64 t m := by
  have ht : JsonText _ b!"{\"id\":\"i\",\"type\":\"t\"}" := (parseJson_iff _ _).1 rfl
  refine ⟨_, ht, fun j hj => ?_, fun j hj => ?_, fun m hm => ?_⟩
  · have := (decodes_encrypted _ ht.ok j).2 hj
    cases this
  · have := (decodes_signed _ ht.ok j).2 hj
    cases this
  · obtain ⟨l, h, -⟩ := dMessage_complete ht.ok hm
    cases h

/-- C74: a JSON text that is a message and no envelope is unpacked without asking anything, as what it says, provided its `typ`
is that of plaintext messages and it has no `from_prior`; the result says that it was neither encrypted nor signed. -/
theorem C74_plain (s : Str) (t : Tree) (m : Message) (ht : JsonText t s) (h1 : ∀ j, ¬ IsEncrypted t j) (h2 : ∀ j, ¬ IsSigned t j)
    (hm : IsMessage C.f64 t m) (htyp : m.typ = b!"application/didcomm-plain+json") (hp : m.fromPrior = none)
    (opts : UnpackOptions) (tr : List Event) (r : Res (Message × UnpackMetadata)) (h : Runs (unpack C s opts) tr r) :
    tr = [] ∧ ∃ l, r = .ok ({ m with extraHeaders := l }, {}) ∧ (l.map Prod.fst).Nodup ∧ ∀ p, p ∈ l ↔ p ∈ m.extraHeaders := by
  have e1 : jweFromStr s = .error (.kind .malformed) := unfit ht fun j hj => h1 j ((decodes_encrypted t ht.ok j).1 hj)
  have e2 : jwsFromStr s = .error (.kind .malformed) := unfit ht fun j hj => h2 j ((decodes_signed t ht.ok j).1 hj)
  obtain ⟨l, e3, h5, h6⟩ := C73_accepts s t m ht hm
  rw [unpack_plain e1 e2] at h
  unfold afterSign tryUnpackPlaintext at h
  rw [e3] at h
  obtain ⟨id, typ, type_, body, from_, to, thid, pthid, extra, ct, et, fp, att⟩ := m
  simp only at htyp hp
  subst htyp hp
  obtain ⟨rfl, rfl⟩ := runs_ret.1 h
  exact ⟨rfl, l, rfl, h5, h6⟩

example : ∃ t m, JsonText t World.varied ∧ (∀ j, ¬ IsEncrypted t j) ∧ (∀ j, ¬ IsSigned t j) ∧ IsMessage Toy.crypto.f64 t m ∧
    m.typ = b!"application/didcomm-plain+json" ∧ m.fromPrior = none := by
  have h : (match parseJson World.varied with
    | .ok t => (dJwe depthLimit t).isNone && (dJws depthLimit t).isNone &&
      (match dMessage Toy.crypto.f64 depthLimit t with | some m => decide (m.typ = plaintextTyp ∧ m.fromPrior = none) | none => false)
    | _ => false) = true := by decide +kernel
  split at h
  · rename_i t hp
    have ht := (parseJson_iff _ _).1 hp
    simp only [Bool.and_eq_true, Option.isNone_iff_eq_none] at h
    obtain ⟨⟨a, b⟩, c⟩ := h
    split at c
    · rename_i m hm
      refine ⟨t, m, ht, fun j hj => ?_, fun j hj => ?_, dMessage_sound ht.ok hm, of_decide_eq_true c⟩
      · rw [(decodes_encrypted t ht.ok j).2 hj] at a; cases a
      · rw [(decodes_signed t ht.ok j).2 hj] at b; cases b
    · cases c
  · cases h

end DIDComm
