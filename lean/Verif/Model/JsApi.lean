import Verif.Model.DocSerde

/-!
# The objects of the language bindings — /repo/wasm/src/message, /repo/uniffi/src/common.rs

A JavaScript value is represented by its JSON text, as in `Verif.Model.DocSerde`: `into_serde` is
`serde_json::from_str` of `JSON.stringify(value)` and `from_serde` is `JSON.parse` of `serde_json::to_string`.  Not modelled: what
JavaScript itself does with the text, such as rounding integers above 2^53.
-/

set_option autoImplicit false

namespace DIDComm

/-- `new Message(value)` — /repo/wasm/src/message/mod.rs L21-34. -/
def wasmMessageNew (C : Crypto) (text : Str) : Res Message := intoSerde .malformed (dMessage C.f64) text

/-- `Message.as_value` — /repo/wasm/src/message/mod.rs L36-43. -/
def wasmMessageValue (m : Message) : Str := m.toJson.print

/-- `new FromPrior(value)` — /repo/wasm/src/message/from_prior/mod.rs L19-32. -/
def wasmFromPriorNew (text : Str) : Res FromPrior := intoSerde .malformed dFromPrior text

/-- `FromPrior.as_value` — /repo/wasm/src/message/from_prior/mod.rs L34-41. -/
def wasmFromPriorValue (f : FromPrior) : Str := f.toJson.print

/-- `Serialize for ParsedForward`, of the message `m` — /repo/src/protocols/routing/forward.rs L7-12. -/
def ParsedForward.toJson (m : Message) (p : ParsedForward) : Value :=
  .obj [(b!"msg", m.toJson), (b!"next", .str p.next), (b!"forwarded_msg", p.forwardedMsg)]

/-- `Message.try_parse_forward` of the JavaScript API — /repo/wasm/src/message/protocols/routing/mod.rs L76-86. -/
def wasmTryParseForward (m : Message) : Str := (orNull (ParsedForward.toJson m) (tryParseForward m)).print

/-- `Serialize for PackSignedMetadata`, which has one field — /repo/src/message/pack_signed.rs L131-135. -/
def packSignedMetadataJson (signByKid : Str) : Value := .obj [(b!"sign_by_kid", .str signByKid)]

/-- `Message.pack_signed` of the JavaScript API — /repo/wasm/src/message/pack_signed.rs L10-44. -/
def wasmPackSigned (C : Crypto) (m : Message) (signBy : Str) : Prog (Str × Value) := do
  let (text, kid) ← packSigned C m signBy
  Prog.lift (.ok (text, packSignedMetadataJson kid))

/-- `JsonValue::into_custom` — /repo/uniffi/src/common.rs L32-34. -/
def uniffiJson (C : Crypto) (text : Str) : Res Value := fromJson (toValue C.f64) text

/-- `JsonValue::from_custom` — /repo/uniffi/src/common.rs L36-38. -/
def uniffiJsonText (v : Value) : Str := v.print

end DIDComm
