import Verif.Model.Serde
import Verif.Model.Base64

/-! # What is on the wire: the texts of envelopes -/

set_option autoImplicit false

namespace DIDComm

/-- A member that is there if it has a value. -/
def ifAny (name : Str) : Option Str → List (Str × Value)
  | none => []
  | some x => [(name, .str x)]

/-- The JSON text of the protected header of an encrypted envelope; a missing `typ` is written as null. -/
def JweHeader.onWire (h : JweHeader) : Str :=
  (Value.obj ([(b!"typ", match h.typ with | some t => .str t | none => .null), (b!"alg", .str h.alg.asStr), (b!"enc", .str h.enc.asStr)] ++
    ifAny b!"skid" h.skid ++ ifAny b!"apu" h.apu ++ [(b!"apv", .str h.apv), (b!"epk", h.epk)])).print

/-- The JSON text of an encrypted envelope. -/
def JWE.onWire (j : JWE) : Str :=
  (Value.obj [(b!"protected", .str j.protected_),
    (b!"recipients", .arr (j.recipients.map fun r =>
      .obj [(b!"header", .obj [(b!"kid", .str r.kid)]), (b!"encrypted_key", .str r.encryptedKey)])),
    (b!"iv", .str j.iv), (b!"ciphertext", .str j.ciphertext), (b!"tag", .str j.tag)]).print

/-- The JSON text of a signed envelope. -/
def JWS.onWire (j : JWS) : Str :=
  (Value.obj [(b!"signatures", .arr (j.signatures.map fun s =>
      .obj [(b!"header", .obj [(b!"kid", .str s.kid)]), (b!"protected", .str s.protected_), (b!"signature", .str s.signature)])),
    (b!"payload", .str j.payload)]).print

/-- The JSON text of the protected header of a signature. -/
def JwsHeader.onWire (h : JwsHeader) : Str := (Value.obj [(b!"typ", .str h.typ), (b!"alg", .str h.alg.asStr)]).print

/-- The JSON text of the header of a `from_prior` JWT. -/
def CompactHeader.onWire (h : CompactHeader) : Str :=
  (Value.obj [(b!"typ", .str h.typ), (b!"alg", .str h.alg.asStr), (b!"kid", .str h.kid)]).print

/-- `out` is the JSON text of a JWE with the given recipients and the given protected
header. -/
def IsJwe (out : Str) (hdr : JweHeader) (kids : List Str) : Prop :=
  ∃ j : JWE, out = j.onWire ∧ j.protected_ = B64.encode hdr.onWire ∧
    j.recipients.map JweRecipient.kid = kids

/-- `out` is the JSON text of a JWS with exactly one signature, by the given key, over the
given payload. -/
def IsJws (out : Str) (hdr : JwsHeader) (kid : Str) (payload : Bytes) : Prop :=
  ∃ sig : Bytes, out = JWS.onWire ⟨[⟨kid, B64.encode hdr.onWire, B64.encode sig⟩], B64.encode payload⟩

end DIDComm
