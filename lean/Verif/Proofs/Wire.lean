import Verif.Spec.Wire

/-! # The serialisers write the forms of the specification -/

set_option autoImplicit false

namespace DIDComm

theorem JweHeader.onWire_eq (h : JweHeader) : h.onWire = h.toJson.print := by
  obtain ⟨typ, alg, enc, skid, apu, apv, epk⟩ := h
  cases typ <;> cases skid <;> cases apu <;> rfl

theorem JWE.onWire_eq (j : JWE) : j.onWire = j.toJson.print := rfl

theorem JWS.onWire_eq (j : JWS) : j.onWire = j.toJson.print := rfl

theorem JwsHeader.onWire_eq (h : JwsHeader) : h.onWire = h.toJson.print := rfl

theorem CompactHeader.onWire_eq (h : CompactHeader) : h.onWire = h.toJson.print := rfl

end DIDComm
