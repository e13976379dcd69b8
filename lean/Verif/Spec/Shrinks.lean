import Verif.Model.Crypto
import Verif.Spec.Values

/-!
# What termination assumes of the primitives

Unpacking loops as long as it finds a forward message inside an encrypted one.
-/

set_option autoImplicit false

namespace DIDComm

/-- Decryption never returns more bytes than ciphertext and tag have. -/
def NeverLonger (C : Crypto) : Prop :=
  ∀ ce key nonce aad x p, C.aeadDec ce key nonce aad x = some p → p.length ≤ x.length

/-- Printing a double gives the text of a JSON number with a fraction or an exponent. -/
def PrintsFloats (C : Crypto) : Prop := ∀ s t, C.f64 s = some t → (fltTok t).isSome = true

end DIDComm
