import Verif.Spec.Reading

/-!
# What a receiver makes of an envelope that was carried as a JSON value

The relations of `Verif.Spec.Reading` ask for members that occur once and for strings without escapes.  When a text is read as a
JSON value and printed again, the last of equal names remains, and a string is printed with escapes only if it has to be.
-/

set_option autoImplicit false

namespace DIDComm

/-- The last member of this name. -/
def LastReq {α : Type} (m : List (Str × Tree)) (k : Str) (R : Tree → α → Prop) (x : α) : Prop := ∃ t, LastOf m k t ∧ R t x

/-- A string with this text, however it is written, in which there is nothing that JSON has to escape. -/
def IsPlainText (t : Tree) (s : Str) : Prop := IsText t s ∧ ∀ b ∈ s, b ≠ 0x22 ∧ b ≠ 0x5C ∧ 0x20 ≤ b

/-- The unprotected header `{ kid }`. -/
def CarriesKidHeader (t : Tree) (kid : Str) : Prop := ∃ m, IsStruct [b!"kid"] t m ∧ LastReq m b!"kid" IsPlainText kid

/-- A recipient of an encrypted envelope. -/
def CarriesRecipient (t : Tree) (r : JweRecipient) : Prop :=
  ∃ m, IsStruct [b!"header", b!"encrypted_key"] t m ∧ LastReq m b!"header" CarriesKidHeader r.kid ∧
    LastReq m b!"encrypted_key" IsPlainText r.encryptedKey

/-- An encrypted envelope. -/
def CarriesEncrypted (t : Tree) (j : JWE) : Prop :=
  ∃ m, IsStruct [b!"protected", b!"recipients", b!"iv", b!"ciphertext", b!"tag"] t m ∧
    LastReq m b!"protected" IsPlainText j.protected_ ∧ LastReq m b!"recipients" (IsList CarriesRecipient) j.recipients ∧
    LastReq m b!"iv" IsPlainText j.iv ∧ LastReq m b!"ciphertext" IsPlainText j.ciphertext ∧ LastReq m b!"tag" IsPlainText j.tag

/-- A signature of a signed envelope. -/
def CarriesSignature (t : Tree) (s : JwsSig) : Prop :=
  ∃ m, IsStruct [b!"header", b!"protected", b!"signature"] t m ∧ LastReq m b!"header" CarriesKidHeader s.kid ∧
    LastReq m b!"protected" IsPlainText s.protected_ ∧ LastReq m b!"signature" IsPlainText s.signature

/-- A signed envelope. -/
def CarriesSigned (t : Tree) (j : JWS) : Prop :=
  ∃ m, IsStruct [b!"signatures", b!"payload"] t m ∧ LastReq m b!"signatures" (IsList CarriesSignature) j.signatures ∧
    LastReq m b!"payload" IsPlainText j.payload

end DIDComm
