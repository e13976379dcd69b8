import Verif.Model.Keys
import Verif.Model.Prog

/-! # When key material makes the library panic -/

set_option autoImplicit false

namespace DIDComm

/-- A legacy Ed25519 secret that is too short: Base58 material that decodes to fewer than 32 bytes, or
Multibase material (`z`, then base58) with the two-byte Ed25519-private codec prefix 0x1300 and fewer
than 32 bytes after it. -/
def ShortEd25519 (s : Secret) : Prop :=
  (s.type_ = .ed25519VerificationKey2018 ∧ ∃ t b, s.material = .base58 t ∧ b58Decode t = some b ∧ b.length < 32) ∨
  (s.type_ = .ed25519VerificationKey2020 ∧ ∃ t b, s.material = .multibase (b!"z" ++ t) ∧ b58Decode t = some b ∧
    readVarint b = some 0x1300 ∧ b.length < 2 + 32)

/-- The resolver handed out no short secret. -/
def NoShortSecret (tr : List Event) : Prop :=
  ∀ kid s, (⟨.getSecret kid, (.ok (some s) : Except ErrorKind (Option Secret))⟩ : Event) ∈ tr → ¬ ShortEd25519 s

end DIDComm
