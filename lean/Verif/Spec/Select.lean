import Verif.Model.Keys
import Verif.Spec.Codec

/-!
# Key selection and addressing, described independently of the code

`didOf` and `HasFragment` are what the specification of DID URLs says: the DID is what
precedes the first `#`.
-/

set_option autoImplicit false

namespace DIDComm

/-- The DID of a DID or DID URL: everything before the first `#`. -/
def didOf (s : Str) : Str := s.takeWhile (fun b => b ≠ 0x23)

/-- A DID URL with a fragment, that is a key id. -/
abbrev HasFragment (s : Str) : Prop := 0x23 ∈ s

/-- The verification method with an id (the first, should there be several). -/
def methodOf (doc : DIDDoc) (kid : Str) : Option VerificationMethod :=
  doc.verificationMethod.find? (fun vm => vm.id = kid)

/-- The key type of the method with an id; `none` if there is no such method or its type is
not supported. -/
def keyTypeOf (doc : DIDDoc) (kid : Str) : Option Curve := (methodOf doc kid).bind VerificationMethod.keyAlg

/-- Of the listed key ids those that are meant by `who`: the one named if `who` is a key id,
all if it is a DID. -/
def meantBy (who : Str) (listed : List Str) : List Str :=
  if HasFragment who then listed.filter (fun k => k = who) else listed

/-- The keys that `sign_by` may mean: itself if it is a key id, or all authentication keys. -/
def signersMeant (signBy : Str) (doc : DIDDoc) : List Str :=
  if HasFragment signBy then [signBy] else doc.authentication

/-- The type is supported for encryption. -/
abbrev ForAgreement (c : Curve) : Prop := c = .x25519 ∨ c = .p256

/-- A DID without a fragment. -/
def PlainDid (s : Str) : Prop := LooksLikeDid s ∧ ¬ HasFragment s

/-- What makes the arguments of `pack_encrypted` illegal. -/
def IllegalArguments (m : Message) (to : Str) (from_ signBy : Option Str) : Prop :=
  ¬ LooksLikeDid to ∨ (∃ f, from_ = some f ∧ ¬ LooksLikeDid f) ∨ (∃ s, signBy = some s ∧ ¬ LooksLikeDid s) ∨
  (∃ l, m.to = some l ∧ didOf to ∉ l) ∨ (∃ f sf, from_ = some f ∧ m.from_ = some sf ∧ didOf f ≠ sf)

/-- The sender key `s` can talk to one of the recipient keys: both have the same recognised type
(`keyTypeOf` also recognises signature types; encrypting for such a key fails afterwards). -/
def Compatible (fromDoc toDoc : DIDDoc) (to : Str) (s : Str) : Prop :=
  ∃ c, keyTypeOf fromDoc s = some c ∧ ∃ t ∈ meantBy to toDoc.keyAgreement, keyTypeOf toDoc t = some c

instance (fromDoc toDoc : DIDDoc) (to s : Str) : Decidable (Compatible fromDoc toDoc to s) :=
  match h : keyTypeOf fromDoc s with
  | none => isFalse (by rintro ⟨c, h', _⟩; rw [h] at h'; cases h')
  | some c =>
    if h' : ∃ t ∈ meantBy to toDoc.keyAgreement, keyTypeOf toDoc t = some c then isTrue ⟨c, h, h'⟩
    else isFalse (by rintro ⟨c', a, b⟩; rw [h] at a; cases a; exact h' b)

end DIDComm
