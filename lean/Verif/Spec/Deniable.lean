import Verif.Spec.Receiver
import Verif.Model.Jwe

/-!
# What a receiver can make alone

The envelope of a named sender, made with the receiver's private keys and the sender's public key.  Nothing here is in the code: it is
what a dishonest receiver would run.
-/

set_option autoImplicit false

namespace DIDComm

/-- The content key wrapped for keys of one's own, each with what the receiving side of the key agreement gives for it. -/
def forgeKeys (C : Crypto) (c : Curve) (epk sender : C.Key) (fromKid apv tag cek : Bytes) : List (Str × C.Key) → Option (List JweRecipient)
  | [] => some []
  | (kid, own) :: r => do
    let kw ← C.ecdh1pu c epk sender own b!"ECDH-1PU+A256KW" fromKid apv tag true
    let ek ← C.wrap kw cek
    let l ← forgeKeys C c epk sender fromKid apv tag cek r
    some (⟨kid, B64.encode ek⟩ :: l)

/-- The protected header of an envelope of `fromKid` for `kids`. -/
def forgeHeader (C : Crypto) (fromKid : Str) (kids : List Str) (epk : Value) : Str :=
  B64.encode (JweHeader.toJson
    { typ := some b!"application/didcomm-encrypted+json", alg := .ecdh1pu, enc := .a256cbcHs512, skid := some fromKid,
      apu := some (B64.encode fromKid), apv := B64.encode (C.sha256 (joinedKids kids)), epk := epk }).print

/-- The envelope from the values drawn: `sender` is the public key called `fromKid`, `own` are one's own key ids with private keys. -/
def forged (C : Crypto) (c : Curve) (payload : Bytes) (fromKid : Str) (sender : C.Key) (own : List (Str × C.Key)) (r1 r2 r3 : Nat) :
    Option Str := do
  let cek ← C.genCek .a256cbcHs512 r1
  let e ← C.genKey c r2
  let jwk ← C.toJwkPublic c e
  let epk ← C.fromJwk c jwk
  let prot := forgeHeader C fromKid (own.map Prod.fst) jwk
  let (ct, tag) ← C.aeadEnc .a256cbcHs512 cek (C.genNonce .a256cbcHs512 r3) prot payload
  let rs ← forgeKeys C c epk sender fromKid (C.sha256 (joinedKids (own.map Prod.fst))) tag cek own
  some (JWE.toJson ⟨prot, rs, B64.encode (C.genNonce .a256cbcHs512 r3), B64.encode ct, B64.encode tag⟩).print

/-- Private keys of one's own, by their ids, that one's resolver hands out. -/
def OwnKeys (C : Crypto) (E : Env) (c : Curve) (own : List (Str × C.Key)) : Prop :=
  ∀ p ∈ own, ∃ secret, E.getSecret p.1 = .ok (some secret) ∧ secret.asKeyPair C = .ok ⟨c, p.2⟩

end DIDComm
