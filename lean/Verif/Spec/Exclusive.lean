import Verif.Spec.Receiver
import Verif.Spec.Select

/-!
# Who can open an envelope

The converse of what the round-trip theorems assume about the cryptographic crates (`Crypto.Lawful`).
-/

set_option autoImplicit false

namespace DIDComm

/-- An envelope is opened with the secret halves of the keys it was made for only.  With the ephemeral key that is written into an envelope,
the receiver's side derives the key that the sender's side derived for a public key only from the secret half of that key; and a wrapped
content key is unwrapped only under the key it was wrapped under. -/
structure Crypto.Exclusive (C : Crypto) (pairs : Curve → C.Key → C.Key → Prop) : Prop where
  anonymous : ∀ {c n e j p alg apu apv kw c' e' s}, C.genKey c n = some e → C.toJwkPublic c e = some j →
    C.ecdhEs c e p alg apu apv false = some kw → C.fromJwk c' j = some e' → C.ecdhEs c' e' s alg apu apv true = some kw →
    c' = c ∧ pairs c s p
  sender : ∀ {c n e j ss p alg apu apv tag kw c' e' sp s}, C.genKey c n = some e → C.toJwkPublic c e = some j →
    C.ecdh1pu c e ss p alg apu apv tag false = some kw → C.fromJwk c' j = some e' →
    C.ecdh1pu c' e' sp s alg apu apv tag true = some kw → c' = c ∧ pairs c s p
  wrapped : ∀ {ce r cek kw ek ce' kw' cek'}, C.genCek ce r = some cek → C.wrap kw cek = some ek → C.unwrap ce' kw' ek = some cek' → kw' = kw

/-- In the run with the questions and answers `tr` a secret was read, under the id of one of the keys that the document of `who` lists for
agreement and `who` means, that is the secret half of this key.  `doc` is the document. -/
def ReadSecretFor (C : Crypto) (pairs : Curve → C.Key → C.Key → Prop) (tr : List Event) (who : Str) (doc : DIDDoc) (kid : Str) : Prop :=
  ∃ secret c s p, evGet kid (some secret) ∈ tr ∧ secret.asKeyPair C = .ok ⟨c, s⟩ ∧
    KeyFrom C doc (meantBy who doc.keyAgreement) kid c p ∧ pairs c s p

/-- The two texts are the same encrypted envelope, perhaps written differently. -/
def SameEnvelope (t t' : Str) : Prop := ∃ j, fromJson dJwe t = .ok j ∧ fromJson dJwe t' = .ok j

end DIDComm
