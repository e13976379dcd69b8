import Verif.Model.Crypto
import Verif.Spec.Values

/-!
# What the round-trip theorems assume about the cryptographic crates

`pairs c s p` says that `s` (with secret half) and `p` (public half) belong to the same
key pair of curve `c`.  Each law speaks about a successful call only.
-/

set_option autoImplicit false

namespace DIDComm

/-- Correctness (not security) of the primitives. -/
structure Crypto.Lawful (C : Crypto) (pairs : Curve → C.Key → C.Key → Prop) : Prop where
  /-- a signature verifies under the other half of the key -/
  verify_sign : ∀ {c s p m t sig}, pairs c s p → C.sign c s m t = some sig → C.verify c p m sig t = some true
  /-- a generated ephemeral key survives export to JWK, and both ends of ECDH-ES agree -/
  ecdhEs_agree : ∀ {c r e j s p alg apu apv kw}, C.genKey c r = some e → C.toJwkPublic c e = some j → pairs c s p →
    C.ecdhEs c e p alg apu apv false = some kw →
    ∃ e', C.fromJwk c j = some e' ∧ C.ecdhEs c e' s alg apu apv true = some kw
  /-- the same for ECDH-1PU, where the sender's key is used too -/
  ecdh1pu_agree : ∀ {c r e j ss sp s p alg apu apv tag kw}, C.genKey c r = some e → C.toJwkPublic c e = some j →
    pairs c ss sp → pairs c s p → C.ecdh1pu c e ss p alg apu apv tag false = some kw →
    ∃ e', C.fromJwk c j = some e' ∧ C.ecdh1pu c e' sp s alg apu apv tag true = some kw
  /-- unwrapping inverts wrapping of a content key -/
  unwrap_wrap : ∀ {ce r cek kw ek}, C.genCek ce r = some cek → C.wrap kw cek = some ek → C.unwrap ce kw ek = some cek
  /-- decryption inverts encryption -/
  dec_enc : ∀ {ce k iv aad pt ct tag}, C.aeadEnc ce k iv aad pt = some (ct, tag) →
    C.aeadDec ce k iv aad (ct ++ tag) = some pt
  /-- an exported public JWK is an ordinary, flat JSON value -/
  jwk_ok : ∀ {c e j}, C.toJwkPublic c e = some j → j.WF C.f64 ∧ j.depth ≤ 1

end DIDComm
