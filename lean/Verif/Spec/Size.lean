import Verif.Spec.Values
import Verif.Model.Crypto

/-!
# How long texts are

What is known about the lengths of what the cryptographic functions return, and how a length can depend on another.
-/

set_option autoImplicit false

namespace DIDComm

/-- The lengths of what the cryptographic functions return.  Keys, nonces, tags and signatures have fixed lengths; the length of a
ciphertext depends on the length of what is encrypted and on nothing else. -/
structure Sizes (C : Crypto) where
  /-- content keys -/
  cek : ContentEnc → Nat
  genCek : ∀ {ce n k}, C.genCek ce n = some k → k.length = cek ce
  /-- nonces -/
  nonce : ContentEnc → Nat
  genNonce : ∀ ce n, (C.genNonce ce n).length = nonce ce
  /-- ciphertexts, for each length of the content -/
  content : ContentEnc → Nat → Nat
  /-- authentication tags -/
  tag : ContentEnc → Nat
  aeadEnc : ∀ {ce k iv aad p c t}, C.aeadEnc ce k iv aad p = some (c, t) → c.length = content ce p.length ∧ t.length = tag ce
  /-- wrapped keys, for each length of the key -/
  wrapped : Nat → Nat
  wrap : ∀ {kw k e}, C.wrap kw k = some e → e.length = wrapped k.length
  /-- the JSON of the public half of generated keys -/
  epk : Curve → Nat
  toJwk : ∀ {c n k v}, C.genKey c n = some k → C.toJwkPublic c k = some v → v.print.length = epk c
  /-- signatures -/
  signature : SigType → Nat
  sign : ∀ {c k m t s}, C.sign c k m t = some s → s.length = signature t
  /-- UUIDs, which consist of characters that JSON does not escape -/
  id : Nat
  uuid : ∀ n, (C.uuid n).length = id ∧ Plain (C.uuid n)

/-- A length that grows with another: never smaller for a greater one, and by at least `s` when the other grows by `s`. -/
structure Grows (s : Nat) (f : Nat → Nat) : Prop where
  mono : ∀ {a b}, a ≤ b → f a ≤ f b
  more : ∀ n, f n + s ≤ f (n + s)

/-- The cipher behind an algorithm for anonymous encryption. -/
def cipherOf : AnonCryptAlg → ContentEnc
  | .a256cbcHs512EcdhEsA256kw => .a256cbcHs512
  | .xc20pEcdhEsA256kw => .xc20p
  | .a256gcmEcdhEsA256kw => .a256gcm

end DIDComm
