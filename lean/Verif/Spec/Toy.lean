import Verif.Spec.CryptoLaws
import Verif.Model.Keys
import Verif.Spec.Values

/-!
# A toy instance of the cryptographic laws

It shows that the laws are consistent and makes concrete examples computable.  It is
not secure: the secret half of a key equals the public half.
-/

set_option autoImplicit false

namespace DIDComm.Toy

/-- Distinguishes the content ciphers. -/
def ceByte : ContentEnc → UInt8
  | .a256cbcHs512 => 1
  | .xc20p => 2
  | .a256gcm => 3

/-- Distinguishes the signature types. -/
def sigByte : SigType → UInt8
  | .edDSA => 1
  | .es256 => 2
  | .es256k => 3

/-- Distinguishes the curves. -/
def curveByte : Curve → UInt8
  | .ed25519 => 1
  | .x25519 => 2
  | .p256 => 3
  | .k256 => 4

/-- Cut off an expected suffix. -/
def dropSuffix (suf s : Bytes) : Option Bytes :=
  if s.drop (s.length - suf.length) = suf then some (s.take (s.length - suf.length)) else none

/-- Cut off an expected prefix. -/
def dropPrefix : Bytes → Bytes → Option Bytes
  | [], s => some s
  | _ :: _, [] => none
  | a :: p, b :: s => if a = b then dropPrefix p s else none

/-- The toy primitives: a key is a byte string, the JWK carries it in `x`. -/
def crypto : Crypto where
  Key := Bytes
  fromJwk := fun _ v => (v.getStr b!"x").bind B64.decode
  x25519FromSecret := fun b => some b
  publicBytes := fun k => k
  secretBytes := fun k => some k
  toJwkPublic := fun c k => some (.obj [(b!"crv", .str [64 + curveByte c]), (b!"x", .str (B64.encode k))])
  genKey := fun _ n => some (decimal n)
  genCek := fun ce n => some (ceByte ce :: decimal n)
  genNonce := fun ce n => ceByte ce :: decimal n
  sign := fun c k m t => some (curveByte c :: sigByte t :: (k ++ m))
  verify := fun c k m s t => some (decide (s = curveByte c :: sigByte t :: (k ++ m)))
  ecdhEs := fun c e r alg apu apv _ => some (curveByte c :: (e ++ r ++ alg ++ apu ++ apv))
  ecdh1pu := fun c e s r alg apu apv tag _ => some (curveByte c :: (e ++ s ++ r ++ alg ++ apu ++ apv ++ tag))
  wrap := fun kw cek => some (kw ++ cek)
  unwrap := fun _ kw ek => dropPrefix kw ek
  aeadEnc := fun ce k iv aad pt => some (pt, ceByte ce :: (k ++ iv ++ aad))
  aeadDec := fun ce k iv aad d => dropSuffix (ceByte ce :: (k ++ iv ++ aad)) d
  sha256 := fun b => b
  uuid := fun n => decimal n
  f64 := fun t => if (fltTok t).isSome then some t else none

/-- The halves of a toy key are equal. -/
def pairs : Curve → crypto.Key → crypto.Key → Prop := fun _ s p => s = p

theorem dropPrefix_append (p s : Bytes) : dropPrefix p (p ++ s) = some s := by
  induction p with
  | nil => rfl
  | cons a p ih => simp [dropPrefix, ih]

theorem dropSuffix_append (s suf : Bytes) : dropSuffix suf (s ++ suf) = some s := by
  simp [dropSuffix]

end DIDComm.Toy
