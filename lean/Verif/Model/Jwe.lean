import Verif.Model.Serde
import Verif.Model.Keys
import Verif.Model.Prog

/-! # JWE: encrypt, parse, decrypt — /repo/src/jwe -/

set_option autoImplicit false

namespace DIDComm

/-- `Sha256(kids.sort().join("."))` — /repo/src/jwe/encrypt.rs L40-44 and
/repo/src/jwe/parse.rs L56-67. -/
def apvOf (C : Crypto) (kids : List Str) : Bytes := C.sha256 (joinWith 0x2E (sortStrs kids))

/-- `JoseKDF::derive_key` — /repo/src/utils/crypto.rs L55-113: ECDH-1PU needs a sender
key; ECDH-ES ignores the sender key and the tag.  All errors are `InvalidState`. -/
def deriveKey (C : Crypto) (kdf : Kdf) (curve : Curve) (ephem : C.Key) (sender : Option C.Key)
    (recip : C.Key) (alg apu apv ccTag : Bytes) (receive : Bool) : Res Bytes :=
  match kdf with
  | .ecdhEs => okOr .invalidState (C.ecdhEs curve ephem recip alg apu apv receive)
  | .ecdh1pu =>
    match sender with
    | none => fail .invalidState
    | some s => okOr .invalidState (C.ecdh1pu curve ephem s recip alg apu apv ccTag receive)

/-- The `typ` of an encrypted message — /repo/src/jwe/encrypt.rs L54. -/
def encryptedTyp : Str := b!"application/didcomm-encrypted+json"

/-- The encoded protected header — /repo/src/jwe/encrypt.rs L48-67. -/
def jweProtected (C : Crypto) (alg : JweAlg) (enc : EncAlg) (skid : Option Str) (kids : List Str)
    (epk : Value) : Str :=
  B64.encode (JweHeader.toJson
    { typ := some encryptedTyp, alg := alg, enc := enc, skid := skid,
      apu := skid.map B64.encode, apv := B64.encode (apvOf C kids), epk := epk }).print

/-- The loop wrapping the content key for every recipient —
/repo/src/jwe/encrypt.rs L97-116. -/
def wrapAll (C : Crypto) (kdf : Kdf) (curve : Curve) (epk : C.Key) (skey : Option C.Key)
    (alg apu apv tag cek : Bytes) : List (Str × C.Key) → Res (List JweRecipient)
  | [] => .ok []
  | (kid, key) :: r => do
    let kw ← deriveKey C kdf curve epk skey key alg apu apv tag false
    let ek ← okOr .invalidState (C.wrap kw cek)
    let l ← wrapAll C kdf curve epk skey alg apu apv tag cek r
    .ok (⟨kid, B64.encode ek⟩ :: l)

/-- `jwe::encrypt::<CE, KDF, KE, KW>` — /repo/src/jwe/encrypt.rs L19-140.  The type
arguments are the parameters `ce`, `kdf` and `curve`; `KW` is always `AesKey<A256Kw>`. -/
def jweEncrypt (C : Crypto) (ce : ContentEnc) (kdf : Kdf) (curve : Curve) (plaintext : Bytes)
    (alg : JweAlg) (enc : EncAlg) (sender : Option (Str × C.Key)) (recipients : List (Str × C.Key)) :
    Prog Str := do
  let skid := sender.map Prod.fst
  let skey := sender.map Prod.snd
  let r1 ← random
  let cek ← Prog.lift (okOr .invalidState (C.genCek ce r1))
  let kids := recipients.map Prod.fst
  let r2 ← random
  let epk ← Prog.lift (okOr .invalidState (C.genKey curve r2))
  let epkJwk ← Prog.lift (okOr .invalidState (C.toJwkPublic curve epk))
  let prot := jweProtected C alg enc skid kids epkJwk
  let r3 ← random
  let iv := C.genNonce ce r3
  let (ct, tag) ← Prog.lift (okOr .invalidState (C.aeadEnc ce cek iv prot plaintext))
  let rs ← Prog.lift (wrapAll C kdf curve epk skey alg.asStr (skid.getD []) (apvOf C kids) tag cek recipients)
  let jwe : JWE := ⟨prot, rs, B64.encode iv, B64.encode ct, B64.encode tag⟩
  Prog.lift (.ok jwe.toJson.print)

/-- `ParsedJWE` — /repo/src/jwe/parse.rs L9-15. -/
structure ParsedJWE where
  jwe : JWE
  protected_ : JweHeader
  apu : Option Bytes
  apv : Bytes

/-- `JWE::from_str` — /repo/src/jwe/parse.rs L22-24. -/
def jweFromStr (s : Str) : Res JWE := fromJson dJwe s

/-- `JWE::parse` — /repo/src/jwe/parse.rs L26-51. -/
def JWE.parse (C : Crypto) (j : JWE) : Res ParsedJWE := do
  let b ← okOr .malformed (B64.decode j.protected_)
  let p ← fromJson (dJweHeader C.f64) b
  let apv ← okOr .malformed (B64.decode p.apv)
  let apu ← match p.apu with
    | none => .ok none
    | some a => (okOr .malformed (B64.decode a)).map some
  .ok ⟨j, p, apu, apv⟩

/-- `ParsedJWE::verify_didcomm` — /repo/src/jwe/parse.rs L55-88. -/
def ParsedJWE.verifyDidcomm (C : Crypto) (p : ParsedJWE) : Res ParsedJWE := do
  if p.apv ≠ apvOf C (p.jwe.recipients.map JweRecipient.kid) then fail .malformed else
  match p.apu with
  | some apu =>
    if validUtf8 apu = false then fail .malformed else
    match p.protected_.skid with
    | some skid => if apu ≠ skid then fail .malformed else .ok p
    | none => .ok p
  | none =>
    match p.protected_.skid with
    | some _ => fail .malformed
    | none => .ok p

/-- `ParsedJWE::decrypt::<CE, KDF, KE, KW>` — /repo/src/jwe/decrypt.rs L16-90. -/
def ParsedJWE.decrypt (C : Crypto) (ce : ContentEnc) (kdf : Kdf) (curve : Curve) (p : ParsedJWE)
    (sender : Option (Str × C.Key)) (kid : Str) (key : C.Key) : Res Bytes := do
  if sender.map Prod.fst ≠ p.apu then fail .invalidState else
  let r ← okOr .invalidState (p.jwe.recipients.find? (fun r => r.kid == kid))
  let ek ← okOr .malformed (B64.decode r.encryptedKey)
  let epk ← okOr .malformed (C.fromJwk curve p.protected_.epk)
  let tag ← okOr .malformed (B64.decode p.jwe.tag)
  let kw ← deriveKey C kdf curve epk (sender.map Prod.snd) key p.protected_.alg.asStr (p.apu.getD []) p.apv tag true
  let cek ← okOr .malformed (C.unwrap ce kw ek)
  let ct ← okOr .malformed (B64.decode p.jwe.ciphertext)
  let iv ← okOr .malformed (B64.decode p.jwe.iv)
  okOr .malformed (C.aeadDec ce cek iv p.jwe.protected_ (ct ++ tag))

end DIDComm
