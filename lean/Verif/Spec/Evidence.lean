import Verif.Model.Serde
import Verif.Model.Base64
import Verif.Spec.Select
import Verif.Spec.Utf8
import Verif.Spec.Kids

/-!
# Cryptographic evidence

What it means that a text is an encrypted or signed layer around another text, in terms of
the texts themselves (as JSON), of base64, and of the cryptographic primitives only.
-/

set_option autoImplicit false

namespace DIDComm

/-- `t` is the JSON text of the JWE `j`, with protected header `hdr`; `apu` and `apv` are the
decoded party infos of the header. -/
structure ReadsJwe (C : Crypto) (t : Str) (j : JWE) (hdr : JweHeader) (apu : Option Bytes) (apv : Bytes) : Prop where
  text : fromJson dJwe t = .ok j
  header : ∃ b, B64.decode j.protected_ = some b ∧ fromJson (dJweHeader C.f64) b = .ok hdr
  apu : (hdr.apu = none ∧ apu = none) ∨ ∃ a x, hdr.apu = some a ∧ B64.decode a = some x ∧ apu = some x
  apv : B64.decode hdr.apv = some apv

/-- The content cipher named by an `enc` header. -/
inductive EncNames : EncAlg → ContentEnc → AnonCryptAlg → Prop
  | cbc : EncNames .a256cbcHs512 .a256cbcHs512 .a256cbcHs512EcdhEsA256kw
  | xc20p : EncNames .xc20p .xc20p .xc20pEcdhEsA256kw
  | gcm : EncNames .a256gcm .a256gcm .a256gcmEcdhEsA256kw

/-- The key-encryption key `kw` opens the JWE for the recipient `kid`: it unwraps that
recipient's content key, which decrypts ciphertext and tag, with the protected header as
additional data, to `payload`. -/
def OpensWith (C : Crypto) (j : JWE) (ce : ContentEnc) (kid : Str) (kw tag payload : Bytes) : Prop :=
  ∃ r ek cek ct iv, r ∈ j.recipients ∧ r.kid = kid ∧ B64.decode r.encryptedKey = some ek ∧
    B64.decode j.tag = some tag ∧ B64.decode j.ciphertext = some ct ∧ B64.decode j.iv = some iv ∧
    C.unwrap ce kw ek = some cek ∧ C.aeadDec ce cek iv j.protected_ (ct ++ tag) = some payload

/-- `t` is an anonymously encrypted message for the key ids `kids` and opens to `payload` with the
key `rkey` of the recipient `kid`. -/
def AnonOpens (C : Crypto) (t : Str) (kids : List Str) (alg : AnonCryptAlg) (c : Curve) (kid : Str) (rkey : C.Key)
    (payload : Bytes) : Prop :=
  ∃ j hdr apv ce epk kw tag, ReadsJwe C t j hdr none apv ∧ hdr.alg = .ecdhEs ∧ hdr.skid = none ∧
    EncNames hdr.enc ce alg ∧ j.recipients.map JweRecipient.kid = kids ∧
    apv = C.sha256 (joinedKids kids) ∧
    C.fromJwk c hdr.epk = some epk ∧ C.ecdhEs c epk rkey b!"ECDH-ES+A256KW" [] apv true = some kw ∧
    OpensWith C j ce kid kw tag payload

/-- `t` is a message for the key ids `kids`, encrypted with the sender key `skey`, called `fromKid`
in the header, and opens to `payload` with the key `rkey` of the recipient `kid`. -/
def AuthOpens (C : Crypto) (t : Str) (kids : List Str) (fromKid : Str) (c : Curve) (skey : C.Key) (kid : Str)
    (rkey : C.Key) (payload : Bytes) : Prop :=
  ∃ j hdr apv epk kw tag, ReadsJwe C t j hdr (some fromKid) apv ∧ hdr.alg = .ecdh1pu ∧
    (hdr.skid = none ∨ hdr.skid = some fromKid) ∧ hdr.enc = .a256cbcHs512 ∧
    j.recipients.map JweRecipient.kid = kids ∧ apv = C.sha256 (joinedKids kids) ∧
    C.fromJwk c hdr.epk = some epk ∧
    C.ecdh1pu c epk skey rkey b!"ECDH-1PU+A256KW" fromKid apv tag true = some kw ∧
    OpensWith C j .a256cbcHs512 kid kw tag payload

/-- Which signature algorithm goes with which key type. -/
inductive Scheme : JwsAlg → Curve → SigType → SignAlg → Prop
  | edDSA : Scheme .edDSA .ed25519 .edDSA .edDSA
  | es256 : Scheme .es256 .p256 .es256 .es256
  | es256k : Scheme .es256k .k256 .es256k .es256k

/-- `t` is a JWS with exactly one signature, by the key called `kid`; the signature over
protected header and payload verifies with `key`; the decoded payload is the text `payload`. -/
def SignedBy (C : Crypto) (t : Str) (kid : Str) (alg : SignAlg) (c : Curve) (key : C.Key) (payload : Bytes) : Prop :=
  ∃ prot sig pl b hdr st raw, fromJson dJws t = .ok ⟨[⟨kid, prot, sig⟩], pl⟩ ∧
    B64.decode prot = some b ∧ fromJson dJwsHeader b = .ok hdr ∧ Scheme hdr.alg c st alg ∧
    B64.decode sig = some raw ∧ C.verify c key (prot ++ b!"." ++ pl) raw st = some true ∧
    B64.decode pl = some payload ∧ IsUtf8 payload

/-- `jwt` is a compact JWS by the key called `kid`, whose signature verifies with `key` and whose
payload are the claims `fp`. -/
def JwtBy (C : Crypto) (jwt : Str) (kid : Str) (c : Curve) (key : C.Key) (fp : FromPrior) : Prop :=
  ∃ h pl sig b hdr st sa raw payload, jwt = h ++ b!"." ++ pl ++ b!"." ++ sig ∧
    B64.decode h = some b ∧ fromJson dCompactHeader b = .ok hdr ∧ hdr.typ = b!"JWT" ∧ hdr.kid = kid ∧
    Scheme hdr.alg c st sa ∧ B64.decode sig = some raw ∧ C.verify c key (h ++ b!"." ++ pl) raw st = some true ∧
    B64.decode pl = some payload ∧ IsUtf8 payload ∧ fromJson dFromPrior payload = .ok fp

/-- The document has, among the listed ids, the key id `kid`, with a verification method of type `c`
and public key `key`. -/
def KeyFrom (C : Crypto) (doc : DIDDoc) (listed : List Str) (kid : Str) (c : Curve) (key : C.Key) : Prop :=
  kid ∈ listed ∧ ∃ vm, methodOf doc kid = some vm ∧ vm.keyAlg = some c ∧ vm.asKeyPair C = .ok ⟨c, key⟩

/-- A forward message: its type, the next stop and the JSON it carries. -/
def IsForward (m : Message) (next : Str) (v : Value) : Prop :=
  m.type_ = b!"https://didcomm.org/routing/2.0/forward" ∧
  (∃ l, m.body = .obj l ∧ l.lookup b!"next" = some (.str next)) ∧
  (∃ a r jws, m.attachments = some (a :: r) ∧ a.data = .json v jws)

/-- `u` is found inside `t` by removing layers: decrypting, taking the payload of a valid
signature, or taking the content of a forward message.  What was encrypted or signed must be text. -/
inductive Within (C : Crypto) : Str → Str → Prop
  | here (t : Str) : Within C t t
  | anon {t u : Str} {kids : List Str} {alg : AnonCryptAlg} {c : Curve} {kid : Str} {rkey : C.Key} {payload : Bytes}
      (h : AnonOpens C t kids alg c kid rkey payload) (hu : IsUtf8 payload) (hw : Within C payload u) : Within C t u
  | auth {t u : Str} {kids : List Str} {fromKid : Str} {c : Curve} {skey : C.Key} {kid : Str} {rkey : C.Key}
      {payload : Bytes} (h : AuthOpens C t kids fromKid c skey kid rkey payload) (hu : IsUtf8 payload)
      (hw : Within C payload u) : Within C t u
  | signed {t u : Str} {kid : Str} {alg : SignAlg} {c : Curve} {key : C.Key} {payload : Bytes}
      (h : SignedBy C t kid alg c key payload) (hw : Within C payload u) : Within C t u
  | forward {t u : Str} {m : Message} {next : Str} {v : Value} (hm : fromJson (dMessage C.f64) t = .ok m)
      (hf : IsForward m next v) (hw : Within C v.print u) : Within C t u

/-- The message `m` is the plaintext found inside `t`. -/
def Holds (C : Crypto) (t : Str) (m : Message) : Prop := ∃ u, Within C t u ∧ fromJson (dMessage C.f64) u = .ok m

end DIDComm
