import Verif.Spec.Wire
import Verif.Spec.Evidence
import Verif.Model.Base64
import Verif.Model.Prog
import Verif.Model.Crypto

/-!
# What an observer of a packed text can learn, and what an attacker can change

Vocabulary for two-run statements and for tampering.
-/

set_option autoImplicit false

namespace DIDComm

/-- The random draws of a history, in order. -/
def draws : List Event → List Nat
  | [] => []
  | ⟨.random, n⟩ :: r => (show Nat from n) :: draws r
  | _ :: r => draws r

/-- `text` is what is to be encrypted for the message: its JSON text or, with a signer, a signed envelope around
that text. -/
def InnerText (m : Message) (signBy : Option Str) (text : Str) : Prop :=
  match signBy with
  | none => text = m.toJson.print
  | some _ => ∃ hdr kid, IsJws text hdr kid m.toJson.print

/-- What one content encryption was given and what it returned (ciphertext followed by tag). -/
structure Sealing where
  cek : Bytes
  iv : Bytes
  aad : Bytes
  content : Bytes
  body : Bytes

/-- The encrypted envelope `j` carries the result of this content encryption, and its recipients get this content
key, each wrapped with some key. -/
def Seals (C : Crypto) (s : Sealing) (j : JWE) : Prop :=
  ∃ ce ct tag, C.aeadEnc ce s.cek s.iv s.aad s.content = some (ct, tag) ∧ s.body = ct ++ tag ∧
    s.aad = j.protected_ ∧ B64.decode j.iv = some s.iv ∧ B64.decode j.ciphertext = some ct ∧ B64.decode j.tag = some tag ∧
    ∀ r ∈ j.recipients, ∃ kw ek, C.wrap kw s.cek = some ek ∧ B64.decode r.encryptedKey = some ek

/-- The primitives are ideal for this content encryption: wrapped forms of the content key unwrap to it or not at all, and
with the content key nothing can be decrypted but what was encrypted. -/
structure IdealFor (C : Crypto) (s : Sealing) : Prop where
  wrapped : ∀ {kw ek ce kw' c}, C.wrap kw s.cek = some ek → C.unwrap ce kw' ek = some c → c = s.cek
  content : ∀ {ce iv aad body p}, C.aeadDec ce s.cek iv aad body = some p →
    iv = s.iv ∧ aad = s.aad ∧ body = s.body ∧ p = s.content

/-- The `enc` header of the algorithms for anonymous encryption. -/
def anonEncName : AnonCryptAlg → Str
  | .a256cbcHs512EcdhEsA256kw => b!"A256CBC-HS512"
  | .xc20pEcdhEsA256kw => b!"XC20P"
  | .a256gcmEcdhEsA256kw => b!"A256GCM"

/-- The header of an encrypted envelope made by the library: type, algorithms, sender, recipients and the
public half of a key generated in this run. -/
structure ProfileHeader (C : Crypto) (tr : List Event) (kids : List Str) (alg enc : Str) (sender : Option Str) (hdr : JweHeader) :
    Prop where
  typ : hdr.typ = some b!"application/didcomm-encrypted+json"
  alg : hdr.alg.asStr = alg
  enc : hdr.enc.asStr = enc
  skid : hdr.skid = sender
  apu : hdr.apu = sender.map B64.encode
  apv : hdr.apv = B64.encode (C.sha256 (joinedKids kids))
  epk : ∃ c n e, evRandom n ∈ tr ∧ C.genKey c n = some e ∧ C.toJwkPublic c e = some hdr.epk

/-- `out` is an encrypted envelope for the key ids `kids` with such a header, around `content`, which was encrypted with a
content key generated in this run. -/
def Envelope (C : Crypto) (tr : List Event) (out : Str) (kids : List Str) (alg enc : Str) (sender : Option Str)
    (content : Str) : Prop :=
  ∃ (j : JWE) (s : Sealing) (hdr : JweHeader), out = j.onWire ∧ j.protected_ = B64.encode hdr.onWire ∧ j.recipients.map JweRecipient.kid = kids ∧
    Seals C s j ∧ s.content = content ∧ (∃ ce n, evRandom n ∈ tr ∧ C.genCek ce n = some s.cek) ∧
    ProfileHeader C tr kids alg enc sender hdr

end DIDComm
