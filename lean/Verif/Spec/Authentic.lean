import Verif.Spec.Evidence
import Verif.Spec.Wire

/-!
# Who made it: the texts an honest key owner signs and encrypts

The evidence a receiver gets (`Spec/Evidence.lean`) is about primitives: a signature verifies, a content key unwraps.
This file says what the owner of a key does with it, so that evidence can be traced back to a message the owner
packed.  The ideal primitives are hypotheses of the theorems that use them, not axioms.
-/

set_option autoImplicit false

namespace DIDComm

/-- `text` is what is signed for the message `m`: a header with the media type of signed messages and some algorithm, a
dot, and the JSON text of the message. -/
def SignsMessage (m : Message) (text : Str) : Prop :=
  ∃ alg, text = B64.encode (JwsHeader.onWire ⟨b!"application/didcomm-signed+json", alg⟩) ++ b!"." ++
    B64.encode m.toJson.print

/-- `text` is what is signed for the claims `f` of a prior DID: a JWT header with some algorithm and key id, a dot, and
the JSON text of the claims. -/
def SignsPrior (f : FromPrior) (text : Str) : Prop :=
  ∃ alg kid, text = B64.encode (CompactHeader.onWire ⟨b!"JWT", alg, kid⟩) ++ b!"." ++ B64.encode f.toJson.print

/-- Ideal signatures of an owner who uses the key with this library only: whatever verifies with the public key was
signed by the owner for one of the messages `msgs` or for one of the claims `priors`. -/
def OnlySigned (C : Crypto) (c : Curve) (key : C.Key) (msgs : Message → Prop) (priors : FromPrior → Prop) : Prop :=
  ∀ text sig st, C.verify c key text sig st = some true →
    (∃ m, msgs m ∧ SignsMessage m text) ∨ (∃ f, priors f ∧ SignsPrior f text)

/-- The text is what `pack_encrypted` encrypts for the message: its JSON text, or a signed envelope around it. -/
def Packs (m : Message) (text : Str) : Prop :=
  text = m.toJson.print ∨ ∃ hdr kid, IsJws text hdr kid m.toJson.print

/-- Ideal authenticated encryption between two owners who use their keys with this library only: whatever can be opened
with the key derived from the sender's and the receiver's key, an ephemeral key and the tag was encrypted for one of
the messages `msgs`. -/
def OnlyEncrypted (C : Crypto) (c : Curve) (skey rkey : C.Key) (msgs : Message → Prop) : Prop :=
  ∀ epk apu apv tag kw ek cek iv aad ct payload,
    C.ecdh1pu c epk skey rkey b!"ECDH-1PU+A256KW" apu apv tag true = some kw →
    C.unwrap .a256cbcHs512 kw ek = some cek → C.aeadDec .a256cbcHs512 cek iv aad (ct ++ tag) = some payload →
    ∃ m, msgs m ∧ Packs m payload

end DIDComm
