import Verif.Spec.Secrecy
import Verif.Spec.Forwarding

/-!
# What each envelope of a packed message was made from

An envelope needs a content key, an ephemeral key and a nonce.  A packed message is a nest of envelopes, and a layer says
which draw of the random generator became which of them.
-/

set_option autoImplicit false

namespace DIDComm

/-- One envelope, with the draws it was made from. -/
structure Layer where
  /-- the draw for the id of the forward message inside, if there is one -/
  id : Option Nat
  cek : Nat
  epk : Nat
  nonce : Nat
  content : Str
  text : Str

/-- The draws of an envelope, in order. -/
def Layer.uses (l : Layer) : List Nat := l.id.toList ++ [l.cek, l.epk, l.nonce]

/-- The layer's text is an encrypted envelope around its content; its content key, ephemeral key and nonce were generated from the
layer's draws. -/
def Layer.Made (C : Crypto) (l : Layer) : Prop :=
  ∃ j s hdr ce c e, l.text = JWE.onWire j ∧ j.protected_ = B64.encode (JweHeader.onWire hdr) ∧ Seals C s j ∧ s.content = l.content ∧
    C.genCek ce l.cek = some s.cek ∧ C.genKey c l.epk = some e ∧ C.toJwkPublic c e = some hdr.epk ∧ s.iv = C.genNonce ce l.nonce

/-- The layers lead from the text `t` to the text `out`, from inside out: a layer contains the text before it, or a forward
message with a new id whose payload is that text. -/
def Nest (C : Crypto) : Str → List Layer → Str → Prop
  | t, [], out => out = t
  | t, l :: ls, out =>
    ((l.id = none ∧ l.content = t) ∨
      ∃ n fwd next v, l.id = some n ∧ IsForward fwd next v ∧ fromJson (toValue C.f64) t = .ok v ∧ fwd.id = C.uuid n ∧
        l.content = (Message.toJson fwd).print) ∧
    Nest C l.text ls out

/-- The content key of an envelope's text is `k`: its content was encrypted with it, and its recipients get it. -/
def HasContentKey (C : Crypto) (text : Str) (k : Bytes) : Prop :=
  ∃ j s, text = JWE.onWire j ∧ Seals C s j ∧ s.cek = k

end DIDComm
