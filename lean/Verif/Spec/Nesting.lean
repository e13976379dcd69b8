import Verif.Spec.Evidence
import Verif.Spec.Wire

/-!
# Layers, one inside the other

Which layers a text has around its message, from the outside to the inside, in terms of the evidence for each of them
(`Verif.Spec.Evidence`).
-/

set_option autoImplicit false

namespace DIDComm

/-- The kinds of layers: an envelope of an anonymous sender, one of a named sender, a signature, a forward message. -/
inductive LayerKind
  | anon
  | auth
  | sign
  | forward
  deriving DecidableEq

/-- `t` is the plaintext message `m` inside the layers `l`, the outermost first. -/
inductive Layers (C : Crypto) : Str → List LayerKind → Message → Prop
  | message {t : Str} {m : Message} (h : fromJson (dMessage C.f64) t = .ok m) (ht : m.typ = b!"application/didcomm-plain+json") :
      Layers C t [] m
  | anon {t : Str} {l : List LayerKind} {m : Message} {kids : List Str} {alg : AnonCryptAlg} {c : Curve} {kid : Str} {rkey : C.Key}
      {payload : Bytes} (h : AnonOpens C t kids alg c kid rkey payload) (hi : Layers C payload l m) : Layers C t (.anon :: l) m
  | auth {t : Str} {l : List LayerKind} {m : Message} {kids : List Str} {fromKid : Str} {c : Curve} {skey : C.Key} {kid : Str} {rkey : C.Key}
      {payload : Bytes} (h : AuthOpens C t kids fromKid c skey kid rkey payload) (hi : Layers C payload l m) : Layers C t (.auth :: l) m
  | sign {t : Str} {l : List LayerKind} {m : Message} {kid : Str} {alg : SignAlg} {c : Curve} {key : C.Key} {payload : Bytes}
      (h : SignedBy C t kid alg c key payload) (hi : Layers C payload l m) : Layers C t (.sign :: l) m
  | forward {t : Str} {l : List LayerKind} {m fm : Message} {next : Str} {v : Value} (h : fromJson (dMessage C.f64) t = .ok fm)
      (hf : IsForward fm next v) (hi : Layers C v.print l m) : Layers C t (.forward :: l) m

/-- The one order in which layers are removed: any number of forward messages, each in an anonymous envelope of its own; then, each at
most once, an anonymous envelope, an envelope of a named sender and a signature. -/
def inOrder (forwards : Nat) (anon auth sign : Bool) : List LayerKind :=
  (List.replicate forwards [LayerKind.anon, LayerKind.forward]).flatten ++
    ((if anon then [LayerKind.anon] else []) ++ ((if auth then [LayerKind.auth] else []) ++ if sign then [LayerKind.sign] else []))

/-- An envelope, encrypted or signed, as a program writes it that knows only the fields of the standard. -/
def WrittenEnvelope (u : Str) : Prop := (∃ j : JWE, u = j.onWire) ∨ ∃ j : JWS, u = j.onWire

/-- The text is an encrypted envelope, and its header names the way of agreeing on keys `alg`. -/
def EncryptedBy (C : Crypto) (t : Str) (alg : JweAlg) : Prop :=
  ∃ j b hdr, fromJson dJwe t = .ok j ∧ B64.decode j.protected_ = some b ∧ fromJson (dJweHeader C.f64) b = .ok hdr ∧ hdr.alg = alg

/-- The text is a signed envelope. -/
def SignedText (t : Str) : Prop := ∃ j, fromJson dJws t = .ok j

/-- The text is a plaintext message. -/
def MessageText (C : Crypto) (t : Str) : Prop := ∃ m, fromJson (dMessage C.f64) t = .ok m

end DIDComm
