import Verif.Spec.Primitives
import Verif.Spec.Env
import Verif.Model.Unpack

/-!
# Histories of calls

A history lists the calls of the library, by anybody, that have succeeded, in the order in which they ended.  Texts are carried from
one call to another by anybody in any way: nothing relates the text given to a call to the texts that earlier calls returned.
-/

set_option autoImplicit false

namespace DIDComm

/-- A call of the library, with what it returned. -/
inductive LibCall
  | packPlaintext (m : Message) (out : Str)
  | packSigned (m : Message) (signBy : Str) (out kid : Str)
  | packEncrypted (m : Message) (to : Str) (from_ signBy : Option Str) (opts : PackEncryptedOptions) (out : Str) (md : PackEncryptedMetadata)
  | packPrior (f : FromPrior) (issuerKid : Option Str) (jwt kid : Str)
  | unpackPrior (jwt : Str) (f : FromPrior) (kid : Str)
  | wrapInForward (msg : Str) (headers : Option (List (Str × Value))) (to : Str) (keys : List Str) (alg : AnonCryptAlg) (out : Str)
  | unpack (text : Str) (opts : UnpackOptions) (m : Message) (md : UnpackMetadata)

/-- With these questions and answers the call returns this. -/
def LibCall.Happens (C : Crypto) (tr : List Event) : LibCall → Prop
  | .packPlaintext m out => Runs (DIDComm.packPlaintext C m) tr (.ok out)
  | .packSigned m signBy out kid => Runs (DIDComm.packSigned C m signBy) tr (.ok (out, kid))
  | .packEncrypted m to from_ signBy opts out md => Runs (DIDComm.packEncrypted C m to from_ signBy opts) tr (.ok (out, md))
  | .packPrior f issuerKid jwt kid => Runs (f.pack C issuerKid) tr (.ok (jwt, kid))
  | .unpackPrior jwt f kid => Runs (FromPrior.unpack C jwt) tr (.ok (f, kid))
  | .wrapInForward msg headers to keys alg out => Runs (DIDComm.wrapInForward C msg headers to keys alg) tr (.ok out)
  | .unpack text opts m md => Runs (DIDComm.unpack C text opts) tr (.ok (m, md))

/-- One call in a history: the documents and secrets of its caller at that time, the questions with their answers, the call. -/
structure LibStep where
  env : Env
  tr : List Event
  call : LibCall

/-- Everything in the history can have happened, each call with the documents and secrets its caller had. -/
def History (C : Crypto) (H : List LibStep) : Prop := ∀ s ∈ H, s.call.Happens C s.tr ∧ Answers s.env s.tr

/-- The primitives of `C`. -/
@[reducible] def Crypto.primitives (C : Crypto) : Primitives C.Key where
  toJwkPublic := C.toJwkPublic
  genKey := C.genKey
  genCek := C.genCek
  genNonce := C.genNonce
  sign := C.sign
  verify := C.verify
  ecdhEs := C.ecdhEs
  ecdh1pu := C.ecdh1pu
  wrap := C.wrap
  unwrap := C.unwrap
  aeadEnc := C.aeadEnc
  aeadDec := C.aeadDec
  uuid := C.uuid

open Classical in
/-- The primitives of `C`, but this text cannot be signed with this key. -/
noncomputable def Crypto.notSigning (C : Crypto) (c : Curve) (key : C.Key) (text : Bytes) : Primitives C.Key :=
  { C.primitives with
    sign := fun c' key' text' st => if c' = c ∧ key' = key ∧ text' = text then none else C.sign c' key' text' st }

open Classical in
/-- The primitives of `C`, but no signature of this text is good for this key. -/
noncomputable def Crypto.notTrusting (C : Crypto) (c : Curve) (key : C.Key) (text : Bytes) : Primitives C.Key :=
  { C.primitives with
    verify := fun c' key' text' sig st => if c' = c ∧ key' = key ∧ text' = text then some false else C.verify c' key' text' sig st }

/-- The call has signed this text with this key: it could not have happened if that were impossible. -/
def LibStep.Signed (C : Crypto) (s : LibStep) (c : Curve) (key : C.Key) (text : Bytes) : Prop :=
  s.call.Happens C s.tr ∧ ¬ s.call.Happens (C.replaced (C.notSigning c key text)) s.tr

/-- The call has relied on a signature of this text by this key: it could not have happened if there were no good one. -/
def LibStep.Relied (C : Crypto) (s : LibStep) (c : Curve) (key : C.Key) (text : Bytes) : Prop :=
  s.call.Happens C s.tr ∧ ¬ s.call.Happens (C.replaced (C.notTrusting c key text)) s.tr

/-- Nobody forges signatures for the keys `honest`: a signature that a call relies on was made by an earlier call, with the secret
half of the key.  `pairs c s p` says that `s` is the secret half of `p`. -/
def Unforged (C : Crypto) (pairs : Curve → C.Key → C.Key → Prop) (honest : Curve → C.Key → Prop) (H : List LibStep) : Prop :=
  ∀ (i : Nat) (s : LibStep) (c : Curve) (pub : C.Key) (text : Bytes), H[i]? = some s → honest c pub → s.Relied C c pub text →
    ∃ (j : Nat) (s' : LibStep) (priv : C.Key), j < i ∧ H[j]? = some s' ∧ pairs c priv pub ∧ s'.Signed C c priv text

/-- The call is a request to sign this message. -/
def LibCall.AsksToSign (m : Message) : LibCall → Prop
  | .packSigned m' _ _ _ => m' = m
  | .packEncrypted m' _ _ signBy _ _ _ => m' = m ∧ signBy ≠ none
  | _ => False

/-- The call is a request to sign these claims. -/
def LibCall.AsksToSignPrior (f : FromPrior) : LibCall → Prop
  | .packPrior f' _ _ _ => f' = f
  | _ => False

end DIDComm
