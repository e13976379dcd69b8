import Verif.Spec.Api
import Verif.Spec.Forwarding
import Verif.Model.Routing

/-! # A message on its way between applications -/

set_option autoImplicit false

namespace DIDComm

/-- The application of a mediator unpacks `text`, whatever else it is doing, to a forward message for `next` with the attachment `v`,
encrypted, from nobody, and to nothing else; asked to take that message as a forward, it is told `next` and `v`. -/
def AppHop (C : Crypto) (headers : Option (List (Str × Value))) (alg : AnonCryptAlg) (M : App) (opts : UnpackOptions)
    (text next : Str) (v : Value) : Prop :=
  ∃ (fwd : Message) (kids : List Str),
    M.UnpacksAs C text opts fwd {
      encrypted := true, anonymousSender := true, encryptedToKids := some kids, encAlgAnon := some alg } ∧
    tryParseForward fwd = some ⟨next, v⟩ ∧ fwd.extraHeaders = headers.getD []

/-- The text travels along the keys: the application of the holder of each key finds in it a forward message for the next key, whose
attachment, printed, is the text for that key; the last one finds one for `to` with the payload. -/
def AppTravels (C : Crypto) (headers : Option (List (Str × Value))) (alg : AnonCryptAlg) (Ms : Str → App)
    (opts : Str → UnpackOptions) (to : Str) (payload : Value) : List Str → Str → Prop
  | [], _ => False
  | [k], text => AppHop C headers alg (Ms k) (opts k) text to payload
  | k :: k' :: ks, text =>
    ∃ v, AppHop C headers alg (Ms k) (opts k) text k' v ∧ AppTravels C headers alg Ms opts to payload (k' :: ks) v.print

/-- Packing without encryption, by the application, can come to this text. -/
def App.PacksPlain (C : Crypto) (m : Message) (out : Str) : App → Prop
  | .uniffi E => UniffiOutcome E (uniffiPackPlaintext C m) (.success out)
  | .js J => ∃ objects, JsOutcome C.f64 J (jsPackPlaintext C m) objects (.ok out)

/-- Signing by the application can come to this text and this key, which JavaScript is told in an object. -/
def App.PacksSigned (C : Crypto) (m : Message) (signBy out kid : Str) : App → Prop
  | .uniffi E => UniffiOutcome E (uniffiPackSigned C m signBy) (.success (out, kid))
  | .js J => ∃ objects, JsOutcome C.f64 J (jsPackSigned C m signBy) objects (.ok (out, Value.obj [(b!"sign_by_kid", .str kid)]))

/-- Packing claims of a prior DID, by the application, can come to this JWT and key. -/
def App.PacksPrior (C : Crypto) (f : FromPrior) (issuerKid : Option Str) (jwt kid : Str) : App → Prop
  | .uniffi E => UniffiOutcome E (uniffiPackFromPrior C f issuerKid) (.success (jwt, kid))
  | .js J => ∃ objects, JsOutcome C.f64 J (jsPackFromPrior C f issuerKid) objects (.ok (jwt, kid))

/-- Unpacking such a JWT, by the application, comes to these claims and this key, and to nothing else. -/
def App.UnpacksPriorAs (C : Crypto) (jwt : Str) (f : FromPrior) (kid : Str) : App → Prop
  | .uniffi E => ∀ x, UniffiOutcome E (uniffiUnpackFromPrior C jwt) x ↔ x = .success (f, kid)
  | .js J => ∀ objects x, JsOutcome C.f64 J (jsUnpackFromPrior C jwt) objects x ↔ x = .ok (f, kid)

end DIDComm
