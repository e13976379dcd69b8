import Verif.Spec.Receiver
import Verif.Model.Unpack

/-!
# Messages on their way

What it means that mediators pass a forwarded message on, and what is assumed about them.
-/

set_option autoImplicit false

namespace DIDComm

/-- The keys that count as those of the target of a forward: the key itself, or all key agreement keys of the
DID's document. -/
def KeysAt (E : Env) (who : Str) (kids : List Str) : Prop :=
  (HasFragment who ∧ kids = [who]) ∨
  (¬ HasFragment who ∧ ∃ doc, E.resolve who = .ok (some doc) ∧ kids = doc.keyAgreement)

/-- The environment has a secret of the target. -/
def Mine (E : Env) (who : Str) : Prop := ∃ kids found, KeysAt E who kids ∧ E.findSecrets kids = .ok found ∧ found ≠ []

/-- The environment has no secret of the target. -/
def NotMine (E : Env) (who : Str) : Prop := ∃ kids, KeysAt E who kids ∧ E.findSecrets kids = .ok []

/-- `E'` can open what `E` encrypts for `who`, a key or a DID, whichever of the keys are used. -/
def OpensAny (C : Crypto) (pairs : Curve → C.Key → C.Key → Prop) (E' E : Env) (who : Str) : Prop :=
  ∀ doc, E.resolve (didOf who) = .ok (some doc) → ∀ kids, kids ≠ [] → (∀ k ∈ kids, k ∈ meantBy who doc.keyAgreement) →
    CanOpen C pairs E' doc kids

/-- The headers for forward messages are ordinary: a map whose names are not those of standard headers, and which
does not make the forward message look like an envelope. -/
structure HeadersOk (f64 : Str → Option Str) (headers : Option (List (Str × Value))) : Prop where
  nodup : ((headers.getD []).map Prod.fst).Nodup
  values : Value.WFM f64 (headers.getD [])
  depth : Value.depthM (headers.getD []) < 127
  reserved : ∀ k ∈ (headers.getD []).map Prod.fst, k ∉ reservedHeaders
  notJwe : ∃ k ∈ [b!"protected", b!"recipients", b!"iv", b!"ciphertext", b!"tag"], k ∉ (headers.getD []).map Prod.fst
  notJws : ∃ k ∈ [b!"signatures", b!"payload"], k ∉ (headers.getD []).map Prod.fst

/-- A mediator unpacks `text` to a forward message for `next` with the attachment `v`: encrypted, from nobody. -/
def Hop (C : Crypto) (headers : Option (List (Str × Value))) (alg : AnonCryptAlg) (M : Env) (opts : UnpackOptions)
    (text next : Str) (v : Value) : Prop :=
  ∃ (fwd : Message) (kids : List Str),
    Returns M (unpack C text opts) (fwd, {
      encrypted := true, anonymousSender := true, encryptedToKids := some kids, encAlgAnon := some alg }) ∧
    fwd.type_ = b!"https://didcomm.org/routing/2.0/forward" ∧
    fwd.body = .obj [(b!"next", .str next)] ∧
    fwd.attachments = some [{ data := .json v none }] ∧
    fwd.extraHeaders = headers.getD []

/-- The text travels along the keys: the holder of each key finds in it a forward message for the next key, whose
attachment, printed, is the text for that key; the last one finds one for `to` with the payload. -/
def Travels (C : Crypto) (headers : Option (List (Str × Value))) (alg : AnonCryptAlg) (Ms : Str → Env)
    (opts : Str → UnpackOptions) (to : Str) (payload : Value) : List Str → Str → Prop
  | [], _ => False
  | [k], text => Hop C headers alg (Ms k) (opts k) text to payload
  | k :: k' :: ks, text =>
    ∃ v, Hop C headers alg (Ms k) (opts k) text k' v ∧ Travels C headers alg Ms opts to payload (k' :: ks) v.print

end DIDComm
