import Verif.Spec.Values
import Verif.Model.DocSerde

/-!
# The doubles in a message

serde_json reads the text of a number into a double and prints a double as text.  For some doubles it does not read back what it
printed (`float_roundtrip` is off); those cannot be passed on unchanged.
-/

set_option autoImplicit false

namespace DIDComm

mutual
/-- The texts of the doubles in a value. -/
def Value.doubles : Value → List Str
  | .num (.flt t) => [t]
  | .arr l => Value.doublesL l
  | .obj m => Value.doublesM m
  | _ => []
/-- Those of all elements. -/
def Value.doublesL : List Value → List Str
  | [] => []
  | v :: r => v.doubles ++ Value.doublesL r
/-- Those of all members. -/
def Value.doublesM : List (Str × Value) → List Str
  | [] => []
  | (_, v) :: r => v.doubles ++ Value.doublesM r
end

/-- The doubles in attachment data. -/
def AttachmentData.doubles : AttachmentData → List Str
  | .json v _ => v.doubles
  | _ => []

/-- The doubles in a message: in its body, its extra headers and its attachments. -/
def Message.doubles (m : Message) : List Str :=
  m.body.doubles ++ Value.doublesM m.extraHeaders ++ (m.attachments.getD []).flatMap fun a => a.data.doubles

/-- The doubles in key material. -/
def Material.doubles : Material → List Str
  | .jwk v => v.doubles
  | _ => []

/-- The doubles in an endpoint. -/
def ServiceKind.doubles : ServiceKind → List Str
  | .other v => v.doubles
  | _ => []

/-- The doubles in a document: in the keys of its verification methods and in the endpoints of its services. -/
def DIDDoc.doubles (d : DIDDoc) : List Str :=
  (d.verificationMethod.flatMap fun v => v.material.doubles) ++ d.service.flatMap fun s => s.endpoint.doubles

/-- Every one of these texts of doubles is read as the double it came from. -/
def ReadBack (f64 : Str → Option Str) (l : List Str) : Prop := ∀ t ∈ l, f64 t = some t

end DIDComm
