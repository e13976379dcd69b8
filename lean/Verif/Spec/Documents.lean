import Verif.Model.DocSerde
import Verif.Spec.Values

/-!
# Ordinary documents, secrets and options as JSON

What a JSON object says about a name, and which documents and secrets are ordinary: their texts are UTF-8 (a Rust
`String` always is), their JSON values are ordinary and not nested deeper than serde_json reads.
-/

set_option autoImplicit false

namespace DIDComm

/-- The object with members `m` gives the name `k` the value `o`: it is absent, or present exactly once. -/
def Says (m : List (Str × Value)) (k : Str) (o : Option Value) : Prop :=
  (m.filter (fun p => p.1 == k)).map Prod.snd = o.toList

/-- The same for a parsed text. -/
def SaysTree (m : List (Str × Tree)) (k : Str) (o : Option Tree) : Prop :=
  (m.filter (fun p => p.1 == k)).map Prod.snd = o.toList

/-- Ordinary key material, nested less than `d` deep. -/
def Material.WF (f64 : Str → Option Str) (d : Nat) : Material → Prop
  | .jwk v => v.WF f64 ∧ v.depth < d
  | .multibase s => validUtf8 s = true
  | .base58 s => validUtf8 s = true

/-- An ordinary verification method.  It sits three levels deep in the document. -/
structure VerificationMethod.WF (f64 : Str → Option Str) (v : VerificationMethod) : Prop where
  id : validUtf8 v.id = true
  controller : validUtf8 v.controller = true
  material : v.material.WF f64 125

/-- An ordinary endpoint; one of another kind is an object. -/
def ServiceKind.WF (f64 : Str → Option Str) : ServiceKind → Prop
  | .didCommMessaging s => validUtf8 s.uri = true ∧ (∀ l, s.accept = some l → AllUtf8 l) ∧ AllUtf8 s.routingKeys
  | .other v => (∃ m, v = .obj m) ∧ v.WF f64 ∧ v.depth < 125

/-- An ordinary service. -/
structure Service.WF (f64 : Str → Option Str) (s : Service) : Prop where
  id : validUtf8 s.id = true
  endpoint : s.endpoint.WF f64

/-- An ordinary document. -/
structure DIDDoc.WF (f64 : Str → Option Str) (d : DIDDoc) : Prop where
  id : validUtf8 d.id = true
  keyAgreement : AllUtf8 d.keyAgreement
  authentication : AllUtf8 d.authentication
  methods : ∀ v ∈ d.verificationMethod, v.WF f64
  services : ∀ s ∈ d.service, s.WF f64

/-- An ordinary secret. -/
structure Secret.WF (f64 : Str → Option Str) (s : Secret) : Prop where
  id : validUtf8 s.id = true
  material : s.material.WF f64 127

/-- Ordinary headers: a map with ordinary values. -/
structure HeadersWF (f64 : Str → Option Str) (d : Nat) (h : List (Str × Value)) : Prop where
  values : Value.WFM f64 h
  depth : Value.depthM h < d
  nodup : (h.map Prod.fst).Nodup

/-- Metadata whose texts are UTF-8. -/
structure UnpackMetadata.WF (m : UnpackMetadata) : Prop where
  encryptedFromKid : OptUtf8 m.encryptedFromKid
  encryptedToKids : ∀ l, m.encryptedToKids = some l → AllUtf8 l
  signFrom : OptUtf8 m.signFrom
  fromPriorIssuerKid : OptUtf8 m.fromPriorIssuerKid
  signedMessage : OptUtf8 m.signedMessage
  fromPrior : ∀ f, m.fromPrior = some f → f.WF

/-- Metadata whose texts are UTF-8. -/
structure PackEncryptedMetadata.WF (m : PackEncryptedMetadata) : Prop where
  service : ∀ s, m.messagingService = some s → validUtf8 s.id = true ∧ validUtf8 s.serviceEndpoint = true
  fromKid : OptUtf8 m.fromKid
  signByKid : OptUtf8 m.signByKid
  toKids : AllUtf8 m.toKids

end DIDComm
