import Verif.Model.Routing
import Verif.Spec.Env

/-! # Routing, described independently of the code -/

set_option autoImplicit false

namespace DIDComm

/-- The service speaks DIDComm v2: it lists that profile, or lists nothing. -/
def Accepts (v : DIDCommMessagingService) : Prop :=
  v.accept = none ∨ v.accept = some [] ∨ ∃ l, v.accept = some l ∧ b!"didcomm/v2" ∈ l

/-- The service is a DIDComm service `v` that speaks v2. -/
def Usable (s : Service) (v : DIDCommMessagingService) : Prop := s.endpoint = .didCommMessaging v ∧ Accepts v

/-- What selecting a service among `services` must give, with or without a requested id. -/
inductive Selects (services : List Service) :
    Option Str → Res (Option (Str × DIDCommMessagingService)) → Prop
  /-- no id: the first usable service -/
  | first (pre post : List Service) (s : Service) (v : DIDCommMessagingService) (he : services = pre ++ s :: post)
      (hu : Usable s v) (hp : ∀ s' ∈ pre, ∀ v', ¬ Usable s' v') : Selects services none (.ok (some (s.id, v)))
  /-- no id and nothing usable -/
  | nothing (hn : ∀ s ∈ services, ∀ v, ¬ Usable s v) : Selects services none (.ok none)
  /-- the service with the requested id -/
  | named (sid : Str) (pre post : List Service) (s : Service) (v : DIDCommMessagingService)
      (he : services = pre ++ s :: post) (hi : s.id = sid) (hp : ∀ s' ∈ pre, s'.id ≠ sid) (hu : Usable s v) :
      Selects services (some sid) (.ok (some (sid, v)))
  /-- the service with the requested id is not usable -/
  | unusable (sid : Str) (pre post : List Service) (s : Service)
      (he : services = pre ++ s :: post) (hi : s.id = sid) (hp : ∀ s' ∈ pre, s'.id ≠ sid) (hu : ∀ v, ¬ Usable s v) :
      Selects services (some sid) (.error (.kind .illegalArgument))
  /-- there is no service with the requested id -/
  | missing (sid : Str) (hp : ∀ s ∈ services, s.id ≠ sid) :
      Selects services (some sid) (.error (.kind .illegalArgument))

/-- The keys a message goes through, outermost first: the DID of the mediator if the
service's endpoint is one, then the service's own routing keys. -/
def routeOf : List (Str × DIDCommMessagingService) → List Str
  | [] => []
  | [s] => s.2.routingKeys
  | _ :: s :: _ => s.2.uri :: s.2.routingKeys

/-- The headers `x` are the requested ones (the requested headers are a map, so their names
are distinct; `none` means no headers). -/
def SameHeaders (headers : Option (List (Str × Value))) (x : List (Str × Value)) : Prop :=
  ((headers.getD []).map Prod.fst).Nodup → ∀ h, h ∈ x ↔ h ∈ headers.getD []

/-- The onion: `out` is the envelope for the first key of the route, containing a forward
message whose `next` is the following stop and whose payload is the onion for the rest; after
the last key comes the recipient `to` with the message `msg` itself. -/
def Onion (C : Crypto) (headers : Option (List (Str × Value))) (alg : AnonCryptAlg) (to msg : Str) :
    List Str → Str → Prop
  | [], out => out = msg
  | k :: ks, out =>
    ∃ (mid : Str) (payload : Value) (fwd : Message) (tr : List Event) (kids : List Str),
      Onion C headers alg to msg ks mid ∧
      fromJson (toValue C.f64) mid = .ok payload ∧
      fwd.type_ = b!"https://didcomm.org/routing/2.0/forward" ∧
      fwd.body = .obj [(b!"next", .str (ks.head?.getD to))] ∧
      fwd.attachments = some [{ data := .json payload none }] ∧
      SameHeaders headers fwd.extraHeaders ∧
      Runs (anoncrypt C k fwd.toJson.print alg) tr (.ok (out, kids))

end DIDComm
