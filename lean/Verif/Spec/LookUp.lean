import Verif.Spec.Trace
import Verif.Spec.Route
import Verif.Spec.Codec

/-! # Which DIDs packing may look up -/

set_option autoImplicit false

namespace DIDComm

/-- The header of the JWT names the signing key `kid`. -/
def JwtKid (jwt kid : Str) : Prop :=
  ∃ h rest b hdr, jwt = h ++ b!"." ++ rest ∧ B64.decode h = some b ∧ fromJson dCompactHeader b = .ok hdr ∧ hdr.kid = kid

/-- After this history the document of the recipient `to` is known, and `v` is the service to be used for it. -/
def ServiceFor (to : Str) (sid : Option Str) (pre : List Event) (v : DIDCommMessagingService) : Prop :=
  ∃ doc name, Resolved pre (didOf to) doc ∧ Selects doc.service sid (.ok (some (name, v)))

/-- Whose documents packing `m` for `to` may ask for, after a history. -/
inductive LooksUp (m : Message) (to : Str) (from_ signBy : Option Str) (opts : PackEncryptedOptions) (pre : List Event) :
    Str → Prop
  /-- the signer -/
  | signer {s : Str} (hs : signBy = some s) : LooksUp m to from_ signBy opts pre (didOf s)
  /-- the sender -/
  | sender {s : Str} (hs : from_ = some s) : LooksUp m to from_ signBy opts pre (didOf s)
  /-- the recipient -/
  | recipient : LooksUp m to from_ signBy opts pre (didOf to)
  /-- the issuer of the `from_prior` -/
  | prior {jwt kid : Str} (hj : m.fromPrior = some jwt) (hk : JwtKid jwt kid) (hf : HasFragment kid) :
      LooksUp m to from_ signBy opts pre (didOf kid)
  /-- the mediator, if the endpoint of the recipient's service is a DID: for its service -/
  | mediator {v : DIDCommMessagingService} (hf : opts.forward = true) (hs : ServiceFor to opts.messagingService pre v)
      (hu : LooksLikeDid v.uri) : LooksUp m to from_ signBy opts pre v.uri
  /-- the mediator: for its keys -/
  | mediatorKeys {v : DIDCommMessagingService} (hf : opts.forward = true) (hs : ServiceFor to opts.messagingService pre v)
      (hu : LooksLikeDid v.uri) : LooksUp m to from_ signBy opts pre (didOf v.uri)
  /-- the owners of the routing keys of the recipient's service -/
  | router {v : DIDCommMessagingService} {k : Str} (hf : opts.forward = true)
      (hs : ServiceFor to opts.messagingService pre v) (hk : k ∈ v.routingKeys) :
      LooksUp m to from_ signBy opts pre (didOf k)

end DIDComm
