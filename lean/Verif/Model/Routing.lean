import Verif.Model.Pack
import Verif.Model.Builders

/-! # Forward protocol — /repo/src/protocols/routing, and `pack_encrypted` -/

set_option autoImplicit false

namespace DIDComm

/-- `FORWARD_MSG_TYPE` — /repo/src/protocols/routing/mod.rs L19. -/
def forwardMsgType : Str := b!"https://didcomm.org/routing/2.0/forward"

/-- `DIDCOMM_V2_PROFILE` — /repo/src/protocols/routing/mod.rs L21. -/
def didcommV2Profile : Str := b!"didcomm/v2"

/-- Whether a service accepts DIDComm v2 — /repo/src/protocols/routing/mod.rs L48-60, L72-81. -/
def acceptsV2 (s : DIDCommMessagingService) : Bool :=
  match s.accept with
  | some l => l.isEmpty || l.contains didcommV2Profile
  | none => true

/-- The selection among the services of a document —
/repo/src/protocols/routing/mod.rs L34-84. -/
def selectService (services : List Service) : Option Str → Res (Option (Str × DIDCommMessagingService))
  | some sid => do
    let s ← okOr .illegalArgument (services.find? (fun s => s.id == sid))
    match s.endpoint with
    | .didCommMessaging v => if acceptsV2 v then .ok (some (s.id, v)) else fail .illegalArgument
    | .other _ => fail .illegalArgument
  | none => .ok (services.findSome? fun s =>
      match s.endpoint with
      | .didCommMessaging v => if acceptsV2 v then some (s.id, v) else none
      | .other _ => none)

/-- `find_did_comm_service` — /repo/src/protocols/routing/mod.rs L23-85. -/
def findDidCommService (did : Str) (serviceId : Option Str) :
    Prog (Option (Str × DIDCommMessagingService)) := do
  let doc ← resolve did
  let doc ← Prog.lift (okOr .didNotResolved doc)
  Prog.lift (selectService doc.service serviceId)

/-- The `while` loop over alternative endpoints — /repo/src/protocols/routing/mod.rs
L105-127.  The first argument is fuel. -/
def chainLoop : Nat → List (Str × DIDCommMessagingService) → Str →
    Prog (List (Str × DIDCommMessagingService))
  | 0, _, _ => .ret (.error .fuel)
  | n + 1, services, endpoint =>
    if isDid endpoint then
      if services.length > 1 then Prog.fail .invalidState
      else do
        let s ← findDidCommService endpoint none
        let s ← Prog.lift (okOr .invalidState s)
        chainLoop n (s :: services) s.2.uri
    else pure services

/-- `resolve_did_comm_services_chain` — /repo/src/protocols/routing/mod.rs L87-130. -/
def servicesChain (to : Str) (serviceId : Option Str) :
    Prog (List (Str × DIDCommMessagingService)) := do
  let s ← findDidCommService (didOrUrl to).1 serviceId
  match s with
  | none => pure []
  | some s => chainLoop 3 [s] s.2.uri

/-- Insert all headers, in order — /repo/src/protocols/routing/mod.rs L154-158. -/
def addHeaders (b : MessageBuilder) : List (Str × Value) → MessageBuilder
  | [] => b
  | (k, v) :: r => addHeaders (b.header k v) r

/-- The forward message — /repo/src/protocols/routing/mod.rs L136-162. -/
def forwardMessage (id : Str) (forwarded : Value) (next : Str) (headers : Option (List (Str × Value))) :
    Message :=
  let b := MessageBuilder.new id forwardMsgType (.obj [(b!"next", .str next)])
  let b := addHeaders b (headers.getD [])
  (b.addAttachment (AttachmentBuilder.json forwarded).finalize).finalize

/-- `build_forward_message` — /repo/src/protocols/routing/mod.rs L132-165. -/
def buildForwardMessage (C : Crypto) (msg next : Str) (headers : Option (List (Str × Value))) : Prog Str := do
  let v ← Prog.lift (withKind .malformed (fromJson (toValue C.f64) msg))
  let r ← random
  Prog.lift (.ok (forwardMessage (C.uuid r) v next headers).toJson.print)

/-- `ParsedForward` — /repo/src/protocols/routing/forward.rs. -/
structure ParsedForward where
  next : Str
  forwardedMsg : Value

/-- `body.get("next")` if it is a string — /repo/src/protocols/routing/mod.rs L180-186. -/
def forwardNext (m : Message) : Option Str := m.body.getStr b!"next"

/-- The JSON of the first attachment — /repo/src/protocols/routing/mod.rs L194-203. -/
def forwardPayload (m : Message) : Option Value :=
  match m.attachments with
  | some (a :: _) =>
    match a.data with
    | .json v _ => some v
    | _ => none
  | _ => none

/-- `try_parse_forward` — /repo/src/protocols/routing/mod.rs L175-216. -/
def tryParseForward (m : Message) : Option ParsedForward :=
  if m.type_ ≠ forwardMsgType then none
  else do
    let next ← forwardNext m
    let v ← forwardPayload m
    some ⟨next, v⟩

/-- The wrapping loop — /repo/src/protocols/routing/mod.rs L259-264. -/
def wrapLoop (C : Crypto) (headers : Option (List (Str × Value))) (alg : AnonCryptAlg) :
    List (Str × Str) → Str → Prog Str
  | [], msg => pure msg
  | (to, next) :: r, msg => do
    let fwd ← buildForwardMessage C msg next headers
    let (out, _) ← anoncrypt C to fwd alg
    wrapLoop C headers alg r out

/-- `wrap_in_forward` — /repo/src/protocols/routing/mod.rs L240-267.  `nexts.remove(0)`
panics when there are no routing keys. -/
def wrapInForward (C : Crypto) (msg : Str) (headers : Option (List (Str × Value))) (to : Str)
    (routingKeys : List Str) (alg : AnonCryptAlg) : Prog Str :=
  match routingKeys with
  | [] => .ret (.error .panic)
  | _ :: r =>
    let nexts := r ++ [to]
    wrapLoop C headers alg (routingKeys.reverse.zip nexts.reverse) msg

/-- The routing keys of a chain: the URIs of all but the first, then the routing keys of
the last — /repo/src/protocols/routing/mod.rs L287-292. -/
def chainRoutingKeys (chain : List (Str × DIDCommMessagingService)) : List Str :=
  (chain.drop 1).map (fun s => s.2.uri)
    ++ (match chain.getLast? with | some s => s.2.routingKeys | none => [])

/-- `wrap_in_forward_if_needed` — /repo/src/protocols/routing/mod.rs L269-314. -/
def wrapInForwardIfNeeded (C : Crypto) (msg to : Str) (opts : PackEncryptedOptions) :
    Prog (Option (Str × MessagingServiceMetadata)) := do
  if opts.forward = false then pure none else
  let chain ← servicesChain to opts.messagingService
  match chain.head?, chain.getLast? with
  | some first, some last =>
    let keys := chainRoutingKeys chain
    if keys.isEmpty then pure none
    else do
      let fwd ← wrapInForward C msg opts.forwardHeaders to keys opts.encAlgAnon
      pure (some (fwd, ⟨last.1, first.2.uri⟩))
  | _, _ => pure none

/-- The inner message: signed or plaintext — /repo/src/message/pack_encrypted/mod.rs L97-110. -/
def packInner (C : Crypto) (m : Message) : Option Str → Prog (Str × Option Str)
  | some signBy => do
    let (msg, kid) ← packSigned C m signBy
    pure (msg, some kid)
  | none => do
    let msg ← packPlaintext C m
    pure (msg, none)

/-- The encryption step — /repo/src/message/pack_encrypted/mod.rs L112-131. -/
def packCrypt (C : Crypto) (to : Str) (from_ : Option Str) (msg : Str) (opts : PackEncryptedOptions) :
    Prog (Str × Option Str × List Str) :=
  match from_ with
  | some f => do
    let (out, fk, tk) ← authcrypt C to f msg opts.encAlgAuth opts.encAlgAnon opts.protectSender
    pure (out, some fk, tk)
  | none => do
    let (out, tk) ← anoncrypt C to msg opts.encAlgAnon
    pure (out, none, tk)

/-- `Message::pack_encrypted` — /repo/src/message/pack_encrypted/mod.rs L77-147. -/
def packEncrypted (C : Crypto) (m : Message) (to : Str) (from_ signBy : Option Str)
    (opts : PackEncryptedOptions) : Prog (Str × PackEncryptedMetadata) := do
  Prog.lift (m.validatePackEncrypted to from_ signBy)
  let (msg, signByKid) ← packInner C m signBy
  let (msg, fromKid, toKids) ← packCrypt C to from_ msg opts
  let w ← wrapInForwardIfNeeded C msg to opts
  match w with
  | some (fwd, svc) => pure (fwd, ⟨some svc, fromKid, signByKid, toKids⟩)
  | none => pure (msg, ⟨none, fromKid, signByKid, toKids⟩)

end DIDComm
