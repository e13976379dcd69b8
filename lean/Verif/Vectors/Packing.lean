import Verif.Vectors.Tests
import Verif.Spec.Toy

/-!
# Tests of the model: packing

The tests of /repo/src/message/pack_encrypted/mod.rs, run on the model with the documents and secrets of the library and the toy primitives
(`Toy.crypto`).  As in `Verif.Vectors.Tests` these are tests, one message each, and no properties.
-/

set_option autoImplicit false
set_option maxRecDepth 1000000

namespace DIDComm.Vectors

open World

/-- `MESSAGE_SIMPLE` with another sender or receiver, as in /repo/src/message/pack_encrypted/mod.rs L2202-2576. -/
def messageWith (from_ to : Str) : Message := { messageSimple with from_ := some from_, to := some [to] }

/-- The check that /repo/src/message/pack_encrypted/mod.rs L2112-2786 repeats: packing without forwarding fails with this kind. -/
def packFails (m : Message) (to : Str) (from_ signBy : Option Str) (e : ErrorKind) : Bool :=
  testError (envOf [aliceDidDoc, bobDidDoc] aliceSecrets) (packEncrypted Toy.crypto m to from_ signBy { forward := false }) (.kind e)

/-- The checks of /repo/src/message/pack_encrypted/mod.rs L330-1512: Alice packs for Bob, the metadata tell which keys were used, and Bob's secret
for each of these keys alone opens the message, with the same keys in the metadata. -/
def packs (to : Str) (from_ signBy : Option Str) (opts : PackEncryptedOptions) (fromKid signByKid : Option Str) (toKids : List Str) : Bool :=
  test (envOf [aliceDidDoc, bobDidDoc] aliceSecrets) (packEncrypted Toy.crypto messageSimple to from_ signBy opts) (fun x =>
    decide (x.2 = { messagingService := none, fromKid := fromKid, signByKid := signByKid, toKids := toKids }) &&
    toKids.all (fun kid =>
      test (envOf [aliceDidDoc, bobDidDoc] (bobSecrets.filter (fun s => s.id == kid))) (unpack Toy.crypto x.1 {}) (fun y =>
        decide (y.1.toJson.print = messageSimple.toJson.print ∧ y.2.encrypted = true ∧ y.2.encryptedFromKid = fromKid ∧
          y.2.encryptedToKids = some toKids ∧ y.2.signFrom = signByKid ∧
          y.2.encAlgAnon = (if from_ = none ∨ opts.protectSender = true then some opts.encAlgAnon else none)))))

/-- `unpack` at a mediator, and the message that it passes on: the metadata must be those of an anonymous envelope, the message a forward to `next`
with the headers — /repo/src/message/pack_encrypted/mod.rs L1605-1637, L1746-1840. -/
def passOn (text next : Str) (docs : List DIDDoc) (secrets : List Secret) (headers : List (Str × Value)) : Option Str :=
  match ((unpack Toy.crypto text {}).run (envOf docs secrets) id).2 with
  | .ok (m, meta_) =>
    if meta_.encrypted ∧ ¬ meta_.authenticated ∧ ¬ meta_.nonRepudiation ∧ meta_.anonymousSender ∧ ¬ meta_.reWrappedInForward ∧
        (Value.obj m.extraHeaders).print = (Value.obj headers).print then
      (tryParseForward m).bind (fun f => if f.next = next then some f.forwardedMsg.print else none)
    else none
  | .error _ => none

/-- The last step of the routing tests — /repo/src/message/pack_encrypted/mod.rs L1642-1661: the receiver opens the message. -/
def arrives (text : Str) (m : Message) (docs : List DIDDoc) (secrets : List Secret) (from_ signBy : Option Str) : Bool :=
  test (envOf docs secrets) (unpack Toy.crypto text {}) (fun y =>
    decide (y.1.toJson.print = m.toJson.print ∧ y.2.encrypted = true ∧ y.2.authenticated = (from_.isSome || signBy.isSome) ∧
      y.2.nonRepudiation = signBy.isSome ∧ y.2.anonymousSender = from_.isNone ∧ y.2.reWrappedInForward = false))

/-- What the routing tests say about the metadata of packing — /repo/src/message/pack_encrypted/mod.rs L1577-1603. -/
def routed (meta_ : PackEncryptedMetadata) (service endpoint to : Str) (from_ signBy : Option Str) : Bool :=
  decide (meta_.messagingService = some ⟨service, endpoint⟩ ∧ meta_.fromKid.map (fun k => (didOrUrl k).1) = from_ ∧
    meta_.signByKid.map (fun k => (didOrUrl k).1) = signBy) &&
  (match (didOrUrl to).2 with
    | some url => decide (meta_.toKids = [url])
    | none => meta_.toKids.all (fun k => decide ((didOrUrl k).1 = to)))

/-- `_pack_encrypted_works_single_mediator` — /repo/src/message/pack_encrypted/mod.rs L1551-1662. -/
def singleMediator (to : Str) (from_ signBy : Option Str) : Bool :=
  let docs := [aliceDidDoc, bobDidDoc, mediator1DidDoc]
  test (envOf docs aliceSecrets) (packEncrypted Toy.crypto messageSimple to from_ signBy {}) (fun x =>
    routed x.2 b!"did:example:bob#didcomm-1" b!"http://example.com/path" to from_ signBy &&
    (match passOn x.1 to docs mediator1Secrets [] with
      | some t => arrives t messageSimple docs bobSecrets from_ signBy
      | none => false))

/-- The headers of /repo/src/message/pack_encrypted/mod.rs L1756-1759. -/
def forwardHeaders : List (Str × Value) := [(b!"example-header-1", .str b!"example-header-1-value"), (b!"example-header-2", .str b!"example-header-2-value")]

/-- `_pack_encrypted_works_multiple_mediators_alternative_endpoints` — /repo/src/message/pack_encrypted/mod.rs L1721-1937. -/
def multipleMediators (to : Str) (from_ signBy : Option Str) : Bool :=
  let docs := [aliceDidDoc, charlieDidDoc, mediator1DidDoc, mediator2DidDoc, mediator3DidDoc]
  let m := messageWith aliceDid charlieDid
  test (envOf docs aliceSecrets) (packEncrypted Toy.crypto m to from_ signBy { forwardHeaders := some forwardHeaders }) (fun x =>
    routed x.2 b!"did:example:charlie#didcomm-1" b!"http://example.com/path" to from_ signBy &&
    (match (do
        let t ← passOn x.1 b!"did:example:mediator2#key-x25519-1" docs mediator3Secrets forwardHeaders
        let t ← passOn t b!"did:example:mediator1#key-x25519-1" docs mediator2Secrets forwardHeaders
        passOn t to docs mediator1Secrets forwardHeaders) with
      | some t => arrives t m docs charlieSecrets from_ signBy
      | none => false))

/-- `_wrap_in_forward_works_mediator_unknown_to_sender` — /repo/src/message/pack_encrypted/mod.rs L1982-2106. -/
def mediatorUnknown (to : Str) (from_ signBy : Option Str) : Bool :=
  let docs := [aliceDidDoc, bobDidDoc, mediator1DidDoc, mediator2DidDoc]
  test (envOf docs aliceSecrets) (packEncrypted Toy.crypto messageSimple to from_ signBy { messagingService := some b!"did:example:bob#didcomm-1" }) (fun x =>
    decide (x.2.messagingService = some ⟨b!"did:example:bob#didcomm-1", b!"http://example.com/path"⟩) &&
    (match passOn x.1 to docs mediator1Secrets [] with
      | some t => test (envOf docs []) (wrapInForward Toy.crypto t none to [b!"did:example:mediator2#key-x25519-1"] .xc20pEcdhEsA256kw) (fun t =>
          match passOn t to docs mediator2Secrets [] with
          | some t => arrives t messageSimple docs bobSecrets from_ signBy
          | none => false)
      | none => false))

-- `pack_encrypted_works_from_not_did_or_did_url`, case 1 — /repo/src/message/pack_encrypted/mod.rs L2112-2139
example : packFails messageSimple bobDid (some b!"not-a-did") none .illegalArgument = true := by decide +kernel

-- `pack_encrypted_works_to_not_did_or_did_url`, case 1 — /repo/src/message/pack_encrypted/mod.rs L2142-2169
example : packFails messageSimple b!"not-a-did" none none .illegalArgument = true := by decide +kernel

-- `pack_encrypted_works_sign_by_not_did_or_did_url`, case 1 — /repo/src/message/pack_encrypted/mod.rs L2172-2199
example : packFails messageSimple bobDid (some aliceDid) (some b!"not-a-did") .illegalArgument = true := by decide +kernel

-- `pack_encrypted_works_from_differs_msg_from`, case 1 — /repo/src/message/pack_encrypted/mod.rs L2202-2231
example : packFails (messageWith charlieDid bobDid) bobDid (some aliceDid) none .illegalArgument = true := by decide +kernel

-- `pack_encrypted_works_to_differs_msg_to`, case 1 — /repo/src/message/pack_encrypted/mod.rs L2234-2263
example : packFails (messageWith aliceDid charlieDid) bobDid (some aliceDid) none .illegalArgument = true := by decide +kernel

-- `pack_encrypted_works_from_not_did_or_did_url_in_msg`, case 1 — /repo/src/message/pack_encrypted/mod.rs L2290-2319
example : packFails (messageWith b!"not-a-did" bobDid) bobDid (some b!"not-a-did") none .illegalArgument = true := by decide +kernel

-- `pack_encrypted_works_to_not_did_or_did_url_in_msg`, case 1 — /repo/src/message/pack_encrypted/mod.rs L2322-2351
example : packFails (messageWith aliceDid b!"not-a-did") b!"not-a-did" (some aliceDid) none .illegalArgument = true := by decide +kernel

-- `pack_encrypted_works_from_did_from_msg_did_url`, case 1 — /repo/src/message/pack_encrypted/mod.rs L2422-2452
example : packFails (messageWith b!"did:example:alice#key-x25519-1" bobDid) bobDid (some aliceDid) none .illegalArgument = true := by decide +kernel

-- `pack_encrypted_works_to_did_to_msg_did_url`, case 1 — /repo/src/message/pack_encrypted/mod.rs L2455-2484
example : packFails (messageWith aliceDid b!"did:example:bob#key-x25519-1") bobDid none none .illegalArgument = true := by decide +kernel

-- `pack_encrypted_works_from_unknown_did`, case 1 — /repo/src/message/pack_encrypted/mod.rs L2487-2513
example : packFails (messageWith b!"did:example:unknown" bobDid) bobDid (some b!"did:example:unknown") none .didNotResolved = true := by decide +kernel

-- `pack_encrypted_works_from_unknown_did_url`, case 1 — /repo/src/message/pack_encrypted/mod.rs L2516-2544
example : packFails messageSimple bobDid (some b!"did:example:alice#unknown-key") none .didUrlNotFound = true := by decide +kernel

-- `pack_encrypted_works_to_unknown_did`, case 1 — /repo/src/message/pack_encrypted/mod.rs L2547-2576
example : packFails (messageWith aliceDid b!"did:example:unknown") b!"did:example:unknown" none none .didNotResolved = true := by decide +kernel

-- `pack_encrypted_works_to_unknown_did_url`, case 1 — /repo/src/message/pack_encrypted/mod.rs L2579-2607
example : packFails messageSimple b!"did:example:bob#unknown-key" (some aliceDid) none .didUrlNotFound = true := by decide +kernel

-- `pack_encrypted_works_sign_by_unknown_did_url`, case 1 — /repo/src/message/pack_encrypted/mod.rs L2610-2638
example : packFails messageSimple bobDid (some aliceDid) (some b!"did:example:alice#unknown-key") .didUrlNotFound = true := by decide +kernel

-- `pack_encrypted_works_from_not_in_secrets`, case 1 — /repo/src/message/pack_encrypted/mod.rs L2641-2668
example : packFails messageSimple bobDid (some b!"did:example:alice#key-x25519-not-in-secrets-1") none .secretNotFound = true := by decide +kernel

-- `pack_encrypted_works_sign_by_not_in_secrets`, case 1 — /repo/src/message/pack_encrypted/mod.rs L2671-2700
example : testError (envOf [aliceDidDocWithNoSecrets, bobDidDoc] aliceSecrets) (packEncrypted Toy.crypto messageSimple bobDid (some aliceDid) (some b!"did:example:alice#key-not-in-secrets-1") { forward := false }) (.kind .secretNotFound) = true := by decide +kernel

-- `pack_encrypted_works_to_from_different_curves`, case 1 — /repo/src/message/pack_encrypted/mod.rs L2726-2786
example : packFails messageSimple b!"did:example:bob#key-p256-1" (some b!"did:example:alice#key-x25519-1") none .noCompatibleCrypto = true := by decide +kernel

-- `pack_encrypted_works_to_from_different_curves`, case 2 — /repo/src/message/pack_encrypted/mod.rs L2726-2786
example : packFails messageSimple b!"did:example:bob#key-p384-1" (some b!"did:example:alice#key-x25519-1") none .noCompatibleCrypto = true := by decide +kernel

-- `pack_encrypted_works_to_from_different_curves`, case 3 — /repo/src/message/pack_encrypted/mod.rs L2726-2786
example : packFails messageSimple b!"did:example:bob#key-p521-1" (some b!"did:example:alice#key-x25519-1") none .noCompatibleCrypto = true := by decide +kernel

-- `pack_encrypted_works_to_from_different_curves`, case 4 — /repo/src/message/pack_encrypted/mod.rs L2726-2786
example : packFails messageSimple b!"did:example:bob#key-p384-1" (some b!"did:example:alice#key-p256-1") none .noCompatibleCrypto = true := by decide +kernel

-- `pack_encrypted_works_to_from_different_curves`, case 5 — /repo/src/message/pack_encrypted/mod.rs L2726-2786
example : packFails messageSimple b!"did:example:bob#key-p521-1" (some b!"did:example:alice#key-p256-1") none .noCompatibleCrypto = true := by decide +kernel

-- `pack_encrypted_works_to_from_different_curves`, case 6 — /repo/src/message/pack_encrypted/mod.rs L2726-2786
example : packFails messageSimple b!"did:example:bob#key-p384-1" (some b!"did:example:alice#key-p521-1") none .noCompatibleCrypto = true := by decide +kernel

-- `pack_encrypted_works_authcrypt`, case 2 — /repo/src/message/pack_encrypted/mod.rs L330-488
example : packs b!"did:example:bob#key-x25519-2" (some b!"did:example:alice") none { forward := false } (some b!"did:example:alice#key-x25519-1") none [b!"did:example:bob#key-x25519-2"] = true := by decide +kernel

-- `pack_encrypted_works_authcrypt`, case 4 — /repo/src/message/pack_encrypted/mod.rs L330-488
example : packs b!"did:example:bob" (some b!"did:example:alice#key-p256-1") none { forward := false } (some b!"did:example:alice#key-p256-1") none [b!"did:example:bob#key-p256-1", b!"did:example:bob#key-p256-2"] = true := by decide +kernel

-- `pack_encrypted_works_authcrypt`, case 7 — /repo/src/message/pack_encrypted/mod.rs L330-488
example : packs b!"did:example:bob#key-p256-1" (some b!"did:example:alice") none { forward := false } (some b!"did:example:alice#key-p256-1") none [b!"did:example:bob#key-p256-1"] = true := by decide +kernel

-- `pack_encrypted_works_authcrypt_protected_sender`, case 4 — /repo/src/message/pack_encrypted/mod.rs L492-810
example : packs b!"did:example:bob#key-x25519-2" (some b!"did:example:alice") none { forward := false, protectSender := true, encAlgAnon := .a256cbcHs512EcdhEsA256kw } (some b!"did:example:alice#key-x25519-1") none [b!"did:example:bob#key-x25519-2"] = true := by decide +kernel

-- `pack_encrypted_works_authcrypt_sign`, case 2 — /repo/src/message/pack_encrypted/mod.rs L966-1090
example : packs b!"did:example:bob#key-x25519-2" (some b!"did:example:alice") (some b!"did:example:alice#key-1") { forward := false } (some b!"did:example:alice#key-x25519-1") (some b!"did:example:alice#key-1") [b!"did:example:bob#key-x25519-2"] = true := by decide +kernel

-- `pack_encrypted_works_anoncrypt`, case 4 — /repo/src/message/pack_encrypted/mod.rs L1094-1346
example : packs b!"did:example:bob#key-x25519-2" none none { forward := false, encAlgAnon := .a256cbcHs512EcdhEsA256kw } none none [b!"did:example:bob#key-x25519-2"] = true := by decide +kernel

-- `pack_encrypted_works_anoncrypt`, case 9 — /repo/src/message/pack_encrypted/mod.rs L1094-1346
example : packs b!"did:example:bob#key-p256-1" none none { forward := false, encAlgAnon := .xc20pEcdhEsA256kw } none none [b!"did:example:bob#key-p256-1"] = true := by decide +kernel

-- `pack_encrypted_works_anoncrypt_sign`, case 2 — /repo/src/message/pack_encrypted/mod.rs L1350-1512
example : packs b!"did:example:bob" none (some b!"did:example:alice") { forward := false, encAlgAnon := .a256gcmEcdhEsA256kw } none (some b!"did:example:alice#key-1") [b!"did:example:bob#key-x25519-1", b!"did:example:bob#key-x25519-2", b!"did:example:bob#key-x25519-3"] = true := by decide +kernel

-- `pack_encrypted_works_single_mediator`, case 5 — /repo/src/message/pack_encrypted/mod.rs L1518-1663
example : singleMediator b!"did:example:bob#key-x25519-2" none none = true := by decide +kernel

end DIDComm.Vectors
