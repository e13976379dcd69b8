import Verif.Model.Routing

/-! # Unpacking — /repo/src/message/unpack -/

set_option autoImplicit false

namespace DIDComm

/-- `UnpackOptions` — /repo/src/message/unpack/mod.rs L158-178. -/
structure UnpackOptions where
  expectDecryptByAllKeys : Bool := false
  unwrapReWrappingForward : Bool := true

/-- `UnpackMetadata` — /repo/src/message/unpack/mod.rs L183-225, initial value L59-74. -/
structure UnpackMetadata where
  encrypted : Bool := false
  authenticated : Bool := false
  nonRepudiation : Bool := false
  anonymousSender : Bool := false
  reWrappedInForward : Bool := false
  encryptedFromKid : Option Str := none
  encryptedToKids : Option (List Str) := none
  signFrom : Option Str := none
  fromPriorIssuerKid : Option Str := none
  encAlgAuth : Option AuthCryptAlg := none
  encAlgAnon : Option AnonCryptAlg := none
  signAlg : Option SignAlg := none
  signedMessage : Option Str := none
  fromPrior : Option FromPrior := none
  deriving DecidableEq, Repr

/-- `match X::from_str(msg) { Ok(m) => .., Err(Malformed) => return Ok(None), Err(e) => Err(e)? }` —
/repo/src/message/unpack/anoncrypt.rs L29-33, authcrypt.rs L31-35, sign.rs L21-25,
plaintext.rs L10-14, mod.rs L132-136. -/
def recognise {α : Type} : Res α → Res (Option α)
  | .ok a => .ok (some a)
  | .error (.kind .malformed) => .ok none
  | .error e => .error e

/-- The recipient key ids must exist, be DID URLs and belong to one DID —
/repo/src/message/unpack/anoncrypt.rs L51-66, authcrypt.rs L94-109. -/
def checkRecipients (kids : List Str) : Res Unit :=
  match kids with
  | [] => fail .malformed
  | k0 :: _ =>
    if kids.any (fun k => decide ((didOrUrl k).1 ≠ (didOrUrl k0).1) || (didOrUrl k).2.isNone) then fail .malformed
    else .ok ()

/-- The content ciphers of anoncrypt by `enc` header, with the name reported in the
metadata — /repo/src/message/unpack/anoncrypt.rs L95-160. -/
def anonEnc : EncAlg → Option (ContentEnc × AnonCryptAlg)
  | .a256cbcHs512 => some (.a256cbcHs512, .a256cbcHs512EcdhEsA256kw)
  | .xc20p => some (.xc20p, .xc20pEcdhEsA256kw)
  | .a256gcm => some (.a256gcm, .a256gcmEcdhEsA256kw)
  | .other _ => none

/-- Decryption with one key — /repo/src/message/unpack/anoncrypt.rs L95-160. -/
def anonDecryptWith (C : Crypto) (p : ParsedJWE) (kid : Str) (key : KeyPair C) : Res (AnonCryptAlg × Bytes) :=
  if key.curve = .x25519 ∨ key.curve = .p256 then
    match anonEnc p.protected_.enc with
    | some (ce, alg) => do
      let b ← p.decrypt C ce .ecdhEs key.curve none kid key.key
      .ok (alg, b)
    | none => fail .unsupported
  else fail .unsupported

/-- The loop over the recipient keys for which there is a secret —
/repo/src/message/unpack/anoncrypt.rs L81-167, authcrypt.rs L130-192. -/
def decryptLoop {α : Type} (C : Crypto) (all : Bool) (decryptWith : Str → KeyPair C → Res α) :
    List Str → Option α → Prog (Option α)
  | [], acc => pure acc
  | kid :: r, _ => do
    let secret ← getSecret kid
    let secret ← Prog.lift (okOr .invalidState secret)
    let key ← Prog.lift (secret.asKeyPair C)
    let x ← Prog.lift (decryptWith kid key)
    if all then decryptLoop C all decryptWith r (some x) else pure (some x)

/-- `_try_unpack_anoncrypt` — /repo/src/message/unpack/anoncrypt.rs L23-175. -/
def tryUnpackAnoncrypt (C : Crypto) (msg : Str) (opts : UnpackOptions) (md : UnpackMetadata) :
    Prog (Option Str × UnpackMetadata) := do
  let jwe ← Prog.lift (recognise (jweFromStr msg))
  match jwe with
  | none => pure (none, md)
  | some jwe => do
    let p ← Prog.lift (jwe.parse C)
    if p.protected_.alg ≠ .ecdhEs then pure (none, md) else
    let p ← Prog.lift (p.verifyDidcomm C)
    let kids := p.jwe.recipients.map JweRecipient.kid
    Prog.lift (checkRecipients kids)
    let md := { md with encryptedToKids := some kids, encrypted := true, anonymousSender := true }
    let found ← findSecrets kids
    if found.isEmpty then Prog.fail .secretNotFound else
    let r ← decryptLoop C opts.expectDecryptByAllKeys (anonDecryptWith C p) found none
    let (alg, payload) ← Prog.lift (okOr .invalidState r)
    if validUtf8 payload = false then Prog.fail .malformed else
    pure (some payload, { md with encAlgAnon := some alg })

/-- Decryption with one pair of keys — /repo/src/message/unpack/authcrypt.rs L144-185. -/
def authDecryptWith (C : Crypto) (p : ParsedJWE) (fromKid : Str) (fromKey : KeyPair C) (kid : Str)
    (key : KeyPair C) : Res (AuthCryptAlg × Bytes) :=
  if (fromKey.curve = .x25519 ∨ fromKey.curve = .p256) ∧ fromKey.curve = key.curve
      ∧ p.protected_.enc = .a256cbcHs512 then do
    let b ← p.decrypt C .a256cbcHs512 .ecdh1pu fromKey.curve (some (fromKid, fromKey.key)) kid key.key
    .ok (.a256cbcHs512Ecdh1puA256kw, b)
  else if fromKey.curve = .x25519 ∧ key.curve = .p256 then fail .malformed
  else if fromKey.curve = .p256 ∧ key.curve = .x25519 then fail .malformed
  else fail .unsupported

/-- `_try_unpack_authcrypt` — /repo/src/message/unpack/authcrypt.rs L24-200. -/
def tryUnpackAuthcrypt (C : Crypto) (msg : Str) (opts : UnpackOptions) (md : UnpackMetadata) :
    Prog (Option Str × UnpackMetadata) := do
  let jwe ← Prog.lift (recognise (jweFromStr msg))
  match jwe with
  | none => pure (none, md)
  | some jwe => do
    let p ← Prog.lift (jwe.parse C)
    if p.protected_.alg ≠ .ecdh1pu then pure (none, md) else
    let p ← Prog.lift (p.verifyDidcomm C)
    let fromKid ← Prog.lift (okOr .malformed p.apu)
    if validUtf8 fromKid = false then Prog.fail .malformed else
    if (didOrUrl fromKid).2.isNone then Prog.fail .malformed else
    let doc ← (resolve (didOrUrl fromKid).1).withKind .invalidState
    let doc ← Prog.lift (okOr .didNotResolved doc)
    let fromKid ← Prog.lift (okOr .didUrlNotFound (doc.keyAgreement.find? (fun k => k == fromKid)))
    let vm ← Prog.lift (okOr .didUrlNotFound (doc.verificationMethod.find? (fun vm => vm.id == fromKid)))
    let fromKey ← Prog.lift (vm.asKeyPair C)
    let kids := p.jwe.recipients.map JweRecipient.kid
    Prog.lift (checkRecipients kids)
    let md := { md with
      encryptedToKids := (match md.encryptedToKids with | none => some kids | some l => some l),
      authenticated := true, encrypted := true, encryptedFromKid := some fromKid }
    let found ← findSecrets kids
    if found.isEmpty then Prog.fail .secretNotFound else
    let r ← decryptLoop C opts.expectDecryptByAllKeys (authDecryptWith C p fromKid fromKey) found none
    let (alg, payload) ← Prog.lift (okOr .invalidState r)
    if validUtf8 payload = false then Prog.fail .malformed else
    pure (some payload, { md with encAlgAuth := some alg })

/-- The algorithm reported in the metadata — /repo/src/message/unpack/sign.rs L94-132. -/
def signAlgOf : JwsAlg → Option SignAlg
  | .edDSA => some .edDSA
  | .es256 => some .es256
  | .es256k => some .es256k
  | .other _ => none

/-- `_try_unpack_sign` — /repo/src/message/unpack/sign.rs L13-151. -/
def tryUnpackSign (C : Crypto) (msg : Str) (md : UnpackMetadata) :
    Prog (Option Str × UnpackMetadata) := do
  let jws ← Prog.lift (recognise (jwsFromStr msg))
  match jws with
  | none => pure (none, md)
  | some jws => do
    let p ← Prog.lift jws.parse
    if p.protected_.length ≠ 1 then Prog.fail .malformed else
    let hdr ← Prog.lift (okOr .invalidState p.protected_.head?)
    let sig ← Prog.lift (okOr .invalidState p.jws.signatures.head?)
    let kid := sig.kid
    if (didOrUrl kid).2.isNone then Prog.fail .malformed else
    let doc ← resolve (didOrUrl kid).1
    let doc ← Prog.lift (okOr .didNotResolved doc)
    let kid ← Prog.lift (okOr .didUrlNotFound (doc.authentication.find? (fun k => k == kid)))
    let vm ← Prog.lift (okOr .didUrlNotFound (doc.verificationMethod.find? (fun vm => vm.id == kid)))
    let curve ← Prog.lift (curveFor hdr.alg)
    let key ← Prog.lift (vm.as C curve)
    let valid ← Prog.lift (p.verify C kid curve key)
    if valid = false then Prog.fail .malformed else
    let payload ← Prog.lift (okOr .malformed (B64.decode p.jws.payload))
    if validUtf8 payload = false then Prog.fail .malformed else
    pure (some payload, { md with
      signAlg := signAlgOf hdr.alg, authenticated := true, nonRepudiation := true,
      signFrom := some kid, signedMessage := some msg })

/-- `Message::from_str` — /repo/src/message/message.rs L88-90. -/
def messageFromStr (C : Crypto) (s : Str) : Res Message := fromJson (dMessage C.f64) s

/-- `Message::validate` — /repo/src/message/message.rs L92-100. -/
def Message.validate (m : Message) : Res Message :=
  if m.typ ≠ plaintextTyp then fail .malformed else .ok m

/-- `_try_unpack_plaintext` — /repo/src/message/unpack/plaintext.rs L5-26. -/
def tryUnpackPlaintext (C : Crypto) (msg : Str) (md : UnpackMetadata) :
    Prog (Option Message × UnpackMetadata) := do
  let m ← Prog.lift (recognise (messageFromStr C msg))
  match m with
  | none => pure (none, md)
  | some m => do
    let m ← Prog.lift m.validate
    match m.fromPrior with
    | none => pure (some m, md)
    | some jwt => do
      let (fp, kid) ← FromPrior.unpack C jwt
      pure (some m, { md with fromPrior := some fp, fromPriorIssuerKid := some kid })

/-- `has_key_agreement_secret` — /repo/src/message/unpack/mod.rs L227-250. -/
def hasKeyAgreementSecret (didOrKid : Str) : Prog Bool := do
  let kids ← (match didOrUrl didOrKid with
    | (_, some kid) => pure [kid]
    | (did, none) => do
      let doc ← resolve did
      let doc ← Prog.lift (okOr .didNotResolved doc)
      pure doc.keyAgreement : Prog (List Str))
  let found ← findSecrets kids
  pure (!found.isEmpty)

/-- `_try_unwrap_forwarded_message` — /repo/src/message/unpack/mod.rs L127-153. -/
def tryUnwrapForwarded (C : Crypto) (msg : Str) : Prog (Option Str) := do
  let m ← Prog.lift (recognise (messageFromStr C msg))
  match m with
  | none => pure none
  | some m =>
    match tryParseForward m with
    | none => pure none
    | some f => do
      let has ← hasKeyAgreementSecret f.next
      if has then pure (some f.forwardedMsg.print) else pure none

/-- The loop removing anoncrypt layers of re-wrapped forwards —
/repo/src/message/unpack/mod.rs L80-105; returns the message to go on with.  The first
argument is fuel. -/
def unwrapLoop (C : Crypto) (opts : UnpackOptions) :
    Nat → Str → UnpackMetadata → Prog (Str × UnpackMetadata)
  | 0, _, _ => .ret (.error .fuel)
  | n + 1, msg, md => do
    let (anon, md) ← tryUnpackAnoncrypt C msg opts md
    match anon with
    | none => pure (msg, md)
    | some payload =>
      if opts.unwrapReWrappingForward then do
        let fwd ← tryUnwrapForwarded C payload
        match fwd with
        | some inner => unwrapLoop C opts n inner { md with reWrappedInForward := true }
        | none => pure (payload, md)
      else pure (payload, md)

/-- `Message::unpack` — /repo/src/message/unpack/mod.rs L53-125.  The fuel is enough:
`Verif.Props.Termination`. -/
def unpack (C : Crypto) (msg : Str) (opts : UnpackOptions) : Prog (Message × UnpackMetadata) := do
  let (msg, md) ← unwrapLoop C opts (msg.length + 1) msg {}
  let (auth, md) ← tryUnpackAuthcrypt C msg opts md
  let msg := auth.getD msg
  let (signed, md) ← tryUnpackSign C msg md
  let msg := signed.getD msg
  let (m, md) ← tryUnpackPlaintext C msg md
  let m ← Prog.lift (okOr .malformed m)
  pure (m, md)

end DIDComm
