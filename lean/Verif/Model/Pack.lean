import Verif.Model.FromPrior
import Verif.Model.Jwe

/-! # Packing — /repo/src/message/pack_plaintext.rs, pack_signed.rs, pack_encrypted -/

set_option autoImplicit false

namespace DIDComm

/-! ## Plaintext -/

/-- `_validate_pack_plaintext` — /repo/src/message/pack_plaintext.rs L48-67. -/
def Message.validatePackPlaintext (m : Message) (fp : Option (FromPrior × Str)) : Res Unit :=
  match fp with
  | none => .ok ()
  | some (f, kid) => do
    f.validatePack (some kid)
    match m.from_ with
    | some from_ => if f.sub ≠ from_ then fail .malformed else .ok ()
    | none => .ok ()

/-- The optional `FromPrior::unpack` — /repo/src/message/pack_plaintext.rs L31-38. -/
def unpackFromPrior (C : Crypto) : Option Str → Prog (Option (FromPrior × Str))
  | none => pure none
  | some jwt => do
    let r ← FromPrior.unpack C jwt
    pure (some r)

/-- `Message::pack_plaintext` — /repo/src/message/pack_plaintext.rs L27-46. -/
def packPlaintext (C : Crypto) (m : Message) : Prog Str := do
  let fp ← unpackFromPrior C m.fromPrior
  Prog.lift (m.validatePackPlaintext fp)
  Prog.lift (.ok m.toJson.print)

/-! ## Signed -/

/-- The candidate signing keys — /repo/src/message/pack_signed.rs L61-76. -/
def signKids (signBy : Str) (doc : DIDDoc) : Res (List Str) :=
  match (didOrUrl signBy).2 with
  | some kid => do
    let _ ← okOr .didUrlNotFound (doc.authentication.find? (fun a => a == kid))
    .ok [kid]
  | none => .ok doc.authentication

/-- `Message::pack_signed` — /repo/src/message/pack_signed.rs L45-127; the metadata is
the key id. -/
def packSigned (C : Crypto) (m : Message) (signBy : Str) : Prog (Str × Str) := do
  if isDid signBy = false then Prog.fail .illegalArgument else
  let doc ← resolve (didOrUrl signBy).1
  let doc ← Prog.lift (okOr .didNotResolved doc)
  let kids ← Prog.lift (signKids signBy doc)
  let found ← findSecrets kids
  let kid ← Prog.lift (okOr .secretNotFound found.head?)
  let secret ← getSecret kid
  let secret ← Prog.lift (okOr .secretNotFound secret)
  let pair ← Prog.lift (secret.asKeyPair C)
  let payload ← packPlaintext C m
  let alg ← Prog.lift (signAlgFor pair.curve)
  let msg ← Prog.lift (jwsSign C payload kid pair.curve pair.key alg)
  Prog.lift (.ok (msg, kid))

/-! ## Encrypted -/

/-- The `CE` type argument chosen for an algorithm — /repo/src/message/pack_encrypted/anoncrypt.rs
L103-143. -/
def AnonCryptAlg.ce : AnonCryptAlg → ContentEnc
  | .a256cbcHs512EcdhEsA256kw => .a256cbcHs512
  | .xc20pEcdhEsA256kw => .xc20p
  | .a256gcmEcdhEsA256kw => .a256gcm

/-- The `enc` header chosen for an algorithm — /repo/src/message/pack_encrypted/anoncrypt.rs
L103-143. -/
def AnonCryptAlg.enc : AnonCryptAlg → EncAlg
  | .a256cbcHs512EcdhEsA256kw => .a256cbcHs512
  | .xc20pEcdhEsA256kw => .xc20p
  | .a256gcmEcdhEsA256kw => .a256gcm

/-- The candidate key ids of a party: its key agreements, or only the one asked for —
/repo/src/message/pack_encrypted/anoncrypt.rs L40-52, authcrypt.rs L53-65, L103-115. -/
def agreementKids (kid : Option Str) (doc : DIDDoc) : Res (List Str) :=
  let l := doc.keyAgreement.filter (fun k => match kid with | some w => k == w | none => true)
  if l.isEmpty then fail .didUrlNotFound else .ok l

/-- The verification methods of key ids; a missing one is the error `k` —
/repo/src/message/pack_encrypted/anoncrypt.rs L55-70, authcrypt.rs L81-99, L118-136. -/
def methodsOf (k : ErrorKind) (doc : DIDDoc) : List Str → Res (List VerificationMethod)
  | [] => .ok []
  | kid :: r => do
    let vm ← okOr k (doc.verificationMethod.find? (fun vm => vm.id == kid))
    let l ← methodsOf k doc r
    .ok (vm :: l)

/-- `.map(|vm| vm.as_x25519().map(|k| (&vm.id, k))).collect::<Result<Vec<_>>>()?` —
/repo/src/message/pack_encrypted/anoncrypt.rs L93-101, L146-154. -/
def keysOf (C : Crypto) (c : Curve) : List VerificationMethod → Res (List (Str × C.Key))
  | [] => .ok []
  | vm :: r => do
    let k ← vm.as C c
    let l ← keysOf C c r
    .ok ((vm.id, k) :: l)

/-- `anoncrypt` — /repo/src/message/pack_encrypted/anoncrypt.rs L22-206; the two branches
for X25519 and P-256 are the same up to the curve. -/
def anoncrypt (C : Crypto) (to : Str) (msg : Bytes) (alg : AnonCryptAlg) : Prog (Str × List Str) := do
  let doc ← resolve (didOrUrl to).1
  let doc ← Prog.lift (okOr .didNotResolved doc)
  let kids ← Prog.lift (agreementKids (didOrUrl to).2 doc)
  let keys ← Prog.lift (methodsOf .unsupported doc kids)
  let curve ← Prog.lift (okOr .invalidState (keys.findSome? VerificationMethod.keyAlg))
  let keys := keys.filter (fun vm => decide (vm.keyAlg = some curve))
  if curve = .x25519 ∨ curve = .p256 then
    let toKeys ← Prog.lift (keysOf C curve keys)
    let out ← jweEncrypt C alg.ce .ecdhEs curve msg .ecdhEs alg.enc none toKeys
    Prog.lift (.ok (out, keys.map VerificationMethod.id))
  else Prog.fail .invalidState

/-- The sender key: the first with a supported type that some recipient key has too —
/repo/src/message/pack_encrypted/authcrypt.rs L138-155. -/
def chooseSender (fromKeys toKeys : List VerificationMethod) : Res VerificationMethod :=
  okOr .noCompatibleCrypto
    ((fromKeys.filter (fun k => k.keyAlg.isSome)).find?
      (fun f => toKeys.any (fun t => decide (t.keyAlg = f.keyAlg))))

/-- `authcrypt` — /repo/src/message/pack_encrypted/authcrypt.rs L23-327.  There is one
`AuthCryptAlg`, A256CBC-HS512 with ECDH-1PU. -/
def authcrypt (C : Crypto) (to from_ : Str) (msg : Bytes) (_encAuth : AuthCryptAlg)
    (encAnon : AnonCryptAlg) (protectSender : Bool) : Prog (Str × Str × List Str) := do
  let toDoc ← resolve (didOrUrl to).1
  let toDoc ← Prog.lift (okOr .didNotResolved toDoc)
  let fromDoc ← resolve (didOrUrl from_).1
  let fromDoc ← Prog.lift (okOr .didNotResolved fromDoc)
  let fromKids ← Prog.lift (agreementKids (didOrUrl from_).2 fromDoc)
  let found ← findSecrets fromKids
  if found.isEmpty then Prog.fail .secretNotFound else
  let fromKeys ← Prog.lift (methodsOf .malformed fromDoc found)
  let toKids ← Prog.lift (agreementKids (didOrUrl to).2 toDoc)
  let toKeys ← Prog.lift (methodsOf .malformed toDoc toKids)
  let fromKey ← Prog.lift (chooseSender fromKeys toKeys)
  let secret ← getSecret fromKey.id
  let secret ← Prog.lift (okOr .invalidState secret)
  let keys := toKeys.filter (fun vm => decide (vm.keyAlg = fromKey.keyAlg))
  match fromKey.keyAlg with
  | some curve =>
    if curve = .x25519 ∨ curve = .p256 then
      let toKeys ← Prog.lift (keysOf C curve keys)
      let senderKey ← Prog.lift (secret.as C curve)
      let out ← jweEncrypt C .a256cbcHs512 .ecdh1pu curve msg .ecdh1pu .a256cbcHs512
        (some (fromKey.id, senderKey)) toKeys
      if protectSender then
        let out ← jweEncrypt C encAnon.ce .ecdhEs curve out .ecdhEs encAnon.enc none toKeys
        Prog.lift (.ok (out, fromKey.id, keys.map VerificationMethod.id))
      else
        Prog.lift (.ok (out, fromKey.id, keys.map VerificationMethod.id))
    else Prog.fail .unsupported
  | none => Prog.fail .unsupported

/-- `PackEncryptedOptions` — /repo/src/message/pack_encrypted/mod.rs L204-231, defaults
L233-244. -/
structure PackEncryptedOptions where
  protectSender : Bool := false
  forward : Bool := true
  forwardHeaders : Option (List (Str × Value)) := none
  messagingService : Option Str := none
  encAlgAuth : AuthCryptAlg := .a256cbcHs512Ecdh1puA256kw
  encAlgAnon : AnonCryptAlg := .xc20pEcdhEsA256kw

/-- `MessagingServiceMetadata` — /repo/src/message/pack_encrypted/mod.rs L267-273. -/
structure MessagingServiceMetadata where
  id : Str
  serviceEndpoint : Str
  deriving DecidableEq, Repr

/-- `PackEncryptedMetadata` — /repo/src/message/pack_encrypted/mod.rs L249-262. -/
structure PackEncryptedMetadata where
  messagingService : Option MessagingServiceMetadata
  fromKid : Option Str
  signByKid : Option Str
  toKids : List Str
  deriving DecidableEq, Repr

/-- `_validate_pack_encrypted` — /repo/src/message/pack_encrypted/mod.rs L149-199. -/
def Message.validatePackEncrypted (m : Message) (to : Str) (from_ signBy : Option Str) : Res Unit :=
  if isDid to = false then fail .illegalArgument
  else if from_.any (fun f => !isDid f) then fail .illegalArgument
  else if signBy.any (fun f => !isDid f) then fail .illegalArgument
  else if m.to.any (fun l => !l.contains (didOrUrl to).1) then fail .illegalArgument
  else match from_, m.from_ with
    | some f, some sf => if (didOrUrl f).1 ≠ sf then fail .illegalArgument else .ok ()
    | _, _ => .ok ()

end DIDComm
