import Verif.Model.Jws
import Verif.Model.Prog

/-! # `from_prior` — /repo/src/message/from_prior -/

set_option autoImplicit false

namespace DIDComm

/-- The signature algorithm for a key pair; X25519 (and anything else) is unsupported —
/repo/src/message/pack_signed.rs L97-108, /repo/src/message/from_prior/pack.rs L116-136. -/
def signAlgFor : Curve → Res JwsAlg
  | .ed25519 => .ok .edDSA
  | .p256 => .ok .es256
  | .k256 => .ok .es256k
  | .x25519 => fail .unsupported

/-- The curve a signature algorithm asks for —
/repo/src/message/unpack/sign.rs L94-132, /repo/src/message/from_prior/unpack.rs L87-119. -/
def curveFor : JwsAlg → Res Curve
  | .edDSA => .ok .ed25519
  | .es256 => .ok .p256
  | .es256k => .ok .k256
  | .other _ => fail .unsupported

/-- `const JWT_TYP` — /repo/src/message/from_prior/mod.rs L30. -/
def jwtTyp : Str := b!"JWT"

/-- `FromPrior::validate_pack` — /repo/src/message/from_prior/pack.rs L142-183. -/
def FromPrior.validatePack (f : FromPrior) (issuerKid : Option Str) : Res Unit :=
  if isDid f.iss = false ∨ (didOrUrl f.iss).2.isSome then fail .malformed
  else if isDid f.sub = false ∨ (didOrUrl f.sub).2.isSome then fail .malformed
  else if f.iss = f.sub then fail .malformed
  else match issuerKid with
    | none => .ok ()
    | some k =>
      if (didOrUrl k).2.isNone then fail .illegalArgument
      else if (didOrUrl k).1 ≠ f.iss then fail .illegalArgument
      else .ok ()

/-- The candidate keys — /repo/src/message/from_prior/pack.rs L56-87. -/
def FromPrior.authKids (f : FromPrior) (issuerKid : Option Str) (doc : DIDDoc) : Res (List Str) :=
  match issuerKid with
  | some k =>
    match didOrUrl k with
    | (_, none) => fail .illegalArgument
    | (did, some kid) =>
      if did ≠ f.iss then fail .illegalArgument
      else do
        let kid ← okOr .didUrlNotFound (doc.authentication.find? (fun a => a == kid))
        .ok [kid]
  | none => .ok doc.authentication

/-- `FromPrior::pack` — /repo/src/message/from_prior/pack.rs L34-140. -/
def FromPrior.pack (C : Crypto) (f : FromPrior) (issuerKid : Option Str) : Prog (Str × Str) := do
  Prog.lift (f.validatePack issuerKid)
  let str := f.toJson.print
  let doc ← resolve f.iss
  let doc ← Prog.lift (okOr .didNotResolved doc)
  let kids ← Prog.lift (f.authKids issuerKid doc)
  let found ← findSecrets kids
  let kid ← Prog.lift (okOr .secretNotFound found.head?)
  let secret ← getSecret kid
  let secret ← Prog.lift (okOr .secretNotFound secret)
  let pair ← Prog.lift (secret.asKeyPair C)
  let alg ← Prog.lift (signAlgFor pair.curve)
  let jwt ← Prog.lift (jwsSignCompact C str kid pair.curve pair.key jwtTyp alg)
  Prog.lift (.ok (jwt, kid))

/-- `FromPrior::unpack` — /repo/src/message/from_prior/unpack.rs L26-139. -/
def FromPrior.unpack (C : Crypto) (jwt : Str) : Prog (FromPrior × Str) := do
  let parsed ← Prog.lift (parseCompact jwt)
  if parsed.parsedHeader.typ ≠ b!"JWT" then Prog.fail .malformed else
  let kid := parsed.parsedHeader.kid
  if (didOrUrl kid).2.isNone then Prog.fail .malformed else
  let doc ← resolve (didOrUrl kid).1
  let doc ← Prog.lift (okOr .didNotResolved doc)
  let kid ← Prog.lift (okOr .didUrlNotFound (doc.authentication.find? (fun k => k == kid)))
  let vm ← Prog.lift (okOr .didUrlNotFound (doc.verificationMethod.find? (fun vm => vm.id == kid)))
  let curve ← Prog.lift (curveFor parsed.parsedHeader.alg)
  let key ← Prog.lift (vm.as C curve)
  let valid ← Prog.lift (parsed.verify C curve key)
  if valid = false then Prog.fail .malformed else
  let payload ← Prog.lift (okOr .malformed (B64.decode parsed.payload))
  if validUtf8 payload = false then Prog.fail .malformed else
  let fp ← Prog.lift (withKind .malformed (fromJson dFromPrior payload))
  Prog.lift (.ok (fp, kid))

end DIDComm
