import Verif.Model.Serde
import Verif.Model.Keys
import Verif.Model.Did

/-! # JWS: sign, parse, verify — /repo/src/jws -/

set_option autoImplicit false

namespace DIDComm

/-- `Algorithm::sig_type` — /repo/src/jws/envelope.rs L84-99. -/
def JwsAlg.sigType : JwsAlg → Res SigType
  | .edDSA => .ok .edDSA
  | .es256 => .ok .es256
  | .es256k => .ok .es256k
  | .other _ => fail .unsupported

/-- The `typ` of a signed message — /repo/src/jws/sign.rs L20. -/
def signedTyp : Str := b!"application/didcomm-signed+json"

/-- `format!("{}.{}", a, b)`.  Called at /repo/src/jws/sign.rs L36, L86, L95 and
/repo/src/jws/verify.rs L26, L42. -/
def dotJoin (a b : Str) : Str := a ++ 0x2E :: b

/-- The encoded protected header of a signed message — /repo/src/jws/sign.rs L18-28. -/
def jwsProtected (alg : JwsAlg) : Str :=
  B64.encode (JwsHeader.toJson ⟨signedTyp, alg⟩).print

/-- `jws::sign` — /repo/src/jws/sign.rs L9-59. -/
def jwsSign (C : Crypto) (payload : Bytes) (kid : Str) (curve : Curve) (key : C.Key) (alg : JwsAlg) :
    Res Str := do
  let sigType ← alg.sigType
  let prot := jwsProtected alg
  let payload := B64.encode payload
  let sig ← okOr .invalidState (C.sign curve key (dotJoin prot payload) sigType)
  let jws : JWS := ⟨[⟨kid, prot, B64.encode sig⟩], payload⟩
  .ok jws.toJson.print

/-- `jws::sign_compact` — /repo/src/jws/sign.rs L61-98. -/
def jwsSignCompact (C : Crypto) (payload : Bytes) (kid : Str) (curve : Curve) (key : C.Key) (typ : Str)
    (alg : JwsAlg) : Res Str := do
  let sigType ← alg.sigType
  let header := B64.encode (CompactHeader.toJson ⟨typ, alg, kid⟩).print
  let payload := B64.encode payload
  let sig ← okOr .invalidState (C.sign curve key (dotJoin header payload) sigType)
  .ok (dotJoin (dotJoin header payload) (B64.encode sig))

/-- `ParsedJWS` — /repo/src/jws/parse.rs L7-11. -/
structure ParsedJWS where
  jws : JWS
  protected_ : List JwsHeader

/-- The loop decoding every protected header — /repo/src/jws/parse.rs L28-41. -/
def parseJwsHeaders : List JwsSig → Res (List JwsHeader)
  | [] => .ok []
  | s :: r => do
    let b ← okOr .malformed (B64.decode s.protected_)
    let h ← fromJson dJwsHeader b
    let l ← parseJwsHeaders r
    .ok (h :: l)

/-- `JWS::from_str` — /repo/src/jws/parse.rs L18-20. -/
def jwsFromStr (s : Str) : Res JWS := fromJson dJws s

/-- `JWS::parse` — /repo/src/jws/parse.rs L22-50. -/
def JWS.parse (j : JWS) : Res ParsedJWS := do
  let p ← parseJwsHeaders j.signatures
  .ok ⟨j, p⟩

/-- The first signature with a key id, with its index.  /repo/src/jws/verify.rs L12-18. -/
def findSig (kid : Str) : Nat → List JwsSig → Option (Nat × JwsSig)
  | _, [] => none
  | i, s :: r => if s.kid = kid then some (i, s) else findSig kid (i + 1) r

/-- `ParsedJWS::verify` — /repo/src/jws/verify.rs L9-36. -/
def ParsedJWS.verify (C : Crypto) (p : ParsedJWS) (kid : Str) (curve : Curve) (key : C.Key) : Res Bool := do
  let (i, sig) ← okOr .invalidState (findSig kid 0 p.jws.signatures)
  let prot ← okOr .invalidState p.protected_[i]?
  let sigType ← prot.alg.sigType
  let raw ← okOr .malformed (B64.decode sig.signature)
  okOr .malformed (C.verify curve key (dotJoin sig.protected_ p.jws.payload) raw sigType)

/-- `ParsedCompactJWS` — /repo/src/jws/parse.rs L53-59. -/
structure ParsedCompactJWS where
  header : Str
  parsedHeader : CompactHeader
  payload : Str
  signature : Str

/-- `parse_compact` — /repo/src/jws/parse.rs L61-89; a header that is not valid JSON is
`Malformed` even when truncated (`.kind` instead of `.to_didcomm`). -/
def parseCompact (s : Str) : Res ParsedCompactJWS :=
  match splitOn 0x2E s with
  | [header, payload, signature] => do
    let b ← okOr .malformed (B64.decode header)
    let h ← withKind .malformed (fromJson dCompactHeader b)
    .ok ⟨header, h, payload, signature⟩
  | _ => fail .malformed

/-- `ParsedCompactJWS::verify` — /repo/src/jws/verify.rs L40-52. -/
def ParsedCompactJWS.verify (C : Crypto) (p : ParsedCompactJWS) (curve : Curve) (key : C.Key) : Res Bool := do
  let sigType ← p.parsedHeader.alg.sigType
  let raw ← okOr .malformed (B64.decode p.signature)
  okOr .malformed (C.verify curve key (dotJoin p.header p.payload) raw sigType)

end DIDComm
