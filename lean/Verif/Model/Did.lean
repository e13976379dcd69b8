import Verif.Model.Basic

/-! # DID strings — /repo/src/utils/did.rs L18-30 -/

set_option autoImplicit false

namespace DIDComm

/-- `str::split(c)`: the pieces between occurrences of a byte; never empty.  Called at
/repo/src/utils/did.rs L19 and /repo/src/jws/parse.rs L65. -/
def splitOn (c : UInt8) : Str → List Str
  | [] => [[]]
  | b :: r =>
    if b = c then [] :: splitOn c r
    else match splitOn c r with
      | p :: ps => (b :: p) :: ps
      | [] => [[b]]

/-- `is_did` — /repo/src/utils/did.rs L18-21. -/
def isDid (did : Str) : Bool :=
  let parts := splitOn 0x3A did
  decide (3 ≤ parts.length) && (parts.head? == some b!"did")

/-- `str::split_once(c)`.  Called at /repo/src/utils/did.rs L26. -/
def splitOnce (c : UInt8) : Str → Option (Str × Str)
  | [] => none
  | b :: r =>
    if b = c then some ([], r)
    else (splitOnce c r).map fun p => (b :: p.1, p.2)

/-- `did_or_url` — /repo/src/utils/did.rs L23-30. -/
def didOrUrl (s : Str) : Str × Option Str :=
  match splitOnce 0x23 s with
  | some (did, _) => (did, some s)
  | none => (s, none)

end DIDComm
