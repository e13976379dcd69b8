/-!
# Text, bytes, results

A Rust `str` and a Rust `[u8]` are both modelled as `List UInt8`; a `str` is the
list of its UTF-8 bytes.  All delimiters used by the code (`:`, `#`, `.`) are
ASCII, and Rust compares and sorts `str` bytewise, so nothing is lost.
-/

set_option autoImplicit false

namespace DIDComm

/-- A byte string (`[u8]`, `Vec<u8>`).  For example `payload: &[u8]` at /repo/src/jws/sign.rs
L10. -/
abbrev Bytes := List UInt8

/-- A Rust `str`/`String`, as its UTF-8 bytes.  For example `msg: &str` at
/repo/src/message/unpack/mod.rs L54. -/
abbrev Str := List UInt8

open Lean in
/-- `b!"abc"` is the list of the UTF-8 bytes of the literal. -/
macro:max "b!" s:str : term => do
  let bs := s.getString.toUTF8.toList
  let lits ← bs.mapM fun b => `(term| ($(quote b.toNat) : UInt8))
  let arr := lits.toArray
  `(([$arr,*] : List UInt8))

/-- `ErrorKind` — /repo/src/error.rs L7-34. -/
inductive ErrorKind
  | didNotResolved | didUrlNotFound | secretNotFound | malformed | ioError
  | invalidState | noCompatibleCrypto | unsupported | illegalArgument
  deriving DecidableEq, Repr

/-- How a modelled function can fail: with a `didcomm::Error` of some kind, with a
Rust panic, or because the model's recursion budget ran out (no counterpart in
the code; proved unreachable in `Verif.Props.Termination`).  `Error` is /repo/src/error.rs
L36-41. -/
inductive Err
  | kind (k : ErrorKind)
  | panic
  | fuel
  deriving DecidableEq, Repr

/-- `didcomm::error::Result` — /repo/src/error.rs L69. -/
abbrev Res (α : Type) := Except Err α

/-- `Err(err_msg(kind, ..))?`.  `err_msg` is /repo/src/error.rs L196-201. -/
abbrev fail {α : Type} (k : ErrorKind) : Res α := .error (.kind k)

/-- `.ok_or_else(|| err_msg(kind, ..))?`.  For example /repo/src/message/pack_signed.rs L55-59;
`.kind(kind, ..)?` on a third-party error, /repo/src/error.rs L71-90, has the same effect. -/
def okOr {α : Type} (k : ErrorKind) : Option α → Res α
  | some a => .ok a
  | none => .error (.kind k)

/-- `.kind(kind, ..)` on a `Result` — /repo/src/error.rs L71-90: replaces the
error kind, whatever the error was (a panic is not an error value). -/
def withKind {α : Type} (k : ErrorKind) : Res α → Res α
  | .ok a => .ok a
  | .error (.kind _) => .error (.kind k)
  | .error e => .error e

/-- `<[&str]>::join(sep)` for a one-byte separator.  Called at /repo/src/jwe/encrypt.rs L43 and
/repo/src/jwe/parse.rs L65. -/
def joinWith (sep : UInt8) : List Str → Str
  | [] => []
  | [s] => s
  | s :: t :: r => s ++ sep :: joinWith sep (t :: r)

/-- Bytewise lexicographic `<=` on `str` (Rust's `Ord for str`).  Called at
/repo/src/jwe/encrypt.rs L42 and /repo/src/jwe/parse.rs L64. -/
def strLe : Str → Str → Bool
  | [], _ => true
  | _ :: _, [] => false
  | a :: s, b :: t => if a < b then true else if b < a then false else strLe s t

/-- `Vec<&str>::sort()`: sorting is modelled by insertion sort.  All elements that
compare equal are identical strings, so the result does not depend on the
algorithm.  Called at /repo/src/jwe/encrypt.rs L42 and /repo/src/jwe/parse.rs L64. -/
def insertSorted (x : Str) : List Str → List Str
  | [] => [x]
  | y :: r => if strLe x y then x :: y :: r else y :: insertSorted x r

/-- See `insertSorted`.  Called at /repo/src/jwe/encrypt.rs L42 and /repo/src/jwe/parse.rs L64.
-/
def sortStrs : List Str → List Str
  | [] => []
  | x :: r => insertSorted x (sortStrs r)

end DIDComm
