import Verif.Model.Basic

/-! # UTF-8 validity (`String::from_utf8`, `str::from_utf8`) -/

set_option autoImplicit false

namespace DIDComm

/-- A continuation byte in `lo ..= hi`.  Part of `from_utf8`, called at
/repo/src/message/unpack/anoncrypt.rs L171. -/
def inRange (lo hi b : UInt8) : Bool := lo ≤ b && b ≤ hi

/-- Whether a byte string is valid UTF-8, following `core::str::from_utf8` (Unicode
table 3-7).  Used at /repo/src/message/unpack/anoncrypt.rs L171-173,
/repo/src/message/unpack/authcrypt.rs L46-52, L196-198, /repo/src/jwe/parse.rs L69-78 and
by serde_json for every string it reads from a slice. -/
def validUtf8 : Bytes → Bool
  | [] => true
  | a :: r =>
    if a < 0x80 then validUtf8 r
    else if inRange 0xC2 0xDF a then
      match r with
      | b :: r' => inRange 0x80 0xBF b && validUtf8 r'
      | _ => false
    else if inRange 0xE0 0xEF a then
      match r with
      | b :: c :: r' =>
        inRange (if a = 0xE0 then 0xA0 else 0x80) (if a = 0xED then 0x9F else 0xBF) b
          && inRange 0x80 0xBF c && validUtf8 r'
      | _ => false
    else if inRange 0xF0 0xF4 a then
      match r with
      | b :: c :: d :: r' =>
        inRange (if a = 0xF0 then 0x90 else 0x80) (if a = 0xF4 then 0x8F else 0xBF) b
          && inRange 0x80 0xBF c && inRange 0x80 0xBF d && validUtf8 r'
      | _ => false
    else false

/-- The UTF-8 encoding of a code point (`char::encode_utf8`), used by serde_json for
`\uXXXX` escapes.  Part of `serde_json::from_str`/`from_slice`, called at /repo/src/jwe/parse.rs
L23, /repo/src/jws/parse.rs L19, L38, L81, /repo/src/message/message.rs L89. -/
def encodeUtf8 (c : Nat) : Bytes :=
  if c < 0x80 then [UInt8.ofNat c]
  else if c < 0x800 then [UInt8.ofNat (0xC0 + c / 64), UInt8.ofNat (0x80 + c % 64)]
  else if c < 0x10000 then
    [UInt8.ofNat (0xE0 + c / 4096), UInt8.ofNat (0x80 + c / 64 % 64), UInt8.ofNat (0x80 + c % 64)]
  else
    [UInt8.ofNat (0xF0 + c / 262144), UInt8.ofNat (0x80 + c / 4096 % 64),
     UInt8.ofNat (0x80 + c / 64 % 64), UInt8.ofNat (0x80 + c % 64)]

end DIDComm
