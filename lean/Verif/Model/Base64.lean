import Verif.Model.Basic

/-!
# base64 0.13 with the `URL_SAFE_NO_PAD` configuration

Used by /repo/src/jwe/{encrypt,decrypt,parse}.rs, /repo/src/jws/{sign,verify,parse}.rs
and /repo/src/message/unpack/sign.rs.  The crate's decoder rejects a length of
`1 mod 4` and nonzero trailing bits (`decode_allow_trailing_bits` is off), but it
does accept optional `=` padding at the end although the configuration says "no pad".
-/

set_option autoImplicit false

namespace DIDComm.B64

/-- The URL-safe alphabet, value to symbol.  Called at /repo/src/jwe/encrypt.rs L50-51, L66,
L87-89, L114, /repo/src/jws/sign.rs L27, L30, L42, L77, L80, L92 and /repo/src/utils/did.rs L119,
L145, L185, L225, L344, L349. -/
def enc6 (n : Nat) : UInt8 :=
  if n < 26 then UInt8.ofNat (65 + n)
  else if n < 52 then UInt8.ofNat (97 + (n - 26))
  else if n < 62 then UInt8.ofNat (48 + (n - 52))
  else if n = 62 then 45
  else 95

/-- The URL-safe alphabet, symbol to value.  Called at /repo/src/jwe/parse.rs L27, L33, L38,
/repo/src/jwe/decrypt.rs L47, L53, L72, L75, /repo/src/jws/parse.rs L34, L77,
/repo/src/jws/verify.rs L28, L44, /repo/src/message/unpack/sign.rs L139 and
/repo/src/message/from_prior/unpack.rs L125. -/
def dec6 (c : UInt8) : Option Nat :=
  let n := c.toNat
  if 65 ≤ n ∧ n ≤ 90 then some (n - 65)
  else if 97 ≤ n ∧ n ≤ 122 then some (n - 97 + 26)
  else if 48 ≤ n ∧ n ≤ 57 then some (n - 48 + 52)
  else if n = 45 then some 62
  else if n = 95 then some 63
  else none

/-- `base64::encode_config(.., URL_SAFE_NO_PAD)`.  Called at /repo/src/jwe/encrypt.rs L50-51,
L66, L87-89, L114, /repo/src/jws/sign.rs L27, L30, L42, L77, L80, L92 and /repo/src/utils/did.rs
L119, L145, L185, L225, L344, L349. -/
def encode : Bytes → Str
  | [] => []
  | [a] =>
    let n := a.toNat * 16
    [enc6 (n / 64), enc6 (n % 64)]
  | [a, b] =>
    let n := (a.toNat * 256 + b.toNat) * 4
    [enc6 (n / 4096), enc6 (n / 64 % 64), enc6 (n % 64)]
  | a :: b :: c :: r =>
    let n := (a.toNat * 256 + b.toNat) * 256 + c.toNat
    enc6 (n / 262144) :: enc6 (n / 4096 % 64) :: enc6 (n / 64 % 64) :: enc6 (n % 64) :: encode r

/-- Two symbols give one byte; the four trailing bits must be zero.  Called at
/repo/src/jwe/parse.rs L27, L33, L38, /repo/src/jwe/decrypt.rs L47, L53, L72, L75,
/repo/src/jws/parse.rs L34, L77, /repo/src/jws/verify.rs L28, L44,
/repo/src/message/unpack/sign.rs L139 and /repo/src/message/from_prior/unpack.rs L125. -/
def dec2 (a b : UInt8) : Option Bytes := do
  let x ← dec6 a
  let y ← dec6 b
  let n := x * 64 + y
  if n % 16 = 0 then some [UInt8.ofNat (n / 16)] else none

/-- Three symbols give two bytes; the two trailing bits must be zero.  Called at
/repo/src/jwe/parse.rs L27, L33, L38, /repo/src/jwe/decrypt.rs L47, L53, L72, L75,
/repo/src/jws/parse.rs L34, L77, /repo/src/jws/verify.rs L28, L44,
/repo/src/message/unpack/sign.rs L139 and /repo/src/message/from_prior/unpack.rs L125. -/
def dec3 (a b c : UInt8) : Option Bytes := do
  let x ← dec6 a
  let y ← dec6 b
  let z ← dec6 c
  let n := (x * 64 + y) * 64 + z
  if n % 4 = 0 then some [UInt8.ofNat (n / 1024), UInt8.ofNat (n / 4 % 256)] else none

/-- Four symbols give three bytes.  Called at /repo/src/jwe/parse.rs L27, L33, L38,
/repo/src/jwe/decrypt.rs L47, L53, L72, L75, /repo/src/jws/parse.rs L34, L77,
/repo/src/jws/verify.rs L28, L44, /repo/src/message/unpack/sign.rs L139 and
/repo/src/message/from_prior/unpack.rs L125. -/
def dec4 (a b c d : UInt8) : Option Bytes := do
  let x ← dec6 a
  let y ← dec6 b
  let z ← dec6 c
  let w ← dec6 d
  let n := ((x * 64 + y) * 64 + z) * 64 + w
  some [UInt8.ofNat (n / 65536), UInt8.ofNat (n / 256 % 256), UInt8.ofNat (n % 256)]

/-- `base64::decode_config(.., URL_SAFE_NO_PAD)` of base64 0.13.  Called at
/repo/src/jwe/parse.rs L27, L33, L38, /repo/src/jwe/decrypt.rs L47, L53, L72, L75,
/repo/src/jws/parse.rs L34, L77, /repo/src/jws/verify.rs L28, L44,
/repo/src/message/unpack/sign.rs L139 and /repo/src/message/from_prior/unpack.rs L125. -/
def decode : Str → Option Bytes
  | [] => some []
  | [_] => none
  | [a, b] => dec2 a b
  | [a, b, c] => if c = 61 then dec2 a b else dec3 a b c
  | a :: b :: c :: d :: r =>
    if r = [] ∧ d = 61 then
      if c = 61 then dec2 a b else dec3 a b c
    else do
      let x ← dec4 a b c d
      let y ← decode r
      some (x ++ y)

end DIDComm.B64
