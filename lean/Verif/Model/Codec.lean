import Verif.Model.Basic

/-! # base58 (crate bs58 0.4), LEB128 (crate varint 0.9), multicodec -/

set_option autoImplicit false

namespace DIDComm

/-! ## base58, Bitcoin alphabet -/

/-- The Bitcoin alphabet.  Part of `bs58::decode(..).into_vec()`, called at
/repo/src/utils/did.rs L115, L141, L173, L213, L331, L364, L396, L446. -/
def b58Alphabet : Str := b!"123456789ABCDEFGHJKLMNPQRSTUVWXYZabcdefghijkmnopqrstuvwxyz"

/-- The value of a symbol.  Part of `bs58::decode(..).into_vec()`, called at
/repo/src/utils/did.rs L115, L141, L173, L213, L331, L364, L396, L446. -/
def b58Val (c : UInt8) : Option Nat :=
  let i := b58Alphabet.idxOf c
  if i < 58 then some i else none

/-- The symbol of a value.  Not called by /repo/src/utils/did.rs, which only decodes (L115-446).
-/
def b58Sym (n : Nat) : UInt8 := b58Alphabet.getD n 0

/-- Number denoted by digits, most significant first.  Part of `bs58::decode(..).into_vec()`,
called at /repo/src/utils/did.rs L115, L141, L173, L213, L331, L364, L396, L446. -/
def fromBase (base : Nat) (ds : List Nat) : Nat := ds.foldl (fun a d => a * base + d) 0

/-- Digits of a number, most significant first, none for zero.  The first argument is
fuel.  Part of `bs58::decode(..).into_vec()`, called at /repo/src/utils/did.rs L115, L141, L173,
L213, L331, L364, L396, L446. -/
def toBaseAux (base : Nat) : Nat → Nat → List Nat → List Nat
  | 0, _, acc => acc
  | f + 1, n, acc => if n = 0 then acc else toBaseAux base f (n / base) (n % base :: acc)

/-- Digits of a number, most significant first, none for zero.  Part of
`bs58::decode(..).into_vec()`, called at /repo/src/utils/did.rs L115, L141, L173, L213, L331,
L364, L396, L446. -/
def toBase (base n : Nat) : List Nat := toBaseAux base n n []

/-- The number of leading elements equal to `x`.  Part of `bs58::decode(..).into_vec()`, called
at /repo/src/utils/did.rs L115, L141, L173, L213, L331, L364, L396, L446. -/
def leading {α : Type} [DecidableEq α] (x : α) : List α → Nat
  | [] => 0
  | y :: r => if y = x then leading x r + 1 else 0

/-- `bs58::encode(..).into_string()`: the inverse of decoding; not called by the
library, used to state C45.  Not called by /repo/src/utils/did.rs, which only decodes (L115-446).
-/
def b58Encode (b : Bytes) : Str :=
  List.replicate (leading 0 b) 0x31
    ++ (toBase 58 (fromBase 256 (b.map UInt8.toNat))).map b58Sym

/-- Values of all symbols.  Part of `bs58::decode(..).into_vec()`, called at
/repo/src/utils/did.rs L115, L141, L173, L213, L331, L364, L396, L446. -/
def b58Vals : Str → Option (List Nat)
  | [] => some []
  | c :: r => do
    let v ← b58Val c
    let l ← b58Vals r
    some (v :: l)

/-- `bs58::decode(..).into_vec()`: big-endian base conversion, each leading `1` is a
leading zero byte; called at /repo/src/utils/did.rs L115, L141, L173, L213, L331,
L364, L396, L446. -/
def b58Decode (s : Str) : Option Bytes := do
  let ds ← b58Vals s
  some (List.replicate (leading 0x31 s) 0
    ++ (toBase 256 (fromBase 58 ds)).map UInt8.ofNat)

/-! ## varint -/

/-- `read_unsigned_varint_32`: little-endian groups of seven bits, at most five bytes
(the first argument counts down).  A longer encoding is treated as an error.  Called at
/repo/src/utils/did.rs L509. -/
def readVarintAux : Nat → Nat → Bytes → Option Nat
  | 0, _, _ => none
  | _ + 1, _, [] => none
  | f + 1, shift, b :: r =>
    if b.toNat < 128 then some (b.toNat * 2 ^ shift)
    else do
      let v ← readVarintAux f (shift + 7) r
      some ((b.toNat - 128) * 2 ^ shift + v)

/-- `read_unsigned_varint_32`; bits above 32 are dropped (`u32` shift).  Called at
/repo/src/utils/did.rs L509. -/
def readVarint (s : Bytes) : Option Nat := (readVarintAux 5 0 s).map (· % 2 ^ 32)

/-- `write_unsigned_varint_32` (canonical encoding). The first argument is fuel.  Called at
/repo/src/utils/did.rs L515. -/
def writeVarintAux : Nat → Nat → Bytes
  | 0, _ => []
  | f + 1, n => if n < 128 then [UInt8.ofNat n]
                else UInt8.ofNat (128 + n % 128) :: writeVarintAux f (n / 128)

/-- `write_unsigned_varint_32`.  Called at /repo/src/utils/did.rs L515. -/
def writeVarint (n : Nat) : Bytes := writeVarintAux 5 n

/-! ## multicodec -/

/-- `Codec` — /repo/src/utils/did.rs L486-492. -/
inductive Codec
  | x25519Pub | ed25519Pub | x25519Priv | ed25519Priv
  deriving DecidableEq, Repr

/-- `Codec::codec_by_prefix` — /repo/src/utils/did.rs L494-504. -/
def codecByPrefix (n : Nat) : Res Codec :=
  if n = 0xEC then .ok .x25519Pub
  else if n = 0xED then .ok .ed25519Pub
  else if n = 0x1302 then .ok .x25519Priv
  else if n = 0x1300 then .ok .ed25519Priv
  else fail .illegalArgument

/-- `_from_multicodec` — /repo/src/utils/did.rs L506-519: the prefix is read, encoded
again, and as many bytes as the *canonical* encoding has are dropped. `split_at`
panics when the value is shorter than that. -/
def fromMulticodec (value : Bytes) : Res (Codec × Bytes) := do
  let p ← okOr .invalidState (readVarint value)
  let codec ← codecByPrefix p
  let n := (writeVarint p).length
  if value.length < n then .error .panic
  else .ok (codec, value.drop n)

end DIDComm
