import Verif.Model.Base64
import Verif.Model.Codec

/-!
# Numbers and the symbols they are written with

What base64url (RFC 4648, section 5, without padding) and base58btc are: the bytes and the symbols denote the same number.
-/

set_option autoImplicit false

namespace DIDComm

/-- The number that digits denote, the most significant first. -/
def valueOf (base : Nat) : List Nat → Nat
  | [] => 0
  | d :: r => d * base ^ r.length + valueOf base r

/-- The symbols of base64url, by their values. -/
def base64Symbols : Str := b!"ABCDEFGHIJKLMNOPQRSTUVWXYZabcdefghijklmnopqrstuvwxyz0123456789-_"

/-- The symbols of base58btc, by their values: without `0`, `O`, `I` and `l`. -/
def base58Symbols : Str := b!"123456789ABCDEFGHJKLMNPQRSTUVWXYZabcdefghijkmnopqrstuvwxyz"

/-- The text `s` consists of the symbols of these digits. -/
def SpellsDigits (symbols : Str) (s : Str) (ds : List Nat) : Prop := s.map some = ds.map (fun d => symbols[d]?)

/-- `s` is the base64url text of `b`: as few symbols as have room for the bits; they denote the number of the bytes, moved to the
left as far as there is more room. -/
def IsBase64 (b : Bytes) (s : Str) : Prop :=
  ∃ ds, SpellsDigits base64Symbols s ds ∧ 8 * b.length ≤ 6 * ds.length ∧ 6 * ds.length < 8 * b.length + 6 ∧
    valueOf 64 ds = valueOf 256 (b.map UInt8.toNat) * 2 ^ (6 * ds.length - 8 * b.length)

/-- `s` is the base58btc text of `b`: a `1` for every zero byte at the beginning; then the symbols denote the number of the other
bytes, without a leading zero. -/
def IsBase58 (b : Bytes) (s : Str) : Prop :=
  ∃ z ds c, SpellsDigits base58Symbols s (List.replicate z 0 ++ ds) ∧ b = List.replicate z 0 ++ c ∧ ds.head? ≠ some 0 ∧ c.head? ≠ some 0 ∧
    valueOf 58 ds = valueOf 256 (c.map UInt8.toNat)

end DIDComm
