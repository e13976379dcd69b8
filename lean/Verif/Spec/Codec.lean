import Verif.Model.Keys

/-! # Independent description of DID strings and of key encodings -/

set_option autoImplicit false

namespace DIDComm

/-- `did:<method>:<id>` (the code asks for no more). -/
def LooksLikeDid (s : Str) : Prop := ∃ method id : Str, s = b!"did:" ++ method ++ b!":" ++ id

/-- The prefix bytes of the multicodec table (x25519-pub 0xec, ed25519-pub 0xed,
x25519-priv 0x1302, ed25519-priv 0x1300 as unsigned varints). -/
def Codec.prefixBytes : Codec → Bytes
  | .x25519Pub => [0xEC, 0x01]
  | .ed25519Pub => [0xED, 0x01]
  | .x25519Priv => [0x82, 0x26]
  | .ed25519Priv => [0x80, 0x26]

/-- The number of a codec in the multicodec table. -/
def Codec.number : Codec → Nat
  | .x25519Pub => 0xEC
  | .ed25519Pub => 0xED
  | .x25519Priv => 0x1302
  | .ed25519Priv => 0x1300

/-- The bytes begin with an unsigned LEB128 number of at most `k` bytes: groups of seven bits, least significant first, the top bit
set in all bytes but the last. -/
inductive Leb128 : Nat → Bytes → Nat → Prop
  | last {k : Nat} {b : UInt8} {r : Bytes} (h : b.toNat < 128) : Leb128 (k + 1) (b :: r) b.toNat
  | more {k n : Nat} {b : UInt8} {r : Bytes} (h : 128 ≤ b.toNat) (hr : Leb128 k r n) :
      Leb128 (k + 1) (b :: r) (b.toNat - 128 + 128 * n)

/-- The multibase text (base58btc) of key bytes with a codec. -/
def multibaseOf (c : Codec) (key : Bytes) : Str := b!"z" ++ b58Encode (c.prefixBytes ++ key)

/-- The public JWK of an X25519 or Ed25519 key. -/
def publicJwk (crv : Str) (x : Bytes) : Value :=
  .obj [(b!"crv", .str crv), (b!"kty", .str b!"OKP"), (b!"x", .str (B64.encode x))]

/-- The private JWK of an X25519 or Ed25519 key. -/
def privateJwk (crv : Str) (d x : Bytes) : Value :=
  .obj [(b!"crv", .str crv), (b!"d", .str (B64.encode d)), (b!"kty", .str b!"OKP"), (b!"x", .str (B64.encode x))]

end DIDComm
