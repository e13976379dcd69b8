import Verif.Spec.Codec

/-!
# What the key material of a verification method or a secret stands for

Every method and every secret stands either for a JWK of one of the four supported key types, which is handed to the
cryptographic library, or for an error.  The relations below have one case for each.
-/

set_option autoImplicit false

namespace DIDComm

/-- The value is an object whose member `name` is this text. -/
def HasText (j : Value) (name text : Str) : Prop :=
  ∃ ms, j = .obj ms ∧ ms.find? (fun p => p.1 = name) = some (name, .str text)

/-- The supported kinds of JWK: `kty`, `crv` and the key type. -/
def jwkKinds : List (Str × Str × Curve) :=
  [(b!"EC", b!"P-256", .p256), (b!"EC", b!"secp256k1", .k256), (b!"OKP", b!"Ed25519", .ed25519), (b!"OKP", b!"X25519", .x25519)]

/-- The JWK says that it is a key of this type. -/
def JwkKind (j : Value) (c : Curve) : Prop :=
  ∃ kty crv, (kty, crv, c) ∈ jwkKinds ∧ HasText j b!"kty" kty ∧ HasText j b!"crv" crv

/-- The bytes of a base58 text. -/
inductive Base58Text (s : Str) : Except ErrorKind Bytes → Prop
  | bytes (x : Bytes) (h : s = b58Encode x) : Base58Text s (.ok x)
  | other (h : ∀ x, s ≠ b58Encode x) : Base58Text s (.error .malformed)

/-- The key bytes of a multibase text with the multicodec `want`. -/
inductive MultibaseText (want : Codec) (s : Str) : Except ErrorKind Bytes → Prop
  | key (value : Bytes) (n : Nat) (h : s = b!"z" ++ b58Encode value) (hn : Leb128 5 value n) (hw : n % 2 ^ 32 = want.number) :
      MultibaseText want s (.ok (value.drop 2))
  | notBase58btc (h : s.head? ≠ some 0x7A) : MultibaseText want s (.error .illegalArgument)
  | notBase58 (t : Str) (h : s = b!"z" ++ t) (ht : ∀ value, t ≠ b58Encode value) : MultibaseText want s (.error .malformed)
  | noCodec (value : Bytes) (h : s = b!"z" ++ b58Encode value) (hn : ∀ n, ¬ Leb128 5 value n) :
      MultibaseText want s (.error .invalidState)
  | otherCodec (value : Bytes) (n : Nat) (h : s = b!"z" ++ b58Encode value) (hn : Leb128 5 value n) (hw : n % 2 ^ 32 ≠ want.number) :
      MultibaseText want s (.error .illegalArgument)

/-- The type of a key and the form of its material that belong together; everything else is unsupported. -/
inductive Fits : VmType → Material → Prop
  | jwk (j : Value) : Fits .jsonWebKey2020 (.jwk j)
  | x2019 (s : Str) : Fits .x25519KeyAgreementKey2019 (.base58 s)
  | ed2018 (s : Str) : Fits .ed25519VerificationKey2018 (.base58 s)
  | x2020 (s : Str) : Fits .x25519KeyAgreementKey2020 (.multibase s)
  | ed2020 (s : Str) : Fits .ed25519VerificationKey2020 (.multibase s)

/-- The raw bytes of the key, with the type of the key; `x` and `ed` are the codecs for the two types. -/
inductive RawKey (x ed : Codec) : VmType → Material → Curve → Except ErrorKind Bytes → Prop
  | x2019 {s : Str} {r : Except ErrorKind Bytes} (h : Base58Text s r) : RawKey x ed .x25519KeyAgreementKey2019 (.base58 s) .x25519 r
  | ed2018 {s : Str} {r : Except ErrorKind Bytes} (h : Base58Text s r) : RawKey x ed .ed25519VerificationKey2018 (.base58 s) .ed25519 r
  | x2020 {s : Str} {r : Except ErrorKind Bytes} (h : MultibaseText x s r) : RawKey x ed .x25519KeyAgreementKey2020 (.multibase s) .x25519 r
  | ed2020 {s : Str} {r : Except ErrorKind Bytes} (h : MultibaseText ed s r) :
      RawKey x ed .ed25519VerificationKey2020 (.multibase s) .ed25519 r

/-- The curve name of the two types with raw bytes. -/
def Curve.okpText : Curve → Str
  | .x25519 => b!"X25519"
  | _ => b!"Ed25519"

/-- The public key of a method: the JWK that is given to the cryptographic library, or the error. -/
inductive PublicJwk : VmType → Material → Except ErrorKind (Curve × Value) → Prop
  | jwk {j : Value} {c : Curve} (h : JwkKind j c) : PublicJwk .jsonWebKey2020 (.jwk j) (.ok (c, j))
  | unknown {j : Value} (h : ∀ c, ¬ JwkKind j c) : PublicJwk .jsonWebKey2020 (.jwk j) (.error .unsupported)
  | raw {t : VmType} {m : Material} {c : Curve} {x : Bytes} (h : RawKey .x25519Pub .ed25519Pub t m c (.ok x)) :
      PublicJwk t m (.ok (c, publicJwk c.okpText x))
  | bad {t : VmType} {m : Material} {c : Curve} {k : ErrorKind} (h : RawKey .x25519Pub .ed25519Pub t m c (.error k)) :
      PublicJwk t m (.error k)
  | misfit {t : VmType} {m : Material} (h : ¬ Fits t m) : PublicJwk t m (.error .unsupported)

/-- The private key of a secret: the JWK that is given to the cryptographic library, or the error.  The bytes of an Ed25519
secret are those of the private and then the public key; the public key of an X25519 secret is computed by the library. -/
inductive PrivateJwk (C : Crypto) : VmType → Material → Res (Curve × Value) → Prop
  | jwk {j : Value} {c : Curve} (h : JwkKind j c) : PrivateJwk C .jsonWebKey2020 (.jwk j) (.ok (c, j))
  | unknown {j : Value} (h : ∀ c, ¬ JwkKind j c) : PrivateJwk C .jsonWebKey2020 (.jwk j) (.error (.kind .unsupported))
  | ed25519 {t : VmType} {m : Material} {d x : Bytes} (hd : d.length = 32)
      (h : RawKey .x25519Priv .ed25519Priv t m .ed25519 (.ok (d ++ x))) :
      PrivateJwk C t m (.ok (.ed25519, privateJwk b!"Ed25519" d x))
  | short {t : VmType} {m : Material} {b : Bytes} (hb : b.length < 32) (h : RawKey .x25519Priv .ed25519Priv t m .ed25519 (.ok b)) :
      PrivateJwk C t m (.error .panic)
  | x25519 {t : VmType} {m : Material} {b d : Bytes} {k : C.Key} (h : RawKey .x25519Priv .ed25519Priv t m .x25519 (.ok b))
      (hk : C.x25519FromSecret b = some k) (hd : C.secretBytes k = some d) :
      PrivateJwk C t m (.ok (.x25519, privateJwk b!"X25519" d (C.publicBytes k)))
  | noSecret {t : VmType} {m : Material} {b : Bytes} {k : C.Key} (h : RawKey .x25519Priv .ed25519Priv t m .x25519 (.ok b))
      (hk : C.x25519FromSecret b = some k) (hd : C.secretBytes k = none) :
      PrivateJwk C t m (.ok (.x25519, publicJwk b!"X25519" (C.publicBytes k)))
  | notX25519 {t : VmType} {m : Material} {b : Bytes} (h : RawKey .x25519Priv .ed25519Priv t m .x25519 (.ok b))
      (hk : C.x25519FromSecret b = none) : PrivateJwk C t m (.error (.kind .malformed))
  | bad {t : VmType} {m : Material} {c : Curve} {k : ErrorKind} (h : RawKey .x25519Priv .ed25519Priv t m c (.error k)) :
      PrivateJwk C t m (.error (.kind k))
  | misfit {t : VmType} {m : Material} (h : ¬ Fits t m) : PrivateJwk C t m (.error (.kind .unsupported))

/-- The type of key that the material announces. -/
inductive Announces : VmType → Material → Curve → Prop
  | jwk {j : Value} {c : Curve} (h : JwkKind j c) : Announces .jsonWebKey2020 (.jwk j) c
  | x2019 (s : Str) : Announces .x25519KeyAgreementKey2019 (.base58 s) .x25519
  | ed2018 (s : Str) : Announces .ed25519VerificationKey2018 (.base58 s) .ed25519
  | x2020 (s : Str) : Announces .x25519KeyAgreementKey2020 (.multibase s) .x25519
  | ed2020 (s : Str) : Announces .ed25519VerificationKey2020 (.multibase s) .ed25519

/-- The key the cryptographic library makes of a JWK of a given type; a JWK it refuses is `Malformed`. -/
def libraryKey (C : Crypto) : Res (Curve × Value) → Res (KeyPair C)
  | .error e => .error e
  | .ok (c, j) =>
    match C.fromJwk c j with
    | some k => .ok ⟨c, k⟩
    | none => .error (.kind .malformed)

/-- An error kind as result. -/
def asRes {α : Type} : Except ErrorKind α → Res α
  | .ok a => .ok a
  | .error k => .error (.kind k)

end DIDComm
