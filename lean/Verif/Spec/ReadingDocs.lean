import Verif.Spec.Reading
import Verif.Model.DocSerde

/-!
# What the content of a JSON text means as a DID document, a secret, options

As `Verif.Spec.Reading`, for the types that resolvers answer with and callers configure the library with.
-/

set_option autoImplicit false

namespace DIDComm

/-! ## Enumerations -/

/-- A variant without data: its name, or an object whose only member has this name and the value `null`. -/
def IsVariant {α : Type} (N : Str → α → Prop) (t : Tree) (a : α) : Prop :=
  (∃ s, IsText t s ∧ N s a) ∨ ∃ k s, t = .obj [(k, .null)] ∧ k.val = some s ∧ N s a

/-- The name of a key type. -/
def NamesKeyType (s : Str) : VmType → Prop
  | .jsonWebKey2020 => s = b!"JsonWebKey2020"
  | .x25519KeyAgreementKey2019 => s = b!"X25519KeyAgreementKey2019"
  | .ed25519VerificationKey2018 => s = b!"Ed25519VerificationKey2018"
  | .ecdsaSecp256k1VerificationKey2019 => s = b!"EcdsaSecp256k1VerificationKey2019"
  | .x25519KeyAgreementKey2020 => s = b!"X25519KeyAgreementKey2020"
  | .ed25519VerificationKey2020 => s = b!"Ed25519VerificationKey2020"
  | .other => s = b!"Other"

/-- The name of an algorithm for anonymous encryption. -/
def NamesAnon (s : Str) : AnonCryptAlg → Prop
  | .a256cbcHs512EcdhEsA256kw => s = b!"A256cbcHs512EcdhEsA256kw"
  | .xc20pEcdhEsA256kw => s = b!"Xc20pEcdhEsA256kw"
  | .a256gcmEcdhEsA256kw => s = b!"A256gcmEcdhEsA256kw"

/-- The name of an algorithm for authenticated encryption. -/
def NamesAuth (s : Str) : AuthCryptAlg → Prop
  | .a256cbcHs512Ecdh1puA256kw => s = b!"A256cbcHs512Ecdh1puA256kw"

/-! ## Keys -/

/-- All members but the named ones have a meaning and are nested less than `n` levels deep. -/
def OthersMean (f64 : Str → Option Str) (n : Nat) (names : List Str) (m : List (Str × Tree)) : Prop :=
  ∀ k t, (k, t) ∈ m → k ∉ names → ∃ v, MeansWithin f64 n t v

/-- Key material: a JWK; if there is none, a multibase text; if there is none either, a base58 text. -/
def IsMaterial (f64 : Str → Option Str) (jwk multibase base58 : Str) (m : List (Str × Tree)) : Material → Prop
  | .jwk v => Req m jwk (Means f64) v
  | .multibase s => (∀ v, ¬ Req m jwk (Means f64) v) ∧ Req m multibase IsText s
  | .base58 s => (∀ v, ¬ Req m jwk (Means f64) v) ∧ (∀ x, ¬ Req m multibase IsText x) ∧ Req m base58 IsText s

/-- A verification method. -/
def IsMethod (f64 : Str → Option Str) (t : Tree) (v : VerificationMethod) : Prop :=
  ∃ m, IsMap t m ∧ Req m b!"id" IsText v.id ∧ Req m b!"type" (IsVariant NamesKeyType) v.type_ ∧
    Req m b!"controller" IsText v.controller ∧ OthersMean f64 125 [b!"id", b!"type", b!"controller"] m ∧
    IsMaterial f64 b!"publicKeyJwk" b!"publicKeyMultibase" b!"publicKeyBase58" m v.material

/-- A secret. -/
def IsSecret (f64 : Str → Option Str) (t : Tree) (s : Secret) : Prop :=
  ∃ m, IsMap t m ∧ Req m b!"id" IsText s.id ∧ Req m b!"type" (IsVariant NamesKeyType) s.type_ ∧
    OthersMean f64 127 [b!"id", b!"type"] m ∧
    IsMaterial f64 b!"privateKeyJwk" b!"privateKeyMultibase" b!"privateKeyBase58" m s.material

/-! ## Documents -/

/-- A member with a default. -/
def Default {α : Type} (m : List (Str × Tree)) (k : Str) (dflt : α) (R : Tree → α → Prop) (x : α) : Prop :=
  (Absent m k ∧ x = dflt) ∨ Req m k R x

/-- The endpoint of a DIDComm service. -/
def IsEndpoint (t : Tree) (s : DIDCommMessagingService) : Prop :=
  ∃ m, IsMap t m ∧ Req m b!"uri" IsText s.uri ∧ Opt m b!"accept" (IsList IsText) s.accept ∧
    Default m b!"routingKeys" [] (IsList IsText) s.routingKeys

/-- A service: of type `DIDCommMessaging`, or of type `Other` with any object as its endpoint. -/
def IsService (f64 : Str → Option Str) (t : Tree) (s : Service) : Prop :=
  ∃ m, IsMap t m ∧ Req m b!"id" IsText s.id ∧ OthersMean f64 125 [b!"id"] m ∧
    ((∃ e, s.endpoint = .didCommMessaging e ∧ Req m b!"type" IsText b!"DIDCommMessaging" ∧ Req m b!"serviceEndpoint" IsEndpoint e) ∨
     (∃ l, s.endpoint = .other (.obj l) ∧ Req m b!"type" IsText b!"Other" ∧ Req m b!"serviceEndpoint" (Means f64) (.obj l)))

/-- A DID document. -/
def IsDocument (f64 : Str → Option Str) (t : Tree) (d : DIDDoc) : Prop :=
  ∃ m, IsStruct [b!"id", b!"keyAgreement", b!"authentication", b!"verificationMethod", b!"service"] t m ∧
    Req m b!"id" IsText d.id ∧ Req m b!"keyAgreement" (IsList IsText) d.keyAgreement ∧
    Req m b!"authentication" (IsList IsText) d.authentication ∧
    Req m b!"verificationMethod" (IsList (IsMethod f64)) d.verificationMethod ∧
    Req m b!"service" (IsList (IsService f64)) d.service

/-! ## Options -/

/-- `true` or `false`. -/
def IsBool (t : Tree) (b : Bool) : Prop := t = .bool b

/-- An object with these members, or an array with at least the first `least` of the fields in this order. -/
def IsStructFrom (least : Nat) (names : List Str) (t : Tree) (m : List (Str × Tree)) : Prop :=
  IsMap t m ∨ ∃ l, t = .arr l ∧ least ≤ l.length ∧ l.length ≤ names.length ∧ m = names.zip l

/-- The options of unpacking. -/
def IsUnpackOptions (t : Tree) (o : UnpackOptions) : Prop :=
  ∃ m, IsStructFrom 0 [b!"expect_decrypt_by_all_keys", b!"unwrap_re_wrapping_forward"] t m ∧
    Default m b!"expect_decrypt_by_all_keys" false IsBool o.expectDecryptByAllKeys ∧
    Default m b!"unwrap_re_wrapping_forward" false IsBool o.unwrapReWrappingForward

/-- Headers: a map from names to values, the last of equal names counts. -/
def IsHeaders (f64 : Str → Option Str) (n : Nat) (t : Tree) (x : List (Str × Value)) : Prop :=
  ∃ m, IsMap t m ∧ OthersMean f64 n [] m ∧ (x.map Prod.fst).Nodup ∧
    ∀ k v, (k, v) ∈ x ↔ ∃ t, LastOf m k t ∧ Means f64 t v

/-- The options of packing. -/
def IsPackOptions (f64 : Str → Option Str) (t : Tree) (o : PackEncryptedOptions) : Prop :=
  ∃ m, IsStructFrom 4 [b!"protect_sender", b!"forward", b!"forward_headers", b!"messaging_service", b!"enc_alg_auth", b!"enc_alg_anon"] t m ∧
    Default m b!"protect_sender" false IsBool o.protectSender ∧ Default m b!"forward" true IsBool o.forward ∧
    Opt m b!"forward_headers" (IsHeaders f64 126) o.forwardHeaders ∧ Opt m b!"messaging_service" IsText o.messagingService ∧
    Default m b!"enc_alg_auth" .a256cbcHs512Ecdh1puA256kw (IsVariant NamesAuth) o.encAlgAuth ∧
    Default m b!"enc_alg_anon" .xc20pEcdhEsA256kw (IsVariant NamesAnon) o.encAlgAnon

/-- The same headers, in any order. -/
def HeadersAlike : Option (List (Str × Value)) → Option (List (Str × Value)) → Prop
  | none, none => True
  | some x, some y => (y.map Prod.fst).Nodup ∧ ∀ p, p ∈ y ↔ p ∈ x
  | _, _ => False

/-- Options that differ at most in the order of the headers, which are a map. -/
def SameOptions (o o' : PackEncryptedOptions) : Prop :=
  o'.protectSender = o.protectSender ∧ o'.forward = o.forward ∧ HeadersAlike o.forwardHeaders o'.forwardHeaders ∧
  o'.messagingService = o.messagingService ∧ o'.encAlgAuth = o.encAlgAuth ∧ o'.encAlgAnon = o.encAlgAnon

end DIDComm
