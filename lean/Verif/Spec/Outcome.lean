import Verif.Spec.Evidence
import Verif.Spec.Env
import Verif.Spec.Route
import Verif.Spec.KeyMaterial
import Verif.Model.Pack

/-!
# The outcome of packing

For each operation a relation that says how it ends when the resolvers answer as `E` does: what it returns, or with which
error.  Each case is one reason; the cases of a relation exclude each other, as far as they do not depend on the failure of a
cryptographic function.  What is said about a successful end is only what the metadata says; the texts themselves are the
subject of other claims.
-/

set_option autoImplicit false

namespace DIDComm

/-- Asking for the document of a DID. -/
inductive Document (E : Env) (did : Str) : Res DIDDoc → Prop
  | found {doc : DIDDoc} (h : E.resolve did = .ok (some doc)) : Document E did (.ok doc)
  | unknown (h : E.resolve did = .ok none) : Document E did (.error (.kind .didNotResolved))
  | failed {k : ErrorKind} (h : E.resolve did = .error k) : Document E did (.error (.kind k))

/-- Looking for a key of our own among `kids`: the first that is reported is taken. -/
inductive OwnKey (C : Crypto) (E : Env) (kids : List Str) : Res (Str × KeyPair C) → Prop
  | key {kid : Str} {rest : List Str} {s : Secret} {p : KeyPair C} (hf : E.findSecrets kids = .ok (kid :: rest))
      (hg : E.getSecret kid = .ok (some s)) (hs : s.asKeyPair C = .ok p) : OwnKey C E kids (.ok (kid, p))
  | unreadable {kid : Str} {rest : List Str} {s : Secret} {e : Err} (hf : E.findSecrets kids = .ok (kid :: rest))
      (hg : E.getSecret kid = .ok (some s)) (hs : s.asKeyPair C = .error e) : OwnKey C E kids (.error e)
  | nothing (hf : E.findSecrets kids = .ok []) : OwnKey C E kids (.error (.kind .secretNotFound))
  | gone {kid : Str} {rest : List Str} (hf : E.findSecrets kids = .ok (kid :: rest)) (hg : E.getSecret kid = .ok none) :
      OwnKey C E kids (.error (.kind .secretNotFound))
  | findFailed {k : ErrorKind} (hf : E.findSecrets kids = .error k) : OwnKey C E kids (.error (.kind k))
  | getFailed {kid : Str} {rest : List Str} {k : ErrorKind} (hf : E.findSecrets kids = .ok (kid :: rest))
      (hg : E.getSecret kid = .error k) : OwnKey C E kids (.error (.kind k))

/-! ## `from_prior` -/

/-- A JWT: three parts, of which the first is a header that says `JWT` and names a key. -/
structure JwtForm (jwt h pl sig : Str) (hdr : CompactHeader) : Prop where
  parts : jwt = h ++ b!"." ++ pl ++ b!"." ++ sig
  dots : 0x2E ∉ h ∧ 0x2E ∉ pl ∧ 0x2E ∉ sig
  header : ∃ b, B64.decode h = some b ∧ fromJson dCompactHeader b = .ok hdr
  typ : hdr.typ = b!"JWT"
  kid : HasFragment hdr.kid

/-- The key a document has for a signature with an algorithm, of a listed key id. -/
inductive SignersKey (C : Crypto) (doc : DIDDoc) (kid : Str) (alg : JwsAlg) : Res (Curve × SigType × C.Key) → Prop
  | notListed (h : kid ∉ doc.authentication) : SignersKey C doc kid alg (.error (.kind .didUrlNotFound))
  | noMethod (h : kid ∈ doc.authentication) (hm : methodOf doc kid = none) : SignersKey C doc kid alg (.error (.kind .didUrlNotFound))
  | unknownAlg {vm : VerificationMethod} (h : kid ∈ doc.authentication) (hm : methodOf doc kid = some vm)
      (hs : ∀ c st sa, ¬ Scheme alg c st sa) : SignersKey C doc kid alg (.error (.kind .unsupported))
  | otherType {vm : VerificationMethod} {c : Curve} {st : SigType} {sa : SignAlg} (h : kid ∈ doc.authentication)
      (hm : methodOf doc kid = some vm) (hs : Scheme alg c st sa) (ht : vm.keyAlg ≠ some c) :
      SignersKey C doc kid alg (.error (.kind .invalidState))
  | unreadable {vm : VerificationMethod} {c : Curve} {st : SigType} {sa : SignAlg} {e : Err} (h : kid ∈ doc.authentication)
      (hm : methodOf doc kid = some vm) (hs : Scheme alg c st sa) (ht : vm.keyAlg = some c) (hk : vm.asKeyPair C = .error e) :
      SignersKey C doc kid alg (.error e)
  | key {vm : VerificationMethod} {c : Curve} {st : SigType} {sa : SignAlg} {k : C.Key} (h : kid ∈ doc.authentication)
      (hm : methodOf doc kid = some vm) (hs : Scheme alg c st sa) (hk : vm.asKeyPair C = .ok ⟨c, k⟩) :
      SignersKey C doc kid alg (.ok (c, st, k))

/-- Reading a `from_prior`. -/
inductive PriorRead (C : Crypto) (E : Env) (jwt : Str) : Res (FromPrior × Str) → Prop
  | notJwt (h : ∀ h pl sig hdr, ¬ JwtForm jwt h pl sig hdr) : PriorRead C E jwt (.error (.kind .malformed))
  | noDocument {h pl sig : Str} {hdr : CompactHeader} {e : Err} (hf : JwtForm jwt h pl sig hdr)
      (hd : Document E (didOf hdr.kid) (.error e)) : PriorRead C E jwt (.error e)
  | noKey {h pl sig : Str} {hdr : CompactHeader} {doc : DIDDoc} {e : Err} (hf : JwtForm jwt h pl sig hdr)
      (hd : Document E (didOf hdr.kid) (.ok doc)) (hk : SignersKey C doc hdr.kid hdr.alg (.error e)) : PriorRead C E jwt (.error e)
  | notVerified {h pl sig : Str} {hdr : CompactHeader} {doc : DIDDoc} {c : Curve} {st : SigType} {k : C.Key}
      (hf : JwtForm jwt h pl sig hdr) (hd : Document E (didOf hdr.kid) (.ok doc))
      (hk : SignersKey C doc hdr.kid hdr.alg (.ok (c, st, k)))
      (hv : ∀ raw, B64.decode sig = some raw → C.verify c k (h ++ b!"." ++ pl) raw st ≠ some true) :
      PriorRead C E jwt (.error (.kind .malformed))
  | notClaims {h pl sig : Str} {hdr : CompactHeader} {doc : DIDDoc} {c : Curve} {st : SigType} {k : C.Key} {raw : Bytes}
      (hf : JwtForm jwt h pl sig hdr) (hd : Document E (didOf hdr.kid) (.ok doc))
      (hk : SignersKey C doc hdr.kid hdr.alg (.ok (c, st, k))) (hr : B64.decode sig = some raw)
      (hv : C.verify c k (h ++ b!"." ++ pl) raw st = some true)
      (hp : ∀ payload fp, B64.decode pl = some payload → IsUtf8 payload → fromJson dFromPrior payload ≠ .ok fp) :
      PriorRead C E jwt (.error (.kind .malformed))
  | read {h pl sig : Str} {hdr : CompactHeader} {doc : DIDDoc} {c : Curve} {st : SigType} {k : C.Key} {raw payload : Bytes}
      {fp : FromPrior} (hf : JwtForm jwt h pl sig hdr) (hd : Document E (didOf hdr.kid) (.ok doc))
      (hk : SignersKey C doc hdr.kid hdr.alg (.ok (c, st, k))) (hr : B64.decode sig = some raw)
      (hv : C.verify c k (h ++ b!"." ++ pl) raw st = some true)
      (hp : B64.decode pl = some payload) (hu : IsUtf8 payload) (hc : fromJson dFromPrior payload = .ok fp) :
      PriorRead C E jwt (.ok (fp, hdr.kid))

/-- The claims of a `from_prior` are about two different DIDs. -/
def TwoDids (f : FromPrior) : Prop := PlainDid f.iss ∧ PlainDid f.sub ∧ f.iss ≠ f.sub

/-- A signature algorithm for the key type. -/
def CanSign (c : Curve) : Prop := c ≠ .x25519

/-- The library refused to sign something with the key. -/
def SignRefused (C : Crypto) (p : KeyPair C) : Prop := ∃ t st, C.sign p.curve p.key t st = none

/-- Signing with a key of our own. -/
inductive Signs (C : Crypto) (p : KeyPair C) : Res Unit → Prop
  | unsupported (h : ¬ CanSign p.curve) : Signs C p (.error (.kind .unsupported))
  | refused (h : CanSign p.curve) (hs : SignRefused C p) : Signs C p (.error (.kind .invalidState))
  | signed (h : CanSign p.curve) : Signs C p (.ok ())

/-- Issuing a `from_prior` with a key of the issuer, which may be prescribed. -/
inductive PriorIssued (C : Crypto) (E : Env) (f : FromPrior) (issuerKid : Option Str) : Res Str → Prop
  | badClaims (h : ¬ TwoDids f) : PriorIssued C E f issuerKid (.error (.kind .malformed))
  | badKid {k : Str} (h : TwoDids f) (hk : issuerKid = some k) (hb : ¬ (HasFragment k ∧ didOf k = f.iss)) :
      PriorIssued C E f issuerKid (.error (.kind .illegalArgument))
  | noDocument {e : Err} (h : TwoDids f) (hk : ∀ k, issuerKid = some k → HasFragment k ∧ didOf k = f.iss)
      (hd : Document E f.iss (.error e)) : PriorIssued C E f issuerKid (.error e)
  | notListed {doc : DIDDoc} {k : Str} (h : TwoDids f) (hk : issuerKid = some k) (hb : HasFragment k ∧ didOf k = f.iss)
      (hd : Document E f.iss (.ok doc)) (hl : k ∉ doc.authentication) : PriorIssued C E f issuerKid (.error (.kind .didUrlNotFound))
  | noKey {doc : DIDDoc} {e : Err} (h : TwoDids f)
      (hd : Document E f.iss (.ok doc))
      (hl : ∀ k, issuerKid = some k → (HasFragment k ∧ didOf k = f.iss) ∧ k ∈ doc.authentication)
      (ho : OwnKey C E (issuerKid.elim doc.authentication (fun k => [k])) (.error e)) : PriorIssued C E f issuerKid (.error e)
  | issued {doc : DIDDoc} {kid : Str} {p : KeyPair C} {r : Res Unit} (h : TwoDids f)
      (hd : Document E f.iss (.ok doc))
      (hl : ∀ k, issuerKid = some k → (HasFragment k ∧ didOf k = f.iss) ∧ k ∈ doc.authentication)
      (ho : OwnKey C E (issuerKid.elim doc.authentication (fun k => [k])) (.ok (kid, p))) (hs : Signs C p r) :
      PriorIssued C E f issuerKid (r.map fun _ => kid)

/-! ## Plaintext and signatures -/

/-- Packing a plaintext message: only its `from_prior` is checked. -/
inductive PlaintextPacked (C : Crypto) (E : Env) (m : Message) : Res Unit → Prop
  | without (h : m.fromPrior = none) : PlaintextPacked C E m (.ok ())
  | unreadable {jwt : Str} {e : Err} (h : m.fromPrior = some jwt) (hp : PriorRead C E jwt (.error e)) : PlaintextPacked C E m (.error e)
  | badClaims {jwt kid : Str} {f : FromPrior} (h : m.fromPrior = some jwt) (hp : PriorRead C E jwt (.ok (f, kid)))
      (hb : ¬ TwoDids f) : PlaintextPacked C E m (.error (.kind .malformed))
  | otherIssuer {jwt kid : Str} {f : FromPrior} (h : m.fromPrior = some jwt) (hp : PriorRead C E jwt (.ok (f, kid)))
      (hb : TwoDids f) (hi : didOf kid ≠ f.iss) : PlaintextPacked C E m (.error (.kind .illegalArgument))
  | otherSender {jwt kid from_ : Str} {f : FromPrior} (h : m.fromPrior = some jwt) (hp : PriorRead C E jwt (.ok (f, kid)))
      (hb : TwoDids f) (hi : didOf kid = f.iss) (hf : m.from_ = some from_) (hs : f.sub ≠ from_) :
      PlaintextPacked C E m (.error (.kind .malformed))
  | good {jwt kid : Str} {f : FromPrior} (h : m.fromPrior = some jwt) (hp : PriorRead C E jwt (.ok (f, kid)))
      (hb : TwoDids f) (hi : didOf kid = f.iss) (hf : ∀ from_, m.from_ = some from_ → f.sub = from_) :
      PlaintextPacked C E m (.ok ())

/-- Signing a message. -/
inductive SignedPacked (C : Crypto) (E : Env) (m : Message) (signBy : Str) : Res Str → Prop
  | notDid (h : ¬ LooksLikeDid signBy) : SignedPacked C E m signBy (.error (.kind .illegalArgument))
  | noDocument {e : Err} (h : LooksLikeDid signBy) (hd : Document E (didOf signBy) (.error e)) : SignedPacked C E m signBy (.error e)
  | notListed {doc : DIDDoc} (h : LooksLikeDid signBy) (hd : Document E (didOf signBy) (.ok doc)) (hf : HasFragment signBy)
      (hl : signBy ∉ doc.authentication) : SignedPacked C E m signBy (.error (.kind .didUrlNotFound))
  | noKey {doc : DIDDoc} {e : Err} (h : LooksLikeDid signBy) (hd : Document E (didOf signBy) (.ok doc))
      (hl : HasFragment signBy → signBy ∈ doc.authentication) (ho : OwnKey C E (signersMeant signBy doc) (.error e)) :
      SignedPacked C E m signBy (.error e)
  | badMessage {doc : DIDDoc} {kid : Str} {p : KeyPair C} {e : Err} (h : LooksLikeDid signBy)
      (hd : Document E (didOf signBy) (.ok doc)) (hl : HasFragment signBy → signBy ∈ doc.authentication)
      (ho : OwnKey C E (signersMeant signBy doc) (.ok (kid, p))) (hm : PlaintextPacked C E m (.error e)) : SignedPacked C E m signBy (.error e)
  | signed {doc : DIDDoc} {kid : Str} {p : KeyPair C} {r : Res Unit} (h : LooksLikeDid signBy)
      (hd : Document E (didOf signBy) (.ok doc)) (hl : HasFragment signBy → signBy ∈ doc.authentication)
      (ho : OwnKey C E (signersMeant signBy doc) (.ok (kid, p))) (hm : PlaintextPacked C E m (.ok ())) (hs : Signs C p r) :
      SignedPacked C E m signBy (r.map fun _ => kid)

/-! ## Encryption -/

/-- The library refused one of the steps of encrypting for recipients: `agrees e k x` says that the agreement of the ephemeral
key `e` with the recipient key `k` has the outcome `x`. -/
inductive EncryptRefused (C : Crypto) (ce : ContentEnc) (c : Curve) (recipient : C.Key → Prop)
    (agrees : C.Key → C.Key → Option Bytes → Prop) : Prop
  | content {r : Nat} (h : C.genCek ce r = none)
  | ephemeral {r : Nat} (h : C.genKey c r = none)
  | export {r : Nat} {e : C.Key} (he : C.genKey c r = some e) (h : C.toJwkPublic c e = none)
  | encrypt {r r' : Nat} {cek aad pt : Bytes} (hc : C.genCek ce r = some cek) (h : C.aeadEnc ce cek (C.genNonce ce r') aad pt = none)
  | agree {r : Nat} {e k : C.Key} (he : C.genKey c r = some e) (hk : recipient k) (h : agrees e k none)
  | wrap {r r' : Nat} {e k : C.Key} {kw cek : Bytes} (he : C.genKey c r = some e) (hk : recipient k) (ha : agrees e k (some kw))
      (hc : C.genCek ce r' = some cek) (h : C.wrap kw cek = none)

/-- The agreement of anonymous encryption. -/
def AgreesEs (C : Crypto) (c : Curve) (e k : C.Key) (x : Option Bytes) : Prop := ∃ alg apu apv, x = C.ecdhEs c e k alg apu apv false

/-- The agreement of authenticated encryption with the sender's key `s`. -/
def Agrees1pu (C : Crypto) (c : Curve) (s : C.Key) (e k : C.Key) (x : Option Bytes) : Prop :=
  ∃ alg apu apv tag, x = C.ecdh1pu c e s k alg apu apv tag false

/-- The content cipher of an algorithm. -/
def AnonCryptAlg.cipher : AnonCryptAlg → ContentEnc
  | .a256cbcHs512EcdhEsA256kw => .a256cbcHs512
  | .xc20pEcdhEsA256kw => .xc20p
  | .a256gcmEcdhEsA256kw => .a256gcm

/-- The public keys of key ids. -/
def KeyAmong (C : Crypto) (doc : DIDDoc) (kids : List Str) (c : Curve) (k : C.Key) : Prop :=
  ∃ kid ∈ kids, ∃ vm, methodOf doc kid = some vm ∧ vm.asKeyPair C = .ok ⟨c, k⟩

/-- The keys of these ids are readable. -/
def Readable (C : Crypto) (doc : DIDDoc) (kids : List Str) : Prop := ∀ kid ∈ kids, ∃ vm p, methodOf doc kid = some vm ∧ vm.asKeyPair C = .ok p

/-- The first key that is not readable, with the error. -/
def FirstUnreadable (C : Crypto) (doc : DIDDoc) (kids : List Str) (e : Err) : Prop :=
  ∃ pre kid post vm, kids = pre ++ kid :: post ∧ Readable C doc pre ∧ methodOf doc kid = some vm ∧ vm.asKeyPair C = .error e

/-- The keys of a type. -/
def ofType (doc : DIDDoc) (c : Curve) (kids : List Str) : List Str := kids.filter (fun k => keyTypeOf doc k = some c)

/-- Anonymous encryption for the keys meant by `to`, once the document is there. -/
inductive AnonSealed (C : Crypto) (doc : DIDDoc) (kids : List Str) (alg : AnonCryptAlg) : Res (List Str) → Prop
  | notListed (h : kids = []) : AnonSealed C doc kids alg (.error (.kind .didUrlNotFound))
  | noMethod {k : Str} (h : k ∈ kids) (hm : methodOf doc k = none) : AnonSealed C doc kids alg (.error (.kind .unsupported))
  | noType (h : kids ≠ []) (hm : ∀ k ∈ kids, methodOf doc k ≠ none) (ht : ∀ k ∈ kids, keyTypeOf doc k = none) :
      AnonSealed C doc kids alg (.error (.kind .invalidState))
  | otherType {c : Curve} (hm : ∀ k ∈ kids, methodOf doc k ≠ none) (ht : kids.findSome? (keyTypeOf doc) = some c)
      (hc : ¬ ForAgreement c) : AnonSealed C doc kids alg (.error (.kind .invalidState))
  | unreadable {c : Curve} {e : Err} (hm : ∀ k ∈ kids, methodOf doc k ≠ none) (ht : kids.findSome? (keyTypeOf doc) = some c)
      (hc : ForAgreement c) (hr : FirstUnreadable C doc (ofType doc c kids) e) : AnonSealed C doc kids alg (.error e)
  | refused {c : Curve} (hm : ∀ k ∈ kids, methodOf doc k ≠ none) (ht : kids.findSome? (keyTypeOf doc) = some c)
      (hc : ForAgreement c) (hr : Readable C doc (ofType doc c kids))
      (hx : EncryptRefused C alg.cipher c (KeyAmong C doc (ofType doc c kids) c) (AgreesEs C c)) :
      AnonSealed C doc kids alg (.error (.kind .invalidState))
  | sealed {c : Curve} (hm : ∀ k ∈ kids, methodOf doc k ≠ none) (ht : kids.findSome? (keyTypeOf doc) = some c)
      (hc : ForAgreement c) (hr : Readable C doc (ofType doc c kids)) : AnonSealed C doc kids alg (.ok (ofType doc c kids))

/-- Anonymous encryption: the ids of the recipient keys. -/
inductive Anoncrypted (C : Crypto) (E : Env) (to : Str) (alg : AnonCryptAlg) : Res (List Str) → Prop
  | noDocument {e : Err} (h : Document E (didOf to) (.error e)) : Anoncrypted C E to alg (.error e)
  | document {doc : DIDDoc} {r : Res (List Str)} (h : Document E (didOf to) (.ok doc))
      (hs : AnonSealed C doc (meantBy to doc.keyAgreement) alg r) : Anoncrypted C E to alg r

/-- Authenticated encryption with the sender's key `kid`, of type `c`, for the recipient's keys `kids` of that type. -/
inductive AuthSealed (C : Crypto) (E : Env) (toDoc : DIDDoc) (kids : List Str) (kid : Str) (c : Curve) (alg : AnonCryptAlg)
    (protectSender : Bool) : Res (Str × List Str) → Prop
  | failed {k : ErrorKind} (h : E.getSecret kid = .error k) : AuthSealed C E toDoc kids kid c alg protectSender (.error (.kind k))
  | gone (h : E.getSecret kid = .ok none) : AuthSealed C E toDoc kids kid c alg protectSender (.error (.kind .invalidState))
  | otherType {s : Secret} (h : E.getSecret kid = .ok (some s)) (hc : ¬ ForAgreement c) :
      AuthSealed C E toDoc kids kid c alg protectSender (.error (.kind .unsupported))
  | unreadable {s : Secret} {e : Err} (h : E.getSecret kid = .ok (some s)) (hc : ForAgreement c)
      (hr : FirstUnreadable C toDoc kids e) : AuthSealed C E toDoc kids kid c alg protectSender (.error e)
  | otherSecret {s : Secret} (h : E.getSecret kid = .ok (some s)) (hc : ForAgreement c) (hr : Readable C toDoc kids)
      (ht : s.keyAlg ≠ some c) : AuthSealed C E toDoc kids kid c alg protectSender (.error (.kind .invalidState))
  | badSecret {s : Secret} {e : Err} (h : E.getSecret kid = .ok (some s)) (hc : ForAgreement c) (hr : Readable C toDoc kids)
      (ht : s.keyAlg = some c) (hs : s.asKeyPair C = .error e) : AuthSealed C E toDoc kids kid c alg protectSender (.error e)
  | refused {s : Secret} {sk : C.Key} (h : E.getSecret kid = .ok (some s)) (hc : ForAgreement c) (hr : Readable C toDoc kids)
      (hs : s.asKeyPair C = .ok ⟨c, sk⟩)
      (hx : EncryptRefused C .a256cbcHs512 c (KeyAmong C toDoc kids c) (Agrees1pu C c sk) ∨
        (protectSender = true ∧ EncryptRefused C alg.cipher c (KeyAmong C toDoc kids c) (AgreesEs C c))) :
      AuthSealed C E toDoc kids kid c alg protectSender (.error (.kind .invalidState))
  | sealed {s : Secret} {sk : C.Key} (h : E.getSecret kid = .ok (some s)) (hc : ForAgreement c) (hr : Readable C toDoc kids)
      (hs : s.asKeyPair C = .ok ⟨c, sk⟩) : AuthSealed C E toDoc kids kid c alg protectSender (.ok (kid, kids))

/-- The choice of the keys of authenticated encryption, when the sender's keys `found` are reported. -/
inductive Negotiated (C : Crypto) (E : Env) (toDoc fromDoc : DIDDoc) (to : Str) (found : List Str) (alg : AnonCryptAlg)
    (protectSender : Bool) : Res (Str × List Str) → Prop
  | noSenderMethod {k : Str} (h : k ∈ found) (hm : methodOf fromDoc k = none) :
      Negotiated C E toDoc fromDoc to found alg protectSender (.error (.kind .malformed))
  | notListed (hf : ∀ k ∈ found, methodOf fromDoc k ≠ none) (h : meantBy to toDoc.keyAgreement = []) :
      Negotiated C E toDoc fromDoc to found alg protectSender (.error (.kind .didUrlNotFound))
  | noMethod {k : Str} (hf : ∀ k ∈ found, methodOf fromDoc k ≠ none) (h : k ∈ meantBy to toDoc.keyAgreement)
      (hm : methodOf toDoc k = none) : Negotiated C E toDoc fromDoc to found alg protectSender (.error (.kind .malformed))
  | incompatible (hf : ∀ k ∈ found, methodOf fromDoc k ≠ none) (h : meantBy to toDoc.keyAgreement ≠ [])
      (hm : ∀ k ∈ meantBy to toDoc.keyAgreement, methodOf toDoc k ≠ none) (hc : ∀ k ∈ found, ¬ Compatible fromDoc toDoc to k) :
      Negotiated C E toDoc fromDoc to found alg protectSender (.error (.kind .noCompatibleCrypto))
  | chosen {kid : Str} {c : Curve} {r : Res (Str × List Str)} (hf : ∀ k ∈ found, methodOf fromDoc k ≠ none)
      (hm : ∀ k ∈ meantBy to toDoc.keyAgreement, methodOf toDoc k ≠ none)
      (hk : found.find? (fun k => Compatible fromDoc toDoc to k) = some kid) (hc : keyTypeOf fromDoc kid = some c)
      (hs : AuthSealed C E toDoc (ofType toDoc c (meantBy to toDoc.keyAgreement)) kid c alg protectSender r) :
      Negotiated C E toDoc fromDoc to found alg protectSender r

/-- Authenticated encryption: the id of the sender's key and those of the recipient's keys. -/
inductive Authcrypted (C : Crypto) (E : Env) (to from_ : Str) (alg : AnonCryptAlg) (protectSender : Bool) : Res (Str × List Str) → Prop
  | noRecipient {e : Err} (h : Document E (didOf to) (.error e)) : Authcrypted C E to from_ alg protectSender (.error e)
  | noSender {toDoc : DIDDoc} {e : Err} (h : Document E (didOf to) (.ok toDoc)) (hf : Document E (didOf from_) (.error e)) :
      Authcrypted C E to from_ alg protectSender (.error e)
  | notListed {toDoc fromDoc : DIDDoc} (h : Document E (didOf to) (.ok toDoc)) (hf : Document E (didOf from_) (.ok fromDoc))
      (hl : meantBy from_ fromDoc.keyAgreement = []) : Authcrypted C E to from_ alg protectSender (.error (.kind .didUrlNotFound))
  | failed {toDoc fromDoc : DIDDoc} {k : ErrorKind} (h : Document E (didOf to) (.ok toDoc)) (hf : Document E (didOf from_) (.ok fromDoc))
      (hl : meantBy from_ fromDoc.keyAgreement ≠ []) (hs : E.findSecrets (meantBy from_ fromDoc.keyAgreement) = .error k) :
      Authcrypted C E to from_ alg protectSender (.error (.kind k))
  | nothing {toDoc fromDoc : DIDDoc} (h : Document E (didOf to) (.ok toDoc)) (hf : Document E (didOf from_) (.ok fromDoc))
      (hl : meantBy from_ fromDoc.keyAgreement ≠ []) (hs : E.findSecrets (meantBy from_ fromDoc.keyAgreement) = .ok []) :
      Authcrypted C E to from_ alg protectSender (.error (.kind .secretNotFound))
  | found {toDoc fromDoc : DIDDoc} {found : List Str} {r : Res (Str × List Str)} (h : Document E (didOf to) (.ok toDoc))
      (hf : Document E (didOf from_) (.ok fromDoc)) (hl : meantBy from_ fromDoc.keyAgreement ≠ [])
      (hs : E.findSecrets (meantBy from_ fromDoc.keyAgreement) = .ok found) (hn : found ≠ [])
      (hr : Negotiated C E toDoc fromDoc to found alg protectSender r) : Authcrypted C E to from_ alg protectSender r

/-! ## Forwarding -/

/-- The services a message goes through, that of the last mediator first. -/
inductive Routed (E : Env) (to : Str) (serviceId : Option Str) : Res (List (Str × DIDCommMessagingService)) → Prop
  | noDocument {e : Err} (h : Document E (didOf to) (.error e)) : Routed E to serviceId (.error e)
  | badService {doc : DIDDoc} {e : Err} (h : Document E (didOf to) (.ok doc)) (hs : Selects doc.service serviceId (.error e)) :
      Routed E to serviceId (.error e)
  | noService {doc : DIDDoc} (h : Document E (didOf to) (.ok doc)) (hs : Selects doc.service serviceId (.ok none)) :
      Routed E to serviceId (.ok [])
  | direct {doc : DIDDoc} {s : Str × DIDCommMessagingService} (h : Document E (didOf to) (.ok doc))
      (hs : Selects doc.service serviceId (.ok (some s))) (hd : ¬ LooksLikeDid s.2.uri) : Routed E to serviceId (.ok [s])
  | noMediator {doc : DIDDoc} {s : Str × DIDCommMessagingService} {e : Err} (h : Document E (didOf to) (.ok doc))
      (hs : Selects doc.service serviceId (.ok (some s))) (hd : LooksLikeDid s.2.uri) (hm : Document E s.2.uri (.error e)) :
      Routed E to serviceId (.error e)
  | noMediatorService {doc doc' : DIDDoc} {s : Str × DIDCommMessagingService} (h : Document E (didOf to) (.ok doc))
      (hs : Selects doc.service serviceId (.ok (some s))) (hd : LooksLikeDid s.2.uri) (hm : Document E s.2.uri (.ok doc'))
      (hs' : Selects doc'.service none (.ok none)) : Routed E to serviceId (.error (.kind .invalidState))
  | nested {doc doc' : DIDDoc} {s s' : Str × DIDCommMessagingService} (h : Document E (didOf to) (.ok doc))
      (hs : Selects doc.service serviceId (.ok (some s))) (hd : LooksLikeDid s.2.uri) (hm : Document E s.2.uri (.ok doc'))
      (hs' : Selects doc'.service none (.ok (some s'))) (hd' : LooksLikeDid s'.2.uri) : Routed E to serviceId (.error (.kind .invalidState))
  | mediated {doc doc' : DIDDoc} {s s' : Str × DIDCommMessagingService} (h : Document E (didOf to) (.ok doc))
      (hs : Selects doc.service serviceId (.ok (some s))) (hd : LooksLikeDid s.2.uri) (hm : Document E s.2.uri (.ok doc'))
      (hs' : Selects doc'.service none (.ok (some s'))) (hd' : ¬ LooksLikeDid s'.2.uri) : Routed E to serviceId (.ok [s', s])

/-- Wrapping for the keys on the way, the last stop first. -/
inductive Wrapped (C : Crypto) (E : Env) (alg : AnonCryptAlg) : List Str → Res Unit → Prop
  | done : Wrapped C E alg [] (.ok ())
  | failed {k : Str} {ks : List Str} {e : Err} (h : Anoncrypted C E k alg (.error e)) : Wrapped C E alg (k :: ks) (.error e)
  | step {k : Str} {ks kids : List Str} {r : Res Unit} (h : Anoncrypted C E k alg (.ok kids)) (hr : Wrapped C E alg ks r) :
      Wrapped C E alg (k :: ks) r

/-- `wrap_in_forward` of a text, which must be JSON, for at least one key. -/
inductive ForwardWrapped (C : Crypto) (E : Env) (msg : Str) (keys : List Str) (alg : AnonCryptAlg) : Res Unit → Prop
  | noKeys (h : keys = []) : ForwardWrapped C E msg keys alg (.error .panic)
  | notJson (h : keys ≠ []) (hj : ∀ v, fromJson (toValue C.f64) msg ≠ .ok v) : ForwardWrapped C E msg keys alg (.error (.kind .malformed))
  | json {v : Value} {r : Res Unit} (h : keys ≠ []) (hj : fromJson (toValue C.f64) msg = .ok v) (hr : Wrapped C E alg keys.reverse r) :
      ForwardWrapped C E msg keys alg r

/-- Forwarding a packed message: the service by which it goes, if it is wrapped. -/
inductive Forwarded (C : Crypto) (E : Env) (to : Str) (opts : PackEncryptedOptions) : Res (Option MessagingServiceMetadata) → Prop
  | off (h : opts.forward = false) : Forwarded C E to opts (.ok none)
  | noRoute {e : Err} (h : opts.forward = true) (hr : Routed E to opts.messagingService (.error e)) : Forwarded C E to opts (.error e)
  | notNeeded {chain : List (Str × DIDCommMessagingService)} (h : opts.forward = true)
      (hr : Routed E to opts.messagingService (.ok chain)) (hk : routeOf chain = []) : Forwarded C E to opts (.ok none)
  | wrapped {chain : List (Str × DIDCommMessagingService)} {first last : Str × DIDCommMessagingService} {r : Res Unit}
      (h : opts.forward = true) (hr : Routed E to opts.messagingService (.ok chain)) (hk : routeOf chain ≠ [])
      (h1 : chain.head? = some first) (h2 : chain.getLast? = some last)
      (hw : Wrapped C E opts.encAlgAnon (routeOf chain).reverse r) : Forwarded C E to opts (r.map fun _ => some ⟨last.1, first.2.uri⟩)

/-! ## `pack_encrypted` -/

/-- The message inside: signed or plaintext. -/
inductive InnerPacked (C : Crypto) (E : Env) (m : Message) : Option Str → Res (Option Str) → Prop
  | plain {r : Res Unit} (h : PlaintextPacked C E m r) : InnerPacked C E m none (r.map fun _ => none)
  | signed {signBy : Str} {r : Res Str} (h : SignedPacked C E m signBy r) : InnerPacked C E m (some signBy) (r.map some)

/-- The encryption: the id of the sender's key, if there is a sender, and those of the recipient's keys. -/
inductive Crypted (C : Crypto) (E : Env) (to : Str) (opts : PackEncryptedOptions) : Option Str → Res (Option Str × List Str) → Prop
  | anon {r : Res (List Str)} (h : Anoncrypted C E to opts.encAlgAnon r) : Crypted C E to opts none (r.map fun l => (none, l))
  | auth {from_ : Str} {r : Res (Str × List Str)} (h : Authcrypted C E to from_ opts.encAlgAnon opts.protectSender r) :
      Crypted C E to opts (some from_) (r.map fun x => (some x.1, x.2))

/-- Packing an encrypted message. -/
inductive EncryptedPacked (C : Crypto) (E : Env) (m : Message) (to : Str) (from_ signBy : Option Str) (opts : PackEncryptedOptions) :
    Res PackEncryptedMetadata → Prop
  | illegal (h : IllegalArguments m to from_ signBy) : EncryptedPacked C E m to from_ signBy opts (.error (.kind .illegalArgument))
  | inner {e : Err} (h : ¬ IllegalArguments m to from_ signBy) (hi : InnerPacked C E m signBy (.error e)) :
      EncryptedPacked C E m to from_ signBy opts (.error e)
  | crypt {sk : Option Str} {e : Err} (h : ¬ IllegalArguments m to from_ signBy) (hi : InnerPacked C E m signBy (.ok sk))
      (hc : Crypted C E to opts from_ (.error e)) : EncryptedPacked C E m to from_ signBy opts (.error e)
  | forward {sk fk : Option Str} {tk : List Str} {e : Err} (h : ¬ IllegalArguments m to from_ signBy)
      (hi : InnerPacked C E m signBy (.ok sk)) (hc : Crypted C E to opts from_ (.ok (fk, tk)))
      (hf : Forwarded C E to opts (.error e)) : EncryptedPacked C E m to from_ signBy opts (.error e)
  | packed {sk fk : Option Str} {tk : List Str} {svc : Option MessagingServiceMetadata} (h : ¬ IllegalArguments m to from_ signBy)
      (hi : InnerPacked C E m signBy (.ok sk)) (hc : Crypted C E to opts from_ (.ok (fk, tk)))
      (hf : Forwarded C E to opts (.ok svc)) : EncryptedPacked C E m to from_ signBy opts (.ok ⟨svc, fk, sk, tk⟩)

/-- `to` can be encrypted for anonymously, with the keys `kids`: its document is found, all keys meant have methods, the first
type that is recognised is one for key agreement, and the keys of that type, which are `kids`, are readable. -/
def CanReceive (C : Crypto) (E : Env) (to : Str) (kids : List Str) : Prop :=
  ∃ doc c, E.resolve (didOf to) = .ok (some doc) ∧ (∀ k ∈ meantBy to doc.keyAgreement, methodOf doc k ≠ none) ∧
    (meantBy to doc.keyAgreement).findSome? (keyTypeOf doc) = some c ∧ ForAgreement c ∧
    kids = ofType doc c (meantBy to doc.keyAgreement) ∧ Readable C doc kids

/-- The ids of key agreement keys are text. -/
def TextKeys (doc : DIDDoc) : Prop := ∀ k ∈ doc.keyAgreement, IsUtf8 k

/-- The ids of key agreement keys in resolved documents are texts, as every Rust string is. -/
def TextEnv (E : Env) : Prop := ∀ did doc, E.resolve did = .ok (some doc) → TextKeys doc

/-- The library refuses nothing that is asked of it with the keys of this environment. -/
structure Willing (C : Crypto) (E : Env) : Prop where
  sign : ∀ kid s p, E.getSecret kid = .ok (some s) → s.asKeyPair C = .ok p → CanSign p.curve → ¬ SignRefused C p
  anon : ∀ did doc kids c ce, E.resolve did = .ok (some doc) → ForAgreement c →
    ¬ EncryptRefused C ce c (KeyAmong C doc kids c) (AgreesEs C c)
  auth : ∀ did doc kids c kid s k, E.resolve did = .ok (some doc) → ForAgreement c → E.getSecret kid = .ok (some s) →
    s.asKeyPair C = .ok ⟨c, k⟩ → ¬ EncryptRefused C .a256cbcHs512 c (KeyAmong C doc kids c) (Agrees1pu C c k)

/-- However the program runs in this environment, its outcome is as described. -/
def Yields {α : Type} (E : Env) (p : Prog α) (P : Res α → Prop) : Prop := ∀ tr r, Runs p tr r → Answers E tr → P r

end DIDComm
