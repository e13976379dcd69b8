import Verif.Spec.Outcome
import Verif.Model.Unpack

/-!
# The outcome of unpacking

For each layer of a message a relation that says how its removal ends when the resolvers answer as `E` does: what comes out,
or with which error.  Each case is one reason, and the cases of a relation exclude each other.  A text can be recognised as a
layer, which then has to be removed without an error; or not, which is `none`: then the text itself goes on to the next step.
-/

set_option autoImplicit false

namespace DIDComm

/-- Is the text the JSON of a value?  If not, it is left alone; but a text that ends too early is an error. -/
inductive Recognised {α : Type} (d : Nat → Tree → Option α) [Early d] (t : Str) : Res (Option α) → Prop
  | one {a : α} (h : fromJson d t = .ok a) : Recognised d t (.ok (some a))
  | other (h : fromJson d t = .error (.kind .malformed)) : Recognised d t (.ok none)
  | cutOff (h : fromJson d t = .error (.kind .invalidState)) : Recognised d t (.error (.kind .invalidState))

/-- Reading a protected header: JSON in base64. -/
inductive HeaderText {α : Type} (d : Nat → Tree → Option α) [Early d] (t : Str) : Res α → Prop
  | notBase64 (h : B64.decode t = none) : HeaderText d t (.error (.kind .malformed))
  | json {b : Bytes} {r : Res α} (h : B64.decode t = some b) (hr : fromJson d b = r) : HeaderText d t r

/-! ## Encrypted layers -/

/-- The protected header of a JWE, with its party infos decoded. -/
inductive JweHeaderRead (C : Crypto) (j : JWE) : Res (JweHeader × Option Bytes × Bytes) → Prop
  | unreadable {e : Err} (h : HeaderText (dJweHeader C.f64) j.protected_ (.error e)) : JweHeaderRead C j (.error e)
  | badParty {hdr : JweHeader} (h : HeaderText (dJweHeader C.f64) j.protected_ (.ok hdr))
      (hb : B64.decode hdr.apv = none ∨ ∃ a, hdr.apu = some a ∧ B64.decode a = none) : JweHeaderRead C j (.error (.kind .malformed))
  | anonymous {hdr : JweHeader} {apv : Bytes} (h : HeaderText (dJweHeader C.f64) j.protected_ (.ok hdr))
      (hv : B64.decode hdr.apv = some apv) (ha : hdr.apu = none) : JweHeaderRead C j (.ok (hdr, none, apv))
  | named {hdr : JweHeader} {apv apu : Bytes} {a : Str} (h : HeaderText (dJweHeader C.f64) j.protected_ (.ok hdr))
      (hv : B64.decode hdr.apv = some apv) (ha : hdr.apu = some a) (hd : B64.decode a = some apu) :
      JweHeaderRead C j (.ok (hdr, some apu, apv))

/-- The key ids of the recipients of a JWE. -/
def kidsOf (j : JWE) : List Str := j.recipients.map JweRecipient.kid

/-- The header is about these recipients, and it names the sender once, as text. -/
def HeaderFits (C : Crypto) (j : JWE) (hdr : JweHeader) (apu : Option Bytes) (apv : Bytes) : Prop :=
  apv = C.sha256 (joinedKids (kidsOf j)) ∧
  ((apu = none ∧ hdr.skid = none) ∨ ∃ a, apu = some a ∧ IsUtf8 a ∧ (hdr.skid = none ∨ hdr.skid = some a))

/-- There are recipients, all key ids of one DID. -/
def OneDid (kids : List Str) : Prop :=
  kids ≠ [] ∧ (∀ k ∈ kids, HasFragment k) ∧ ∀ k ∈ kids, ∀ k' ∈ kids, didOf k = didOf k'

/-- The key types for encryption. -/
def CanAgree (c : Curve) : Prop := c = .x25519 ∨ c = .p256

/-- The entry of a JWE for a key id. -/
def entryFor (j : JWE) (kid : Str) : Option JweRecipient := j.recipients.find? (fun r => r.kid == kid)

/-- Decrypting for `kid`, where `agree epk tag` is the result of the key agreement with the ephemeral key of the header, of
type `c`. -/
inductive Decrypts (C : Crypto) (j : JWE) (hdr : JweHeader) (ce : ContentEnc) (c : Curve) (kid : Str)
    (agree : C.Key → Bytes → Option Bytes) : Res Bytes → Prop
  | notForKid (h : entryFor j kid = none) : Decrypts C j hdr ce c kid agree (.error (.kind .invalidState))
  | unreadable {r : JweRecipient} (h : entryFor j kid = some r)
      (hb : B64.decode r.encryptedKey = none ∨ C.fromJwk c hdr.epk = none ∨ B64.decode j.tag = none) :
      Decrypts C j hdr ce c kid agree (.error (.kind .malformed))
  | noAgreement {r : JweRecipient} {ek tag : Bytes} {epk : C.Key} (h : entryFor j kid = some r)
      (h1 : B64.decode r.encryptedKey = some ek) (h2 : C.fromJwk c hdr.epk = some epk) (h3 : B64.decode j.tag = some tag)
      (ha : agree epk tag = none) : Decrypts C j hdr ce c kid agree (.error (.kind .invalidState))
  | notOpened {r : JweRecipient} {ek tag kw : Bytes} {epk : C.Key} (h : entryFor j kid = some r)
      (h1 : B64.decode r.encryptedKey = some ek) (h2 : C.fromJwk c hdr.epk = some epk) (h3 : B64.decode j.tag = some tag)
      (ha : agree epk tag = some kw)
      (hn : ∀ cek ct iv payload, C.unwrap ce kw ek = some cek → B64.decode j.ciphertext = some ct → B64.decode j.iv = some iv →
        C.aeadDec ce cek iv j.protected_ (ct ++ tag) ≠ some payload) :
      Decrypts C j hdr ce c kid agree (.error (.kind .malformed))
  | opened {r : JweRecipient} {ek tag kw cek ct iv payload : Bytes} {epk : C.Key} (h : entryFor j kid = some r)
      (h1 : B64.decode r.encryptedKey = some ek) (h2 : C.fromJwk c hdr.epk = some epk) (h3 : B64.decode j.tag = some tag)
      (ha : agree epk tag = some kw) (h4 : C.unwrap ce kw ek = some cek) (h5 : B64.decode j.ciphertext = some ct)
      (h6 : B64.decode j.iv = some iv) (h7 : C.aeadDec ce cek iv j.protected_ (ct ++ tag) = some payload) :
      Decrypts C j hdr ce c kid agree (.ok payload)

/-- Decrypting an anonymous envelope with the key `p` of `kid`. -/
inductive TriedAnon (C : Crypto) (j : JWE) (hdr : JweHeader) (apu : Option Bytes) (apv : Bytes) (kid : Str) (p : KeyPair C) :
    Res (AnonCryptAlg × Bytes) → Prop
  | otherType (h : ¬ CanAgree p.curve) : TriedAnon C j hdr apu apv kid p (.error (.kind .unsupported))
  | otherCipher (h : CanAgree p.curve) (he : ∀ ce alg, ¬ EncNames hdr.enc ce alg) :
      TriedAnon C j hdr apu apv kid p (.error (.kind .unsupported))
  | sender {ce : ContentEnc} {alg : AnonCryptAlg} (h : CanAgree p.curve) (he : EncNames hdr.enc ce alg) (ha : apu ≠ none) :
      TriedAnon C j hdr apu apv kid p (.error (.kind .invalidState))
  | failed {ce : ContentEnc} {alg : AnonCryptAlg} {e : Err} (h : CanAgree p.curve) (he : EncNames hdr.enc ce alg) (ha : apu = none)
      (hd : Decrypts C j hdr ce p.curve kid (fun epk _ => C.ecdhEs p.curve epk p.key b!"ECDH-ES+A256KW" [] apv true) (.error e)) :
      TriedAnon C j hdr apu apv kid p (.error e)
  | opened {ce : ContentEnc} {alg : AnonCryptAlg} {b : Bytes} (h : CanAgree p.curve) (he : EncNames hdr.enc ce alg) (ha : apu = none)
      (hd : Decrypts C j hdr ce p.curve kid (fun epk _ => C.ecdhEs p.curve epk p.key b!"ECDH-ES+A256KW" [] apv true) (.ok b)) :
      TriedAnon C j hdr apu apv kid p (.ok (alg, b))

/-- Decrypting an envelope of the sender `fromKid`, whose key is `s`, with the key `p` of `kid`. -/
inductive TriedAuth (C : Crypto) (j : JWE) (hdr : JweHeader) (apv : Bytes) (fromKid : Str) (s : KeyPair C) (kid : Str) (p : KeyPair C) :
    Res (AuthCryptAlg × Bytes) → Prop
  | otherType (h : ¬ (CanAgree s.curve ∧ CanAgree p.curve)) : TriedAuth C j hdr apv fromKid s kid p (.error (.kind .unsupported))
  | twoTypes (h : CanAgree s.curve ∧ CanAgree p.curve) (hc : s.curve ≠ p.curve) :
      TriedAuth C j hdr apv fromKid s kid p (.error (.kind .malformed))
  | otherCipher (h : CanAgree s.curve) (hc : s.curve = p.curve) (he : hdr.enc ≠ .a256cbcHs512) :
      TriedAuth C j hdr apv fromKid s kid p (.error (.kind .unsupported))
  | failed {e : Err} (h : CanAgree s.curve) (hc : s.curve = p.curve) (he : hdr.enc = .a256cbcHs512)
      (hd : Decrypts C j hdr .a256cbcHs512 s.curve kid
        (fun epk tag => C.ecdh1pu s.curve epk s.key p.key b!"ECDH-1PU+A256KW" fromKid apv tag true) (.error e)) :
      TriedAuth C j hdr apv fromKid s kid p (.error e)
  | opened {b : Bytes} (h : CanAgree s.curve) (hc : s.curve = p.curve) (he : hdr.enc = .a256cbcHs512)
      (hd : Decrypts C j hdr .a256cbcHs512 s.curve kid
        (fun epk tag => C.ecdh1pu s.curve epk s.key p.key b!"ECDH-1PU+A256KW" fromKid apv tag true) (.ok b)) :
      TriedAuth C j hdr apv fromKid s kid p (.ok (.a256cbcHs512Ecdh1puA256kw, b))

/-- The secret of a key id that was reported as one of ours. -/
inductive OurSecret (C : Crypto) (E : Env) (kid : Str) : Res (KeyPair C) → Prop
  | failed {k : ErrorKind} (h : E.getSecret kid = .error k) : OurSecret C E kid (.error (.kind k))
  | gone (h : E.getSecret kid = .ok none) : OurSecret C E kid (.error (.kind .invalidState))
  | read {s : Secret} {r : Res (KeyPair C)} (h : E.getSecret kid = .ok (some s)) (hr : s.asKeyPair C = r) : OurSecret C E kid r

/-- Trying keys one after another: only the first, or all of them, as asked for; then the last result counts.  A failure ends
it. -/
inductive TriedKeys {α : Type} (C : Crypto) (E : Env) (all : Bool) (tried : Str → KeyPair C → Res α → Prop) : List Str → Res α → Prop
  | noSecret {kid : Str} {rest : List Str} {e : Err} (h : OurSecret C E kid (.error e)) : TriedKeys C E all tried (kid :: rest) (.error e)
  | failed {kid : Str} {rest : List Str} {p : KeyPair C} {e : Err} (h : OurSecret C E kid (.ok p)) (ht : tried kid p (.error e)) :
      TriedKeys C E all tried (kid :: rest) (.error e)
  | last {kid : Str} {rest : List Str} {p : KeyPair C} {a : α} (h : OurSecret C E kid (.ok p)) (ht : tried kid p (.ok a))
      (hl : all = false ∨ rest = []) : TriedKeys C E all tried (kid :: rest) (.ok a)
  | more {kid : Str} {rest : List Str} {p : KeyPair C} {a : α} {r : Res α} (h : OurSecret C E kid (.ok p)) (ht : tried kid p (.ok a))
      (hl : all = true) (hr : rest ≠ []) (hm : TriedKeys C E all tried rest r) : TriedKeys C E all tried (kid :: rest) r

/-- Opening an envelope with the keys of ours among its recipients. -/
inductive OpenedFor {α : Type} (C : Crypto) (E : Env) (all : Bool) (tried : Str → KeyPair C → Res (α × Bytes) → Prop) (kids : List Str) :
    Res (α × Str) → Prop
  | manyDids (h : ¬ OneDid kids) : OpenedFor C E all tried kids (.error (.kind .malformed))
  | searchFailed {k : ErrorKind} (h : OneDid kids) (hf : E.findSecrets kids = .error k) : OpenedFor C E all tried kids (.error (.kind k))
  | notOurs (h : OneDid kids) (hf : E.findSecrets kids = .ok []) : OpenedFor C E all tried kids (.error (.kind .secretNotFound))
  | failed {found : List Str} {e : Err} (h : OneDid kids) (hf : E.findSecrets kids = .ok found)
      (ht : TriedKeys C E all tried found (.error e)) : OpenedFor C E all tried kids (.error e)
  | notText {found : List Str} {a : α} {b : Bytes} (h : OneDid kids) (hf : E.findSecrets kids = .ok found)
      (ht : TriedKeys C E all tried found (.ok (a, b))) (hu : ¬ IsUtf8 b) : OpenedFor C E all tried kids (.error (.kind .malformed))
  | opened {found : List Str} {a : α} {b : Bytes} (h : OneDid kids) (hf : E.findSecrets kids = .ok found)
      (ht : TriedKeys C E all tried found (.ok (a, b))) (hu : IsUtf8 b) : OpenedFor C E all tried kids (.ok (a, b))

/-- Removing an anonymous envelope: its recipients, the algorithms and the text inside. -/
inductive AnonLayer (C : Crypto) (E : Env) (all : Bool) (t : Str) : Res (Option (List Str × AnonCryptAlg × Str)) → Prop
  | notJwe (h : Recognised dJwe t (.ok none)) : AnonLayer C E all t (.ok none)
  | cutOff {e : Err} (h : Recognised dJwe t (.error e)) : AnonLayer C E all t (.error e)
  | badHeader {j : JWE} {e : Err} (h : Recognised dJwe t (.ok (some j))) (hh : JweHeaderRead C j (.error e)) :
      AnonLayer C E all t (.error e)
  | otherAlg {j : JWE} {hdr : JweHeader} {apu : Option Bytes} {apv : Bytes} (h : Recognised dJwe t (.ok (some j)))
      (hh : JweHeaderRead C j (.ok (hdr, apu, apv))) (ha : hdr.alg ≠ .ecdhEs) : AnonLayer C E all t (.ok none)
  | misfit {j : JWE} {hdr : JweHeader} {apu : Option Bytes} {apv : Bytes} (h : Recognised dJwe t (.ok (some j)))
      (hh : JweHeaderRead C j (.ok (hdr, apu, apv))) (ha : hdr.alg = .ecdhEs) (hb : ¬ HeaderFits C j hdr apu apv) :
      AnonLayer C E all t (.error (.kind .malformed))
  | failed {j : JWE} {hdr : JweHeader} {apu : Option Bytes} {apv : Bytes} {e : Err} (h : Recognised dJwe t (.ok (some j)))
      (hh : JweHeaderRead C j (.ok (hdr, apu, apv))) (ha : hdr.alg = .ecdhEs) (hb : HeaderFits C j hdr apu apv)
      (ho : OpenedFor C E all (TriedAnon C j hdr apu apv) (kidsOf j) (.error e)) : AnonLayer C E all t (.error e)
  | opened {j : JWE} {hdr : JweHeader} {apu : Option Bytes} {apv : Bytes} {alg : AnonCryptAlg} {u : Str}
      (h : Recognised dJwe t (.ok (some j))) (hh : JweHeaderRead C j (.ok (hdr, apu, apv))) (ha : hdr.alg = .ecdhEs)
      (hb : HeaderFits C j hdr apu apv) (ho : OpenedFor C E all (TriedAnon C j hdr apu apv) (kidsOf j) (.ok (alg, u))) :
      AnonLayer C E all t (.ok (some (kidsOf j, alg, u)))

/-- The key of the sender of an envelope.  A failure of the resolver is reported as an invalid state. -/
inductive SendersKey (C : Crypto) (E : Env) (kid : Str) : Res (KeyPair C) → Prop
  | failed {k : ErrorKind} (h : E.resolve (didOf kid) = .error k) : SendersKey C E kid (.error (.kind .invalidState))
  | unknown (h : E.resolve (didOf kid) = .ok none) : SendersKey C E kid (.error (.kind .didNotResolved))
  | notListed {doc : DIDDoc} (h : E.resolve (didOf kid) = .ok (some doc)) (hl : kid ∉ doc.keyAgreement) :
      SendersKey C E kid (.error (.kind .didUrlNotFound))
  | noMethod {doc : DIDDoc} (h : E.resolve (didOf kid) = .ok (some doc)) (hl : kid ∈ doc.keyAgreement) (hm : methodOf doc kid = none) :
      SendersKey C E kid (.error (.kind .didUrlNotFound))
  | read {doc : DIDDoc} {vm : VerificationMethod} {r : Res (KeyPair C)} (h : E.resolve (didOf kid) = .ok (some doc))
      (hl : kid ∈ doc.keyAgreement) (hm : methodOf doc kid = some vm) (hr : vm.asKeyPair C = r) : SendersKey C E kid r

/-- Opening an envelope whose header names its sender. -/
inductive AuthOpened (C : Crypto) (E : Env) (all : Bool) (j : JWE) (hdr : JweHeader) (apv : Bytes) : Option Bytes → Res (Str × AuthCryptAlg × Str) → Prop
  | noSender : AuthOpened C E all j hdr apv none (.error (.kind .malformed))
  | senderNotKey {fromKid : Str} (h : ¬ HasFragment fromKid) : AuthOpened C E all j hdr apv (some fromKid) (.error (.kind .malformed))
  | noKey {fromKid : Str} {e : Err} (h : HasFragment fromKid) (hk : SendersKey C E fromKid (.error e)) :
      AuthOpened C E all j hdr apv (some fromKid) (.error e)
  | failed {fromKid : Str} {s : KeyPair C} {e : Err} (h : HasFragment fromKid) (hk : SendersKey C E fromKid (.ok s))
      (ho : OpenedFor C E all (TriedAuth C j hdr apv fromKid s) (kidsOf j) (.error e)) : AuthOpened C E all j hdr apv (some fromKid) (.error e)
  | opened {fromKid : Str} {s : KeyPair C} {alg : AuthCryptAlg} {u : Str} (h : HasFragment fromKid) (hk : SendersKey C E fromKid (.ok s))
      (ho : OpenedFor C E all (TriedAuth C j hdr apv fromKid s) (kidsOf j) (.ok (alg, u))) :
      AuthOpened C E all j hdr apv (some fromKid) (.ok (fromKid, alg, u))

/-- Removing an envelope of a named sender: its recipients, the sender, the algorithms and the text inside. -/
inductive AuthLayer (C : Crypto) (E : Env) (all : Bool) (t : Str) : Res (Option (List Str × Str × AuthCryptAlg × Str)) → Prop
  | notJwe (h : Recognised dJwe t (.ok none)) : AuthLayer C E all t (.ok none)
  | cutOff {e : Err} (h : Recognised dJwe t (.error e)) : AuthLayer C E all t (.error e)
  | badHeader {j : JWE} {e : Err} (h : Recognised dJwe t (.ok (some j))) (hh : JweHeaderRead C j (.error e)) :
      AuthLayer C E all t (.error e)
  | otherAlg {j : JWE} {hdr : JweHeader} {apu : Option Bytes} {apv : Bytes} (h : Recognised dJwe t (.ok (some j)))
      (hh : JweHeaderRead C j (.ok (hdr, apu, apv))) (ha : hdr.alg ≠ .ecdh1pu) : AuthLayer C E all t (.ok none)
  | misfit {j : JWE} {hdr : JweHeader} {apu : Option Bytes} {apv : Bytes} (h : Recognised dJwe t (.ok (some j)))
      (hh : JweHeaderRead C j (.ok (hdr, apu, apv))) (ha : hdr.alg = .ecdh1pu) (hb : ¬ HeaderFits C j hdr apu apv) :
      AuthLayer C E all t (.error (.kind .malformed))
  | failed {j : JWE} {hdr : JweHeader} {apu : Option Bytes} {apv : Bytes} {e : Err} (h : Recognised dJwe t (.ok (some j)))
      (hh : JweHeaderRead C j (.ok (hdr, apu, apv))) (ha : hdr.alg = .ecdh1pu) (hb : HeaderFits C j hdr apu apv)
      (ho : AuthOpened C E all j hdr apv apu (.error e)) : AuthLayer C E all t (.error e)
  | opened {j : JWE} {hdr : JweHeader} {apu : Option Bytes} {apv : Bytes} {fromKid : Str} {alg : AuthCryptAlg} {u : Str}
      (h : Recognised dJwe t (.ok (some j))) (hh : JweHeaderRead C j (.ok (hdr, apu, apv))) (ha : hdr.alg = .ecdh1pu)
      (hb : HeaderFits C j hdr apu apv) (ho : AuthOpened C E all j hdr apv apu (.ok (fromKid, alg, u))) :
      AuthLayer C E all t (.ok (some (kidsOf j, fromKid, alg, u)))

/-! ## Signed layers -/

/-- The protected headers of the signatures of a JWS: the first that cannot be read decides. -/
inductive SignatureHeaders : List JwsSig → Res (List JwsHeader) → Prop
  | nil : SignatureHeaders [] (.ok [])
  | bad {s : JwsSig} {rest : List JwsSig} {e : Err} (h : HeaderText dJwsHeader s.protected_ (.error e)) : SignatureHeaders (s :: rest) (.error e)
  | later {s : JwsSig} {rest : List JwsSig} {hdr : JwsHeader} {e : Err} (h : HeaderText dJwsHeader s.protected_ (.ok hdr))
      (hr : SignatureHeaders rest (.error e)) : SignatureHeaders (s :: rest) (.error e)
  | cons {s : JwsSig} {rest : List JwsSig} {hdr : JwsHeader} {l : List JwsHeader} (h : HeaderText dJwsHeader s.protected_ (.ok hdr))
      (hr : SignatureHeaders rest (.ok l)) : SignatureHeaders (s :: rest) (.ok (hdr :: l))

/-- Checking the only signature of a JWS with the payload `pl`. -/
inductive SignatureChecked (C : Crypto) (E : Env) (s : JwsSig) (hdr : JwsHeader) (pl : Str) : Res (SignAlg × Str) → Prop
  | notKey (h : ¬ HasFragment s.kid) : SignatureChecked C E s hdr pl (.error (.kind .malformed))
  | noDocument {e : Err} (h : HasFragment s.kid) (hd : Document E (didOf s.kid) (.error e)) : SignatureChecked C E s hdr pl (.error e)
  | noKey {doc : DIDDoc} {e : Err} (h : HasFragment s.kid) (hd : Document E (didOf s.kid) (.ok doc))
      (hk : SignersKey C doc s.kid hdr.alg (.error e)) : SignatureChecked C E s hdr pl (.error e)
  | notVerified {doc : DIDDoc} {c : Curve} {st : SigType} {k : C.Key} (h : HasFragment s.kid) (hd : Document E (didOf s.kid) (.ok doc))
      (hk : SignersKey C doc s.kid hdr.alg (.ok (c, st, k)))
      (hv : ∀ raw, B64.decode s.signature = some raw → C.verify c k (s.protected_ ++ b!"." ++ pl) raw st ≠ some true) :
      SignatureChecked C E s hdr pl (.error (.kind .malformed))
  | notText {doc : DIDDoc} {c : Curve} {st : SigType} {k : C.Key} {raw : Bytes} (h : HasFragment s.kid)
      (hd : Document E (didOf s.kid) (.ok doc)) (hk : SignersKey C doc s.kid hdr.alg (.ok (c, st, k)))
      (hr : B64.decode s.signature = some raw) (hv : C.verify c k (s.protected_ ++ b!"." ++ pl) raw st = some true)
      (hp : ∀ u, B64.decode pl = some u → ¬ IsUtf8 u) : SignatureChecked C E s hdr pl (.error (.kind .malformed))
  | verified {doc : DIDDoc} {c : Curve} {st : SigType} {sa : SignAlg} {k : C.Key} {raw : Bytes} {u : Str} (h : HasFragment s.kid)
      (hd : Document E (didOf s.kid) (.ok doc)) (hk : SignersKey C doc s.kid hdr.alg (.ok (c, st, k))) (hs : Scheme hdr.alg c st sa)
      (hr : B64.decode s.signature = some raw) (hv : C.verify c k (s.protected_ ++ b!"." ++ pl) raw st = some true)
      (hp : B64.decode pl = some u) (hu : IsUtf8 u) : SignatureChecked C E s hdr pl (.ok (sa, u))

/-- Removing a signature: the signer's key id, the algorithm and the text that was signed. -/
inductive SignLayer (C : Crypto) (E : Env) (t : Str) : Res (Option (Str × SignAlg × Str)) → Prop
  | notJws (h : Recognised dJws t (.ok none)) : SignLayer C E t (.ok none)
  | cutOff {e : Err} (h : Recognised dJws t (.error e)) : SignLayer C E t (.error e)
  | badHeader {j : JWS} {e : Err} (h : Recognised dJws t (.ok (some j))) (hh : SignatureHeaders j.signatures (.error e)) :
      SignLayer C E t (.error e)
  | notOne {j : JWS} {l : List JwsHeader} (h : Recognised dJws t (.ok (some j))) (hh : SignatureHeaders j.signatures (.ok l))
      (hn : j.signatures.length ≠ 1) : SignLayer C E t (.error (.kind .malformed))
  | failed {s : JwsSig} {pl : Str} {hdr : JwsHeader} {e : Err} (h : Recognised dJws t (.ok (some ⟨[s], pl⟩)))
      (hh : SignatureHeaders [s] (.ok [hdr])) (hc : SignatureChecked C E s hdr pl (.error e)) : SignLayer C E t (.error e)
  | signed {s : JwsSig} {pl u : Str} {hdr : JwsHeader} {sa : SignAlg} (h : Recognised dJws t (.ok (some ⟨[s], pl⟩)))
      (hh : SignatureHeaders [s] (.ok [hdr])) (hc : SignatureChecked C E s hdr pl (.ok (sa, u))) : SignLayer C E t (.ok (some (s.kid, sa, u)))

/-! ## The message itself -/

/-- Reading a plaintext message, with the claims of its `from_prior` and the key they are signed with. -/
inductive PlainLayer (C : Crypto) (E : Env) (t : Str) : Res (Message × Option (FromPrior × Str)) → Prop
  | notMessage (h : Recognised (dMessage C.f64) t (.ok none)) : PlainLayer C E t (.error (.kind .malformed))
  | cutOff {e : Err} (h : Recognised (dMessage C.f64) t (.error e)) : PlainLayer C E t (.error e)
  | otherTyp {m : Message} (h : Recognised (dMessage C.f64) t (.ok (some m))) (ht : m.typ ≠ b!"application/didcomm-plain+json") :
      PlainLayer C E t (.error (.kind .malformed))
  | plain {m : Message} (h : Recognised (dMessage C.f64) t (.ok (some m))) (ht : m.typ = b!"application/didcomm-plain+json")
      (hp : m.fromPrior = none) : PlainLayer C E t (.ok (m, none))
  | badPrior {m : Message} {jwt : Str} {e : Err} (h : Recognised (dMessage C.f64) t (.ok (some m)))
      (ht : m.typ = b!"application/didcomm-plain+json") (hp : m.fromPrior = some jwt) (hr : PriorRead C E jwt (.error e)) :
      PlainLayer C E t (.error e)
  | prior {m : Message} {jwt kid : Str} {fp : FromPrior} (h : Recognised (dMessage C.f64) t (.ok (some m)))
      (ht : m.typ = b!"application/didcomm-plain+json") (hp : m.fromPrior = some jwt) (hr : PriorRead C E jwt (.ok (fp, kid))) :
      PlainLayer C E t (.ok (m, some (fp, kid)))

/-- Are there secrets of ours for the next stop of a forward message?  It is a key id or a DID. -/
inductive Ours (E : Env) (next : Str) : Res Bool → Prop
  | key {found : List Str} (h : HasFragment next) (hf : E.findSecrets [next] = .ok found) : Ours E next (.ok (!found.isEmpty))
  | keyFailed {k : ErrorKind} (h : HasFragment next) (hf : E.findSecrets [next] = .error k) : Ours E next (.error (.kind k))
  | noDocument {e : Err} (h : ¬ HasFragment next) (hd : Document E next (.error e)) : Ours E next (.error e)
  | did {doc : DIDDoc} {found : List Str} (h : ¬ HasFragment next) (hd : Document E next (.ok doc))
      (hf : E.findSecrets doc.keyAgreement = .ok found) : Ours E next (.ok (!found.isEmpty))
  | didFailed {doc : DIDDoc} {k : ErrorKind} (h : ¬ HasFragment next) (hd : Document E next (.ok doc))
      (hf : E.findSecrets doc.keyAgreement = .error k) : Ours E next (.error (.kind k))

/-- Is the text a forward message for ourselves?  Then the message it carries is taken out. -/
inductive ForwardInside (C : Crypto) (E : Env) (t : Str) : Res (Option Str) → Prop
  | notMessage (h : Recognised (dMessage C.f64) t (.ok none)) : ForwardInside C E t (.ok none)
  | cutOff {e : Err} (h : Recognised (dMessage C.f64) t (.error e)) : ForwardInside C E t (.error e)
  | notForward {m : Message} (h : Recognised (dMessage C.f64) t (.ok (some m))) (hn : ∀ next v, ¬ IsForward m next v) :
      ForwardInside C E t (.ok none)
  | failed {m : Message} {next : Str} {v : Value} {e : Err} (h : Recognised (dMessage C.f64) t (.ok (some m))) (hf : IsForward m next v)
      (ho : Ours E next (.error e)) : ForwardInside C E t (.error e)
  | others {m : Message} {next : Str} {v : Value} (h : Recognised (dMessage C.f64) t (.ok (some m))) (hf : IsForward m next v)
      (ho : Ours E next (.ok false)) : ForwardInside C E t (.ok none)
  | ours {m : Message} {next : Str} {v : Value} (h : Recognised (dMessage C.f64) t (.ok (some m))) (hf : IsForward m next v)
      (ho : Ours E next (.ok true)) : ForwardInside C E t (.ok (some v.print))

/-! ## Unpacking -/

/-- What the metadata says after an anonymous envelope. -/
def UnpackMetadata.seeAnon (md : UnpackMetadata) (kids : List Str) (alg : AnonCryptAlg) : UnpackMetadata :=
  { md with encrypted := true, anonymousSender := true, encryptedToKids := some kids, encAlgAnon := some alg }

/-- What the metadata says after an envelope of a named sender: the recipients of an anonymous envelope around it stay. -/
def UnpackMetadata.seeAuth (md : UnpackMetadata) (kids : List Str) (fromKid : Str) (alg : AuthCryptAlg) : UnpackMetadata :=
  { md with
    encrypted := true, authenticated := true, encryptedToKids := some (md.encryptedToKids.getD kids)
    encryptedFromKid := some fromKid, encAlgAuth := some alg }

/-- What the metadata says after a signature: the text `t` was the signed message. -/
def UnpackMetadata.seeSign (md : UnpackMetadata) (kid : Str) (alg : SignAlg) (t : Str) : UnpackMetadata :=
  { md with authenticated := true, nonRepudiation := true, signFrom := some kid, signAlg := some alg, signedMessage := some t }

/-- Removing anonymous envelopes and forward messages for ourselves. -/
inductive Unwraps (C : Crypto) (E : Env) (opts : UnpackOptions) : Str → UnpackMetadata → Res (Str × UnpackMetadata) → Prop
  | failed {t : Str} {md : UnpackMetadata} {e : Err} (h : AnonLayer C E opts.expectDecryptByAllKeys t (.error e)) :
      Unwraps C E opts t md (.error e)
  | none {t : Str} {md : UnpackMetadata} (h : AnonLayer C E opts.expectDecryptByAllKeys t (.ok none)) : Unwraps C E opts t md (.ok (t, md))
  | notAsked {t u : Str} {md : UnpackMetadata} {kids : List Str} {alg : AnonCryptAlg}
      (h : AnonLayer C E opts.expectDecryptByAllKeys t (.ok (some (kids, alg, u)))) (ho : opts.unwrapReWrappingForward = false) :
      Unwraps C E opts t md (.ok (u, md.seeAnon kids alg))
  | forwardFailed {t u : Str} {md : UnpackMetadata} {kids : List Str} {alg : AnonCryptAlg} {e : Err}
      (h : AnonLayer C E opts.expectDecryptByAllKeys t (.ok (some (kids, alg, u)))) (ho : opts.unwrapReWrappingForward = true)
      (hf : ForwardInside C E u (.error e)) : Unwraps C E opts t md (.error e)
  | last {t u : Str} {md : UnpackMetadata} {kids : List Str} {alg : AnonCryptAlg}
      (h : AnonLayer C E opts.expectDecryptByAllKeys t (.ok (some (kids, alg, u)))) (ho : opts.unwrapReWrappingForward = true)
      (hf : ForwardInside C E u (.ok none)) : Unwraps C E opts t md (.ok (u, md.seeAnon kids alg))
  | again {t u w : Str} {md : UnpackMetadata} {kids : List Str} {alg : AnonCryptAlg} {r : Res (Str × UnpackMetadata)}
      (h : AnonLayer C E opts.expectDecryptByAllKeys t (.ok (some (kids, alg, u)))) (ho : opts.unwrapReWrappingForward = true)
      (hf : ForwardInside C E u (.ok (some w))) (hu : Unwraps C E opts w { md.seeAnon kids alg with reWrappedInForward := true } r) :
      Unwraps C E opts t md r

/-- What goes on after an envelope of a named sender, if there is one. -/
def pastAuth (t : Str) (md : UnpackMetadata) : Option (List Str × Str × AuthCryptAlg × Str) → Str × UnpackMetadata
  | none => (t, md)
  | some (kids, fromKid, alg, u) => (u, md.seeAuth kids fromKid alg)

/-- What goes on after a signature, if there is one. -/
def pastSign (t : Str) (md : UnpackMetadata) : Option (Str × SignAlg × Str) → Str × UnpackMetadata
  | none => (t, md)
  | some (kid, alg, u) => (u, md.seeSign kid alg t)

/-- What the metadata says about the `from_prior`. -/
def UnpackMetadata.seePrior (md : UnpackMetadata) : Option (FromPrior × Str) → UnpackMetadata
  | none => md
  | some (fp, kid) => { md with fromPrior := some fp, fromPriorIssuerKid := some kid }

/-- Unpacking: anonymous envelopes and forwards, then an envelope of a named sender, then a signature, then the message. -/
inductive Unpacked (C : Crypto) (E : Env) (opts : UnpackOptions) (t : Str) : Res (Message × UnpackMetadata) → Prop
  | unwrapFailed {e : Err} (h : Unwraps C E opts t {} (.error e)) : Unpacked C E opts t (.error e)
  | authFailed {u : Str} {md : UnpackMetadata} {e : Err} (h : Unwraps C E opts t {} (.ok (u, md)))
      (ha : AuthLayer C E opts.expectDecryptByAllKeys u (.error e)) : Unpacked C E opts t (.error e)
  | signFailed {u : Str} {md : UnpackMetadata} {a : Option (List Str × Str × AuthCryptAlg × Str)} {e : Err}
      (h : Unwraps C E opts t {} (.ok (u, md))) (ha : AuthLayer C E opts.expectDecryptByAllKeys u (.ok a))
      (hs : SignLayer C E (pastAuth u md a).1 (.error e)) : Unpacked C E opts t (.error e)
  | plainFailed {u : Str} {md : UnpackMetadata} {a : Option (List Str × Str × AuthCryptAlg × Str)} {s : Option (Str × SignAlg × Str)} {e : Err}
      (h : Unwraps C E opts t {} (.ok (u, md))) (ha : AuthLayer C E opts.expectDecryptByAllKeys u (.ok a))
      (hs : SignLayer C E (pastAuth u md a).1 (.ok s))
      (hp : PlainLayer C E (pastSign (pastAuth u md a).1 (pastAuth u md a).2 s).1 (.error e)) : Unpacked C E opts t (.error e)
  | unpacked {u : Str} {md : UnpackMetadata} {a : Option (List Str × Str × AuthCryptAlg × Str)} {s : Option (Str × SignAlg × Str)}
      {m : Message} {p : Option (FromPrior × Str)} (h : Unwraps C E opts t {} (.ok (u, md)))
      (ha : AuthLayer C E opts.expectDecryptByAllKeys u (.ok a)) (hs : SignLayer C E (pastAuth u md a).1 (.ok s))
      (hp : PlainLayer C E (pastSign (pastAuth u md a).1 (pastAuth u md a).2 s).1 (.ok (m, p))) :
      Unpacked C E opts t (.ok (m, (pastSign (pastAuth u md a).1 (pastAuth u md a).2 s).2.seePrior p))

/-! ## Messages that arrive

When a message, written by anybody, is accepted: in terms of the evidence in the text (`Verif.Spec.Evidence`) and of what the
resolvers know. -/

/-- We have the key `p` for the first key id, `kid`, that is reported as ours among `kids`; and, if all keys have to work, it is the
only one. -/
def WeHave (C : Crypto) (E : Env) (all : Bool) (kids : List Str) (kid : Str) (p : KeyPair C) : Prop :=
  OneDid kids ∧ kids.Nodup ∧ CanAgree p.curve ∧ ∃ rest s, E.findSecrets kids = .ok (kid :: rest) ∧ (all = false ∨ rest = []) ∧
    E.getSecret kid = .ok (some s) ∧ s.asKeyPair C = .ok p

/-- The document of the DID of `kid` is known, and has the key `key` of the type `c` for it, among the ids `listed` for a purpose. -/
def TheyHave (C : Crypto) (E : Env) (listed : DIDDoc → List Str) (kid : Str) (c : Curve) (key : C.Key) : Prop :=
  HasFragment kid ∧ ∃ doc, E.resolve (didOf kid) = .ok (some doc) ∧ KeyFrom C doc (listed doc) kid c key

/-- A plaintext message, perhaps signed, arrives as `u`. -/
inductive ArrivesOpen (C : Crypto) (E : Env) (u : Str) (md : UnpackMetadata) : Message → UnpackMetadata → Prop
  | plain {m : Message} {p : Option (FromPrior × Str)} (hn : fromJson dJws u = .error (.kind .malformed))
      (hp : PlainLayer C E u (.ok (m, p))) : ArrivesOpen C E u md m (md.seePrior p)
  | signed {m : Message} {p : Option (FromPrior × Str)} {kid : Str} {alg : SignAlg} {c : Curve} {key : C.Key} {payload : Str}
      (hs : SignedBy C u kid alg c key payload) (hk : TheyHave C E DIDDoc.authentication kid c key)
      (hp : PlainLayer C E payload (.ok (m, p))) : ArrivesOpen C E u md m ((md.seeSign kid alg u).seePrior p)

/-- Such a message, perhaps encrypted by a named sender, arrives as `u`. -/
inductive ArrivesAuth (C : Crypto) (E : Env) (all : Bool) (u : Str) (md : UnpackMetadata) : Message → UnpackMetadata → Prop
  | bare {m : Message} {md' : UnpackMetadata} (hn : fromJson dJwe u = .error (.kind .malformed)) (ho : ArrivesOpen C E u md m md') :
      ArrivesAuth C E all u md m md'
  | auth {m : Message} {md' : UnpackMetadata} {kids : List Str} {fromKid kid payload : Str} {c : Curve} {skey : C.Key} {p : KeyPair C}
      (ha : AuthOpens C u kids fromKid c skey kid p.key payload) (hu : IsUtf8 payload) (hf : IsUtf8 fromKid)
      (hs : TheyHave C E DIDDoc.keyAgreement fromKid c skey) (hk : WeHave C E all kids kid p) (hc : p.curve = c)
      (ho : ArrivesOpen C E payload (md.seeAuth kids fromKid .a256cbcHs512Ecdh1puA256kw) m md') : ArrivesAuth C E all u md m md'

/-- Such a message, perhaps encrypted anonymously and re-wrapped any number of times, arrives as `t`. -/
inductive Arrives (C : Crypto) (E : Env) (opts : UnpackOptions) : Str → UnpackMetadata → Message → UnpackMetadata → Prop
  | bare {t : Str} {md md' : UnpackMetadata} {m : Message} (h : ArrivesAuth C E opts.expectDecryptByAllKeys t md m md') :
      Arrives C E opts t md m md'
  | anon {t payload kid : Str} {md md' : UnpackMetadata} {m : Message} {kids : List Str} {alg : AnonCryptAlg} {p : KeyPair C}
      (ha : AnonOpens C t kids alg p.curve kid p.key payload) (hu : IsUtf8 payload)
      (hk : WeHave C E opts.expectDecryptByAllKeys kids kid p)
      (hn : opts.unwrapReWrappingForward = false ∨ ForwardInside C E payload (.ok none))
      (ho : ArrivesAuth C E opts.expectDecryptByAllKeys payload (md.seeAnon kids alg) m md') : Arrives C E opts t md m md'
  | rewrapped {t payload kid : Str} {md md' : UnpackMetadata} {m fm : Message} {kids : List Str} {alg : AnonCryptAlg} {p : KeyPair C}
      {next : Str} {v : Value} (ha : AnonOpens C t kids alg p.curve kid p.key payload) (hu : IsUtf8 payload)
      (hk : WeHave C E opts.expectDecryptByAllKeys kids kid p) (ho : opts.unwrapReWrappingForward = true)
      (hm : fromJson (dMessage C.f64) payload = .ok fm) (hf : IsForward fm next v) (hw : Ours E next (.ok true))
      (hi : Arrives C E opts v.print { md.seeAnon kids alg with reWrappedInForward := true } m md') : Arrives C E opts t md m md'

end DIDComm
