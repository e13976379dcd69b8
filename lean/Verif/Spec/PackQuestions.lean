import Verif.Spec.Outcome

/-!
# The questions of packing

Which questions packing puts to the resolvers, and in which order, when the resolvers answer as `E` does.  Draws from the random
generator are not questions to a resolver.  How a step ends is said by `Verif.Spec.Outcome`; where a step may end in two ways,
because a cryptographic function may refuse, the relations here are about the outcome and the questions together.
-/

set_option autoImplicit false

namespace DIDComm

/-- A question to a resolver. -/
def Query.toResolver : Query → Bool
  | .random => false
  | _ => true

/-- The questions put to the resolvers in a run. -/
def questionsOf (tr : List Event) : List Query := (tr.map Event.query).filter Query.toResolver

/-- Looking for a key of our own among `kids`: which of them are there; then the secret of the first of those. -/
inductive OwnKeyQuestions (E : Env) (kids : List Str) : List Query → Prop
  | none (h : ∀ kid rest, E.findSecrets kids ≠ .ok (kid :: rest)) : OwnKeyQuestions E kids [.findSecrets kids]
  | first {kid : Str} {rest : List Str} (h : E.findSecrets kids = .ok (kid :: rest)) :
      OwnKeyQuestions E kids [.findSecrets kids, .getSecret kid]

/-- Reading a `from_prior`: the document of its issuer. -/
inductive PriorReadQuestions (jwt : Str) : List Query → Prop
  | none (h : ∀ h pl sig hdr, ¬ JwtForm jwt h pl sig hdr) : PriorReadQuestions jwt []
  | issuer {h pl sig : Str} {hdr : CompactHeader} (hf : JwtForm jwt h pl sig hdr) : PriorReadQuestions jwt [.resolve (didOf hdr.kid)]

/-- Issuing a `from_prior`: the document of the issuer; then a key of it. -/
inductive PriorIssueQuestions (E : Env) (f : FromPrior) (issuerKid : Option Str) : List Query → Prop
  | bad (h : ¬ (TwoDids f ∧ ∀ k, issuerKid = some k → HasFragment k ∧ didOf k = f.iss)) : PriorIssueQuestions E f issuerKid []
  | notListed (h : TwoDids f) (hk : ∀ k, issuerKid = some k → HasFragment k ∧ didOf k = f.iss)
      (hd : ∀ doc, Document E f.iss (.ok doc) → ∃ k, issuerKid = some k ∧ k ∉ doc.authentication) :
      PriorIssueQuestions E f issuerKid [.resolve f.iss]
  | keys {doc : DIDDoc} {qs : List Query} (h : TwoDids f) (hk : ∀ k, issuerKid = some k → HasFragment k ∧ didOf k = f.iss)
      (hd : Document E f.iss (.ok doc)) (hl : ∀ k, issuerKid = some k → k ∈ doc.authentication)
      (hq : OwnKeyQuestions E (issuerKid.elim doc.authentication (fun k => [k])) qs) :
      PriorIssueQuestions E f issuerKid (.resolve f.iss :: qs)

/-- Packing a plaintext message: its `from_prior` is read. -/
inductive PlaintextQuestions (m : Message) : List Query → Prop
  | none (h : m.fromPrior = none) : PlaintextQuestions m []
  | prior {jwt : Str} {qs : List Query} (h : m.fromPrior = some jwt) (hq : PriorReadQuestions jwt qs) : PlaintextQuestions m qs

/-- Signing a message: the document of the signer, a key of it, and, if there is one, what is asked about the plaintext. -/
inductive SignerQuestions (C : Crypto) (E : Env) (m : Message) (signBy : Str) : List Query → Prop
  | notDid (h : ¬ LooksLikeDid signBy) : SignerQuestions C E m signBy []
  | notListed (h : LooksLikeDid signBy)
      (hd : ∀ doc, Document E (didOf signBy) (.ok doc) → HasFragment signBy ∧ signBy ∉ doc.authentication) :
      SignerQuestions C E m signBy [.resolve (didOf signBy)]
  | noKey {doc : DIDDoc} {qs : List Query} (h : LooksLikeDid signBy) (hd : Document E (didOf signBy) (.ok doc))
      (hl : HasFragment signBy → signBy ∈ doc.authentication) (ho : ∀ x, ¬ OwnKey C E (signersMeant signBy doc) (.ok x))
      (hq : OwnKeyQuestions E (signersMeant signBy doc) qs) : SignerQuestions C E m signBy (.resolve (didOf signBy) :: qs)
  | key {doc : DIDDoc} {x : Str × KeyPair C} {qs qm : List Query} (h : LooksLikeDid signBy) (hd : Document E (didOf signBy) (.ok doc))
      (hl : HasFragment signBy → signBy ∈ doc.authentication) (ho : OwnKey C E (signersMeant signBy doc) (.ok x))
      (hq : OwnKeyQuestions E (signersMeant signBy doc) qs) (hm : PlaintextQuestions m qm) :
      SignerQuestions C E m signBy (.resolve (didOf signBy) :: (qs ++ qm))

/-- Of the sender's keys `found`, `kid` is the one to use for the recipient. -/
def Chooses (fromDoc toDoc : DIDDoc) (to : Str) (found : List Str) (kid : Str) : Prop :=
  (∀ k ∈ found, methodOf fromDoc k ≠ none) ∧ (∀ k ∈ meantBy to toDoc.keyAgreement, methodOf toDoc k ≠ none) ∧
    found.find? (fun k => Compatible fromDoc toDoc to k) = some kid

/-- Authenticated encryption: the documents of the recipient and of the sender, which of the sender's keys are there, and the secret of
the one that is used. -/
inductive AuthEncryptQuestions (E : Env) (to from_ : Str) : List Query → Prop
  | noRecipient (h : ∀ doc, ¬ Document E (didOf to) (.ok doc)) : AuthEncryptQuestions E to from_ [.resolve (didOf to)]
  | noSender {toDoc : DIDDoc} (h : Document E (didOf to) (.ok toDoc))
      (hf : ∀ doc, Document E (didOf from_) (.ok doc) → meantBy from_ doc.keyAgreement = []) :
      AuthEncryptQuestions E to from_ [.resolve (didOf to), .resolve (didOf from_)]
  | noKey {toDoc fromDoc : DIDDoc} (h : Document E (didOf to) (.ok toDoc)) (hf : Document E (didOf from_) (.ok fromDoc))
      (hl : meantBy from_ fromDoc.keyAgreement ≠ [])
      (hs : ∀ found kid, E.findSecrets (meantBy from_ fromDoc.keyAgreement) = .ok found → ¬ Chooses fromDoc toDoc to found kid) :
      AuthEncryptQuestions E to from_ [.resolve (didOf to), .resolve (didOf from_), .findSecrets (meantBy from_ fromDoc.keyAgreement)]
  | key {toDoc fromDoc : DIDDoc} {found : List Str} {kid : Str} (h : Document E (didOf to) (.ok toDoc))
      (hf : Document E (didOf from_) (.ok fromDoc)) (hl : meantBy from_ fromDoc.keyAgreement ≠ [])
      (hs : E.findSecrets (meantBy from_ fromDoc.keyAgreement) = .ok found) (hc : Chooses fromDoc toDoc to found kid) :
      AuthEncryptQuestions E to from_
        [.resolve (didOf to), .resolve (didOf from_), .findSecrets (meantBy from_ fromDoc.keyAgreement), .getSecret kid]

/-- Looking for the route: the document of the recipient; then that of the mediator, if the endpoint is a DID. -/
inductive RouteQuestions (E : Env) (to : Str) (serviceId : Option Str) : List Query → Prop
  | recipient (h : ∀ doc s, Document E (didOf to) (.ok doc) → Selects doc.service serviceId (.ok (some s)) → ¬ LooksLikeDid s.2.uri) :
      RouteQuestions E to serviceId [.resolve (didOf to)]
  | mediator {doc : DIDDoc} {s : Str × DIDCommMessagingService} (h : Document E (didOf to) (.ok doc))
      (hs : Selects doc.service serviceId (.ok (some s))) (hd : LooksLikeDid s.2.uri) :
      RouteQuestions E to serviceId [.resolve (didOf to), .resolve s.2.uri]

/-- Wrapping for the keys on the way: the document of each, until one fails. -/
inductive WrapQuestions (C : Crypto) (E : Env) (alg : AnonCryptAlg) : List Str → Res Unit → List Query → Prop
  | done : WrapQuestions C E alg [] (.ok ()) []
  | failed {k : Str} {ks : List Str} {e : Err} (h : Anoncrypted C E k alg (.error e)) :
      WrapQuestions C E alg (k :: ks) (.error e) [.resolve (didOf k)]
  | step {k : Str} {ks kids : List Str} {r : Res Unit} {qs : List Query} (h : Anoncrypted C E k alg (.ok kids))
      (hq : WrapQuestions C E alg ks r qs) : WrapQuestions C E alg (k :: ks) r (.resolve (didOf k) :: qs)

/-- `wrap_in_forward`: nothing is asked unless there are keys and the text is JSON. -/
inductive ForwardWrapQuestions (C : Crypto) (E : Env) (msg : Str) (keys : List Str) (alg : AnonCryptAlg) : Res Unit → List Query → Prop
  | noKeys (h : keys = []) : ForwardWrapQuestions C E msg keys alg (.error .panic) []
  | notJson (h : keys ≠ []) (hj : ∀ v, fromJson (toValue C.f64) msg ≠ .ok v) :
      ForwardWrapQuestions C E msg keys alg (.error (.kind .malformed)) []
  | json {v : Value} {r : Res Unit} {qs : List Query} (h : keys ≠ []) (hj : fromJson (toValue C.f64) msg = .ok v)
      (hq : WrapQuestions C E alg keys.reverse r qs) : ForwardWrapQuestions C E msg keys alg r qs

/-- Forwarding a packed message: the route; then the keys on it, the last stop first. -/
inductive ForwardingQuestions (C : Crypto) (E : Env) (to : Str) (opts : PackEncryptedOptions) :
    Res (Option MessagingServiceMetadata) → List Query → Prop
  | off (h : opts.forward = false) : ForwardingQuestions C E to opts (.ok none) []
  | noRoute {e : Err} {qs : List Query} (h : opts.forward = true) (hr : Routed E to opts.messagingService (.error e))
      (hq : RouteQuestions E to opts.messagingService qs) : ForwardingQuestions C E to opts (.error e) qs
  | notNeeded {chain : List (Str × DIDCommMessagingService)} {qs : List Query} (h : opts.forward = true)
      (hr : Routed E to opts.messagingService (.ok chain)) (hk : routeOf chain = []) (hq : RouteQuestions E to opts.messagingService qs) :
      ForwardingQuestions C E to opts (.ok none) qs
  | wrapped {chain : List (Str × DIDCommMessagingService)} {first last : Str × DIDCommMessagingService} {r : Res Unit}
      {qs qw : List Query} (h : opts.forward = true) (hr : Routed E to opts.messagingService (.ok chain)) (hk : routeOf chain ≠ [])
      (h1 : chain.head? = some first) (h2 : chain.getLast? = some last) (hq : RouteQuestions E to opts.messagingService qs)
      (hw : WrapQuestions C E opts.encAlgAnon (routeOf chain).reverse r qw) :
      ForwardingQuestions C E to opts (r.map fun _ => some ⟨last.1, first.2.uri⟩) (qs ++ qw)

/-- The message inside: signed or plaintext. -/
inductive InnerQuestions (C : Crypto) (E : Env) (m : Message) : Option Str → List Query → Prop
  | plain {qs : List Query} (h : PlaintextQuestions m qs) : InnerQuestions C E m none qs
  | signed {signBy : Str} {qs : List Query} (h : SignerQuestions C E m signBy qs) : InnerQuestions C E m (some signBy) qs

/-- The encryption: anonymous, for which only the document of the recipient is needed, or authenticated. -/
inductive CryptQuestions (E : Env) (to : Str) : Option Str → List Query → Prop
  | anon : CryptQuestions E to none [.resolve (didOf to)]
  | auth {from_ : Str} {qs : List Query} (h : AuthEncryptQuestions E to from_ qs) : CryptQuestions E to (some from_) qs

/-- Packing an encrypted message: the questions of the message inside, of the encryption and of the forwarding; a step that fails is
the last. -/
inductive PackQuestions (C : Crypto) (E : Env) (m : Message) (to : Str) (from_ signBy : Option Str) (opts : PackEncryptedOptions) :
    Res PackEncryptedMetadata → List Query → Prop
  | illegal (h : IllegalArguments m to from_ signBy) : PackQuestions C E m to from_ signBy opts (.error (.kind .illegalArgument)) []
  | inner {e : Err} {qi : List Query} (h : ¬ IllegalArguments m to from_ signBy) (hi : InnerPacked C E m signBy (.error e))
      (hq : InnerQuestions C E m signBy qi) : PackQuestions C E m to from_ signBy opts (.error e) qi
  | crypt {sk : Option Str} {e : Err} {qi qc : List Query} (h : ¬ IllegalArguments m to from_ signBy)
      (hi : InnerPacked C E m signBy (.ok sk)) (hc : Crypted C E to opts from_ (.error e)) (hq : InnerQuestions C E m signBy qi)
      (hqc : CryptQuestions E to from_ qc) : PackQuestions C E m to from_ signBy opts (.error e) (qi ++ qc)
  | forward {sk fk : Option Str} {tk : List Str} {svc : Res (Option MessagingServiceMetadata)} {qi qc qf : List Query}
      (h : ¬ IllegalArguments m to from_ signBy) (hi : InnerPacked C E m signBy (.ok sk))
      (hc : Crypted C E to opts from_ (.ok (fk, tk))) (hq : InnerQuestions C E m signBy qi) (hqc : CryptQuestions E to from_ qc)
      (hf : ForwardingQuestions C E to opts svc qf) :
      PackQuestions C E m to from_ signBy opts (svc.map fun svc => ⟨svc, fk, sk, tk⟩) (qi ++ qc ++ qf)

end DIDComm
