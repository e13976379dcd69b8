import Verif.Spec.OutcomeUnpack

/-!
# The questions of unpacking

Which questions unpacking a text puts to the resolvers, and in which order, when the resolvers answer as `E` does.  The relations
are about lists of questions; what a layer contains, and whether it opens, is said by `Verif.Spec.OutcomeUnpack`.
-/

set_option autoImplicit false

namespace DIDComm

variable {α : Type}

/-- The text is an envelope of an anonymous sender whose header fits its recipients. -/
def AnonEnvelope (C : Crypto) (t : Str) (j : JWE) (hdr : JweHeader) (apu : Option Bytes) (apv : Bytes) : Prop :=
  fromJson dJwe t = .ok j ∧ JweHeaderRead C j (.ok (hdr, apu, apv)) ∧ hdr.alg = .ecdhEs ∧ HeaderFits C j hdr apu apv

/-- The text is an envelope whose header fits its recipients and names the sender's key `kid`. -/
def AuthEnvelope (C : Crypto) (t : Str) (j : JWE) (hdr : JweHeader) (kid : Str) (apv : Bytes) : Prop :=
  fromJson dJwe t = .ok j ∧ JweHeaderRead C j (.ok (hdr, some kid, apv)) ∧ hdr.alg = .ecdh1pu ∧ HeaderFits C j hdr (some kid) apv ∧
    HasFragment kid

/-- The text is a message with exactly one signature, said to be by the key `kid`, with a header that can be read. -/
def NamesSigner (t kid : Str) : Prop :=
  ∃ s pl hdr, fromJson dJws t = .ok ⟨[s], pl⟩ ∧ HeaderText dJwsHeader s.protected_ (.ok hdr) ∧ s.kid = kid ∧ HasFragment kid

/-- The text is a plaintext message with a `from_prior` said to be by the key `kid`. -/
def NamesIssuer (C : Crypto) (t kid : Str) : Prop :=
  ∃ m jwt h pl sig hdr, fromJson (dMessage C.f64) t = .ok m ∧ m.typ = b!"application/didcomm-plain+json" ∧ m.fromPrior = some jwt ∧
    JwtForm jwt h pl sig hdr ∧ hdr.kid = kid

/-- The text is a forward message to `next`. -/
def ForwardTo (C : Crypto) (t next : Str) : Prop := ∃ m v, fromJson (dMessage C.f64) t = .ok m ∧ IsForward m next v

/-- Trying keys of ours one after the other: the secret of the first is asked for; that of the next one only if all keys have to
work and this one did. -/
inductive KeyQuestions (C : Crypto) (E : Env) (all : Bool) (tried : Str → KeyPair C → Res α → Prop) : List Str → List Query → Prop
  | none : KeyQuestions C E all tried [] []
  | stop {kid : Str} {rest : List Str} (h : all = false ∨ ∀ p a, OurSecret C E kid (.ok p) → ¬ tried kid p (.ok a)) :
      KeyQuestions C E all tried (kid :: rest) [.getSecret kid]
  | next {kid : Str} {rest : List Str} {p : KeyPair C} {a : α} {qs : List Query} (hall : all = true) (hs : OurSecret C E kid (.ok p))
      (ht : tried kid p (.ok a)) (hq : KeyQuestions C E all tried rest qs) : KeyQuestions C E all tried (kid :: rest) (.getSecret kid :: qs)

/-- Opening an envelope: which of its recipients are ours, if they are keys of one DID; then the secrets. -/
inductive OpenQuestions (C : Crypto) (E : Env) (all : Bool) (tried : Str → KeyPair C → Res α → Prop) (kids : List Str) : List Query → Prop
  | manyDids (h : ¬ OneDid kids) : OpenQuestions C E all tried kids []
  | failed {k : ErrorKind} (h : OneDid kids) (hf : E.findSecrets kids = .error k) : OpenQuestions C E all tried kids [.findSecrets kids]
  | found {found : List Str} {qs : List Query} (h : OneDid kids) (hf : E.findSecrets kids = .ok found)
      (hq : KeyQuestions C E all tried found qs) : OpenQuestions C E all tried kids (.findSecrets kids :: qs)

/-- The questions about an anonymous envelope. -/
inductive AnonQuestions (C : Crypto) (E : Env) (all : Bool) (t : Str) : List Query → Prop
  | none (h : ∀ j hdr apu apv, ¬ AnonEnvelope C t j hdr apu apv) : AnonQuestions C E all t []
  | envelope {j : JWE} {hdr : JweHeader} {apu : Option Bytes} {apv : Bytes} {qs : List Query} (h : AnonEnvelope C t j hdr apu apv)
      (hq : OpenQuestions C E all (TriedAnon C j hdr apu apv) (kidsOf j) qs) : AnonQuestions C E all t qs

/-- The questions about an envelope of a named sender: first the sender's document. -/
inductive AuthQuestions (C : Crypto) (E : Env) (all : Bool) (t : Str) : List Query → Prop
  | none (h : ∀ j hdr kid apv, ¬ AuthEnvelope C t j hdr kid apv) : AuthQuestions C E all t []
  | noKey {j : JWE} {hdr : JweHeader} {kid : Str} {apv : Bytes} (h : AuthEnvelope C t j hdr kid apv)
      (hk : ∀ s, ¬ SendersKey C E kid (.ok s)) : AuthQuestions C E all t [.resolve (didOf kid)]
  | envelope {j : JWE} {hdr : JweHeader} {kid : Str} {apv : Bytes} {s : KeyPair C} {qs : List Query} (h : AuthEnvelope C t j hdr kid apv)
      (hk : SendersKey C E kid (.ok s)) (hq : OpenQuestions C E all (TriedAuth C j hdr apv kid s) (kidsOf j) qs) :
      AuthQuestions C E all t (.resolve (didOf kid) :: qs)

/-- The question about a signed message: the signer's document. -/
inductive SignQuestions (t : Str) : List Query → Prop
  | none (h : ∀ kid, ¬ NamesSigner t kid) : SignQuestions t []
  | signer {kid : Str} (h : NamesSigner t kid) : SignQuestions t [.resolve (didOf kid)]

/-- The question about a plaintext message: the document of the issuer of its `from_prior`. -/
inductive PlainQuestions (C : Crypto) (t : Str) : List Query → Prop
  | none (h : ∀ kid, ¬ NamesIssuer C t kid) : PlainQuestions C t []
  | prior {kid : Str} (h : NamesIssuer C t kid) : PlainQuestions C t [.resolve (didOf kid)]

/-- The questions about what an anonymous envelope contained, if it is a forward message: is its target ours? -/
inductive ForwardQuestions (C : Crypto) (E : Env) (t : Str) : List Query → Prop
  | none (h : ∀ next, ¬ ForwardTo C t next) : ForwardQuestions C E t []
  | key {next : Str} (h : ForwardTo C t next) (hf : HasFragment next) : ForwardQuestions C E t [.findSecrets [next]]
  | unresolved {next : Str} (h : ForwardTo C t next) (hf : ¬ HasFragment next) (hd : ∀ doc, ¬ Document E next (.ok doc)) :
      ForwardQuestions C E t [.resolve next]
  | did {next : Str} {doc : DIDDoc} (h : ForwardTo C t next) (hf : ¬ HasFragment next) (hd : Document E next (.ok doc)) :
      ForwardQuestions C E t [.resolve next, .findSecrets doc.keyAgreement]

/-- The questions while anonymous envelopes and forward messages to ourselves are removed. -/
inductive UnwrapQuestions (C : Crypto) (E : Env) (opts : UnpackOptions) : Str → List Query → Prop
  | closed {t : Str} {qs : List Query} (h : ∀ x, ¬ AnonLayer C E opts.expectDecryptByAllKeys t (.ok (some x)))
      (hq : AnonQuestions C E opts.expectDecryptByAllKeys t qs) : UnwrapQuestions C E opts t qs
  | opened {t u : Str} {kids : List Str} {alg : AnonCryptAlg} {qs : List Query}
      (h : AnonLayer C E opts.expectDecryptByAllKeys t (.ok (some (kids, alg, u)))) (ho : opts.unwrapReWrappingForward = false)
      (hq : AnonQuestions C E opts.expectDecryptByAllKeys t qs) : UnwrapQuestions C E opts t qs
  | last {t u : Str} {kids : List Str} {alg : AnonCryptAlg} {qs qf : List Query}
      (h : AnonLayer C E opts.expectDecryptByAllKeys t (.ok (some (kids, alg, u)))) (ho : opts.unwrapReWrappingForward = true)
      (hf : ∀ w, ¬ ForwardInside C E u (.ok (some w))) (hq : AnonQuestions C E opts.expectDecryptByAllKeys t qs)
      (hqf : ForwardQuestions C E u qf) : UnwrapQuestions C E opts t (qs ++ qf)
  | again {t u w : Str} {kids : List Str} {alg : AnonCryptAlg} {qs qf qr : List Query}
      (h : AnonLayer C E opts.expectDecryptByAllKeys t (.ok (some (kids, alg, u)))) (ho : opts.unwrapReWrappingForward = true)
      (hf : ForwardInside C E u (.ok (some w))) (hq : AnonQuestions C E opts.expectDecryptByAllKeys t qs)
      (hqf : ForwardQuestions C E u qf) (hr : UnwrapQuestions C E opts w qr) : UnwrapQuestions C E opts t (qs ++ qf ++ qr)

/-- The questions of unpacking: about anonymous envelopes and forwards, then about an envelope of a named sender, then about a
signature, then about the message; a layer that fails is the last. -/
inductive UnpackQuestions (C : Crypto) (E : Env) (opts : UnpackOptions) (t : Str) : List Query → Prop
  | unwrapping {qs : List Query} (h : ∀ x, ¬ Unwraps C E opts t {} (.ok x)) (hq : UnwrapQuestions C E opts t qs) : UnpackQuestions C E opts t qs
  | auth {u : Str} {md : UnpackMetadata} {qs qa : List Query} (h : Unwraps C E opts t {} (.ok (u, md)))
      (ha : ∀ a, ¬ AuthLayer C E opts.expectDecryptByAllKeys u (.ok a)) (hq : UnwrapQuestions C E opts t qs)
      (hqa : AuthQuestions C E opts.expectDecryptByAllKeys u qa) : UnpackQuestions C E opts t (qs ++ qa)
  | sign {u : Str} {md : UnpackMetadata} {a : Option (List Str × Str × AuthCryptAlg × Str)} {qs qa qg : List Query}
      (h : Unwraps C E opts t {} (.ok (u, md))) (ha : AuthLayer C E opts.expectDecryptByAllKeys u (.ok a))
      (hs : ∀ s, ¬ SignLayer C E (pastAuth u md a).1 (.ok s)) (hq : UnwrapQuestions C E opts t qs)
      (hqa : AuthQuestions C E opts.expectDecryptByAllKeys u qa) (hqg : SignQuestions (pastAuth u md a).1 qg) :
      UnpackQuestions C E opts t (qs ++ qa ++ qg)
  | message {u : Str} {md : UnpackMetadata} {a : Option (List Str × Str × AuthCryptAlg × Str)} {s : Option (Str × SignAlg × Str)}
      {qs qa qg qp : List Query} (h : Unwraps C E opts t {} (.ok (u, md))) (ha : AuthLayer C E opts.expectDecryptByAllKeys u (.ok a))
      (hs : SignLayer C E (pastAuth u md a).1 (.ok s)) (hq : UnwrapQuestions C E opts t qs)
      (hqa : AuthQuestions C E opts.expectDecryptByAllKeys u qa) (hqg : SignQuestions (pastAuth u md a).1 qg)
      (hqp : PlainQuestions C (pastSign (pastAuth u md a).1 (pastAuth u md a).2 s).1 qp) :
      UnpackQuestions C E opts t (qs ++ qa ++ qg ++ qp)

end DIDComm
