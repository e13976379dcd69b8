import Verif.Spec.Evidence
import Verif.Model.Prog

/-!
# What the library may ask its environment

A history is the list of questions with their answers.  The definitions say when a question was
answered with an error, and which questions an operation may ask after a given history.
-/

set_option autoImplicit false

namespace DIDComm

/-- The resolver answered this question with an error of kind `k`. -/
def Failed : Event → ErrorKind → Prop
  | ⟨.resolve _, a⟩, k => a = Except.error k
  | ⟨.findSecrets _, a⟩, k => a = Except.error k
  | ⟨.getSecret _, a⟩, k => a = Except.error k
  | ⟨.random, _⟩, _ => False

/-- A question to the secrets resolver. -/
def AsksSecrets : Query → Prop
  | .findSecrets _ => True
  | .getSecret _ => True
  | _ => False

/-- A question to one of the two resolvers. -/
def AsksResolver : Query → Prop
  | .random => False
  | _ => True

/-- In this history the resolver answered that the DID `d` has the document `doc`. -/
def Resolved (pre : List Event) (d : Str) (doc : DIDDoc) : Prop :=
  (⟨.resolve d, (.ok (some doc) : Except ErrorKind (Option DIDDoc))⟩ : Event) ∈ pre

/-- In this history `find_secrets` reported the key id. -/
def Reported (pre : List Event) (kid : Str) : Prop :=
  ∃ ks found, (⟨.findSecrets ks, (.ok found : Except ErrorKind (List Str))⟩ : Event) ∈ pre ∧ kid ∈ found

/-- `t` is the JSON text of an encrypted message whose header names the sender key `kid`. -/
def SenderKid (C : Crypto) (t kid : Str) : Prop :=
  ∃ j hdr apv, ReadsJwe C t j hdr (some kid) apv ∧ hdr.alg = .ecdh1pu

/-- The questions unpacking `msg` may ask after a history; see the comments of the cases. -/
inductive UnpackAsks (C : Crypto) (msg : Str) (pre : List Event) : Query → Prop
  /-- which of the recipient keys of an encrypted layer are ours -/
  | recipients {t : Str} {j : JWE} {hdr : JweHeader} {apu : Option Bytes} {apv : Bytes} (hw : Within C msg t)
      (hr : ReadsJwe C t j hdr apu apv) (ha : hdr.alg = .ecdhEs ∨ hdr.alg = .ecdh1pu) :
      UnpackAsks C msg pre (.findSecrets (j.recipients.map JweRecipient.kid))
  /-- the secret of a key that was reported -/
  | secret {kid : Str} (h : Reported pre kid) : UnpackAsks C msg pre (.getSecret kid)
  /-- the document of the sender of an encrypted layer -/
  | sender {t kid : Str} (hw : Within C msg t) (hs : SenderKid C t kid) (hf : HasFragment kid) :
      UnpackAsks C msg pre (.resolve (didOf kid))
  /-- the document of the signer -/
  | signer {t : Str} {sig : JwsSig} {pl : Str} (hw : Within C msg t) (hs : fromJson dJws t = .ok ⟨[sig], pl⟩)
      (hf : HasFragment sig.kid) : UnpackAsks C msg pre (.resolve (didOf sig.kid))
  /-- the document of the issuer of a `from_prior` -/
  | prior {t : Str} {m : Message} {jwt h rest : Str} {b : Bytes} {hdr : CompactHeader} (hw : Within C msg t)
      (hm : fromJson (dMessage C.f64) t = .ok m) (hj : m.fromPrior = some jwt) (hs : jwt = h ++ b!"." ++ rest)
      (hb : B64.decode h = some b) (hh : fromJson dCompactHeader b = .ok hdr) (hf : HasFragment hdr.kid) :
      UnpackAsks C msg pre (.resolve (didOf hdr.kid))
  /-- the document of the target of a forward message -/
  | target {t : Str} {m : Message} {next : Str} {v : Value} (hw : Within C msg t)
      (hm : fromJson (dMessage C.f64) t = .ok m) (hf : IsForward m next v) (hn : ¬ HasFragment next) :
      UnpackAsks C msg pre (.resolve next)
  /-- which of the key agreement keys of that target are ours -/
  | targetKeys {t : Str} {m : Message} {next : Str} {v : Value} {doc : DIDDoc} (hw : Within C msg t)
      (hm : fromJson (dMessage C.f64) t = .ok m) (hf : IsForward m next v) (hn : ¬ HasFragment next)
      (hd : Resolved pre next doc) : UnpackAsks C msg pre (.findSecrets doc.keyAgreement)
  /-- whether the key a forward message is for is ours -/
  | targetKey {t : Str} {m : Message} {next : Str} {v : Value} (hw : Within C msg t)
      (hm : fromJson (dMessage C.f64) t = .ok m) (hf : IsForward m next v) (hn : HasFragment next) :
      UnpackAsks C msg pre (.findSecrets [next])

/-- The questions about secrets that packing for the signer `signBy` and the sender `from_` may ask after a history;
questions to the DID resolver and random draws are free. -/
inductive PackAsks (signBy from_ : Option Str) (pre : List Event) : Query → Prop
  | resolve {d : Str} : PackAsks signBy from_ pre (.resolve d)
  | random : PackAsks signBy from_ pre .random
  /-- the secret of a key that was reported -/
  | secret {kid : Str} (h : Reported pre kid) : PackAsks signBy from_ pre (.getSecret kid)
  /-- which of the signer's authentication keys are ours -/
  | signer {s : Str} {doc : DIDDoc} {kids : List Str} (hs : signBy = some s) (hd : Resolved pre (didOf s) doc)
      (hk : ∀ k ∈ kids, k ∈ meantBy s doc.authentication) : PackAsks signBy from_ pre (.findSecrets kids)
  /-- which of the sender's key agreement keys are ours -/
  | sender {s : Str} {doc : DIDDoc} {kids : List Str} (hs : from_ = some s) (hd : Resolved pre (didOf s) doc)
      (hk : ∀ k ∈ kids, k ∈ meantBy s doc.keyAgreement) : PackAsks signBy from_ pre (.findSecrets kids)

end DIDComm
