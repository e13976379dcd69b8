import Verif.Spec.Authentic
import Verif.Spec.Env
import Verif.Model.Routing

/-!
# Whom a message was packed for

What a sender who uses this library did before a message arrives, and ideal authenticated encryption that says so.
-/

set_option autoImplicit false

namespace DIDComm

/-- An encryption that has succeeded: what was packed, for and from whom, by an application with the environment `env`. -/
structure PackRun (C : Crypto) where
  env : Env
  msg : Message
  to : Str
  from_ : Option Str
  signBy : Option Str
  opts : PackEncryptedOptions
  trace : List Event
  out : Str
  md : PackEncryptedMetadata
  answers : Answers env trace
  run : Runs (packEncrypted C msg to from_ signBy opts) trace (.ok (out, md))

/-- Ideal authenticated encryption between two owners who use their keys with this library only: whatever can be opened with the key
derived from the sender's key, called `k`, the receiver's key, the list `kids` of key ids, an ephemeral key and a tag was encrypted by
one of the operations `past`, with the sender key id `k` and for `kids`.  (The id and the hash of the list are inputs of the derivation.) -/
def OnlyPackedFor (C : Crypto) (past : PackRun C → Prop) (c : Curve) (skey rkey : C.Key) (k : Str) (kids : List Str) : Prop :=
  ∀ epk tag kw ek cek iv aad ct payload,
    C.ecdh1pu c epk skey rkey b!"ECDH-1PU+A256KW" k (C.sha256 (joinedKids kids)) tag true = some kw →
    C.unwrap .a256cbcHs512 kw ek = some cek → C.aeadDec .a256cbcHs512 cek iv aad (ct ++ tag) = some payload →
    ∃ p, past p ∧ Packs p.msg payload ∧ p.md.fromKid = some k ∧ ∀ kid ∈ kids, kid ∈ p.md.toKids

end DIDComm
