import Verif.Spec.History
import Verif.Spec.Authentic

/-!
# Histories of calls: envelopes of a named sender

In an envelope of a named sender the content key is wrapped, for each receiver, under a key derived from the sender's key, the receiver's
key and the tag of the content.
-/

set_option autoImplicit false

namespace DIDComm

open Classical in
/-- The primitives of `C`, but this content key cannot be wrapped under this key. -/
noncomputable def Crypto.notWrapping (C : Crypto) (kw cek : Bytes) : Primitives C.Key :=
  { C.primitives with wrap := fun kw' cek' => if kw' = kw ∧ cek' = cek then none else C.wrap kw' cek' }

open Classical in
/-- The primitives of `C`, but nothing is unwrapped to this content key under this key. -/
noncomputable def Crypto.notUnwrapping (C : Crypto) (kw cek : Bytes) : Primitives C.Key :=
  { C.primitives with
    unwrap := fun ce kw' ek => if kw' = kw ∧ C.unwrap ce kw' ek = some cek then none else C.unwrap ce kw' ek }

/-- The call has wrapped this content key under this key: it could not have happened if that were impossible. -/
def LibStep.Wrapped (C : Crypto) (s : LibStep) (kw cek : Bytes) : Prop :=
  s.call.Happens C s.tr ∧ ¬ s.call.Happens (C.replaced (C.notWrapping kw cek)) s.tr

/-- The call has relied on this content key being wrapped under this key: it could not have happened if nothing were unwrapped to it. -/
def LibStep.Unwrapped (C : Crypto) (s : LibStep) (kw cek : Bytes) : Prop :=
  s.call.Happens C s.tr ∧ ¬ s.call.Happens (C.replaced (C.notUnwrapping kw cek)) s.tr

/-- Nobody else wraps content keys under the keys that a receiver derives for the honest senders: a content key that a call relies on was
wrapped, under the same key, by an earlier call.  `honest c spub rpriv` says that the sender who has the public key `spub` and the receiver who
has the secret key `rpriv` use these keys with this library only. -/
def Unshared (C : Crypto) (honest : Curve → C.Key → C.Key → Prop) (H : List LibStep) : Prop :=
  ∀ (i : Nat) (s : LibStep) (c : Curve) (epk spub rpriv : C.Key) (apu apv tag kw cek : Bytes), H[i]? = some s → honest c spub rpriv →
    C.ecdh1pu c epk spub rpriv b!"ECDH-1PU+A256KW" apu apv tag true = some kw → s.Unwrapped C kw cek →
    ∃ (j : Nat) (s' : LibStep), j < i ∧ H[j]? = some s' ∧ s'.Wrapped C kw cek

/-- Derived keys are as different as what they are derived from: a key derived without a sender is never one derived with a sender; and the
keys that a sender and a receiver derive are the same only for the two halves of the same keys, the same name of the sender's key and the same
tag.  `pairs c s p` says that `s` is the secret half of `p`. -/
structure Separates (C : Crypto) (pairs : Curve → C.Key → C.Key → Prop) : Prop where
  anonymous : ∀ c e r alg apu apv receive c' e' s' r' alg' apu' apv' tag' receive' kw kw',
    C.ecdhEs c e r alg apu apv receive = some kw → C.ecdh1pu c' e' s' r' alg' apu' apv' tag' receive' = some kw' → kw ≠ kw'
  sender : ∀ c e s r alg apu apv tag c' e' s' r' alg' apu' apv' tag' kw,
    C.ecdh1pu c e s r alg apu apv tag false = some kw → C.ecdh1pu c' e' s' r' alg' apu' apv' tag' true = some kw →
    c' = c ∧ pairs c s s' ∧ pairs c r' r ∧ apu' = apu ∧ tag' = tag

/-- The tag commits to the content, even for those who know the content key: nothing else is opened with the tag of an encryption. -/
def TagCommits (C : Crypto) : Prop :=
  ∀ cek iv aad content ct tag iv' aad' ct' content', C.aeadEnc .a256cbcHs512 cek iv aad content = some (ct, tag) →
    C.aeadDec .a256cbcHs512 cek iv' aad' (ct' ++ tag) = some content' → content' = content

/-- The call has encrypted this message as the owner of the sender key `kid`. -/
def LibCall.SendsAs (m : Message) (kid : Str) : LibCall → Prop
  | .packEncrypted m' _ from_ _ _ _ md => m' = m ∧ from_ ≠ none ∧ md.fromKid = some kid
  | _ => False

end DIDComm
