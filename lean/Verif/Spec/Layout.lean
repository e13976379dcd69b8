import Verif.Model.Unpack

/-!
# When two texts differ only in how they are written

Two contents of JSON texts are alike when they differ only in the order of the members of their objects, none of which has two
members of one name, and in how the names are written.  White space is not part of the content of a text.
-/

set_option autoImplicit false

namespace DIDComm

mutual
/-- The contents are the same but for the order of members and the spelling of names. -/
inductive Alike : Tree → Tree → Prop
  | null : Alike .null .null
  | bool (b : Bool) : Alike (.bool b) (.bool b)
  | num (n : NumTok) : Alike (.num n) (.num n)
  | str (k : StrTok) : Alike (.str k) (.str k)
  | arr {l l' : List Tree} (h : AlikeAll l l') : Alike (.arr l) (.arr l')
  | obj {m m' m'' : List (StrTok × Tree)} (hd : (m'.map fun p => p.1.val).Nodup) (h : AlikeMembers m m') (hp : m'.Perm m'') :
      Alike (.obj m) (.obj m'')
/-- The elements are alike, one by one. -/
inductive AlikeAll : List Tree → List Tree → Prop
  | nil : AlikeAll [] []
  | cons {t t' : Tree} {l l' : List Tree} (h : Alike t t') (hr : AlikeAll l l') : AlikeAll (t :: l) (t' :: l')
/-- The members have the same names and their contents are alike, one by one. -/
inductive AlikeMembers : List (StrTok × Tree) → List (StrTok × Tree) → Prop
  | nil : AlikeMembers [] []
  | cons {k k' : StrTok} {t t' : Tree} {m m' : List (StrTok × Tree)} (hk : k.val = k'.val) (h : Alike t t')
      (hr : AlikeMembers m m') : AlikeMembers ((k, t) :: m) ((k', t') :: m')
end

/-- The same message; the extra headers, which are a map, may be listed in another order. -/
def SameMessage (m m' : Message) : Prop := ∃ l, m.extraHeaders.Perm l ∧ m' = { m with extraHeaders := l }

/-- The same error, or messages that are the same in the sense of `M` with the same metadata; but where the metadata of one
quote the text `s` as the signed message, those of the other quote `s'`. -/
inductive SameOutcome (M : Message → Message → Prop) (s s' : Str) :
    Res (Message × UnpackMetadata) → Res (Message × UnpackMetadata) → Prop
  | error (e : Err) : SameOutcome M s s' (.error e) (.error e)
  | ok {m m' : Message} {md md' : UnpackMetadata} (hm : M m m')
      (h : md' = md ∨ (md.signedMessage = some s ∧ md' = { md with signedMessage := some s' })) :
      SameOutcome M s s' (.ok (m, md)) (.ok (m', md'))

end DIDComm
