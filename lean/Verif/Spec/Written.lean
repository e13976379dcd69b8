import Verif.Spec.Layout
import Verif.Model.JsSystem
import Verif.Spec.Grammar

/-!
# When two texts say the same, however they are written

`Alike` of `Verif.Spec.Layout` tells a string with an escape from the same string without; here they are the same.
-/

set_option autoImplicit false

namespace DIDComm

mutual
/-- The content, with all strings taken as if they were written without escapes. -/
def Tree.unescaped : Tree → Tree
  | .null => .null
  | .bool b => .bool b
  | .num n => .num n
  | .str k => .str ⟨false, k.val⟩
  | .arr l => .arr (unescapedAll l)
  | .obj m => .obj (unescapedMembers m)
/-- Every element. -/
def unescapedAll : List Tree → List Tree
  | [] => []
  | t :: l => t.unescaped :: unescapedAll l
/-- The content of every member. -/
def unescapedMembers : List (StrTok × Tree) → List (StrTok × Tree)
  | [] => []
  | (k, t) :: m => (k, t.unescaped) :: unescapedMembers m
end

/-- The contents differ only in the order of the members of their objects, none of which has two members of one name, and in how
names and strings are escaped. -/
def SameWriting (t t' : Tree) : Prop := Alike t.unescaped t'.unescaped

/-- Two JSON texts that differ in that, and in white space. -/
def SameSaid (s s' : Str) : Prop := ∃ t t', JsonText t s ∧ JsonText t' s' ∧ SameWriting t t'

/-- A promise that became the same: the same was thrown, or objects whose JSON says the same. -/
inductive SameObject : Except Thrown JsValue → Except Thrown JsValue → Prop
  | thrown (t : Thrown) : SameObject (.error t) (.error t)
  | value {v v' : JsValue} (h : SameSaid v.json v'.json) : SameObject (.ok v) (.ok v')

/-- JavaScript resolvers that say the same, each in its own writing.  Of what is found of secrets only the elements are looked at. -/
structure SameResolvers (J J' : JsEnv) : Prop where
  resolve : ∀ d, SameObject (J.resolve d) (J'.resolve d)
  getSecret : ∀ k, SameObject (J.getSecret k) (J'.getSecret k)
  findSecrets : ∀ ks, (J'.findSecrets ks).map JsValue.elements = (J.findSecrets ks).map JsValue.elements

end DIDComm
