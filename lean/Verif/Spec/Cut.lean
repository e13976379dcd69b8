import Verif.Spec.Reading

/-!
# Numbers that were cut off

A text that ends inside a number ends with a shorter number, and the library reads that one before it notices that the text
has ended.  Integers can only become smaller.  A number with an exponent can lose its exponent and leave the range of doubles.
-/

set_option autoImplicit false

namespace DIDComm

/-- The numbers of a value, at any depth. -/
inductive NumIn : NumTok → Tree → Prop
  | here (n : NumTok) : NumIn n (.num n)
  | elem {n : NumTok} {t : Tree} {l : List Tree} (ht : t ∈ l) (h : NumIn n t) : NumIn n (.arr l)
  | member {n : NumTok} {k : StrTok} {t : Tree} {m : List (StrTok × Tree)} (ht : (k, t) ∈ m) (h : NumIn n t) : NumIn n (.obj m)

/-- Whatever numbers begin the text stand for a number. -/
def CutsReadable (f64 : Str → Option Str) (u : Str) : Prop :=
  ∀ s x n, u = s ++ x → NumSpells n s → ∃ v, IsNum f64 n v

/-- So for all numbers of a value. -/
def NumbersCut (f64 : Str → Option Str) (t : Tree) : Prop :=
  ∀ n, NumIn n t → CutsReadable f64 ((if n.neg then b!"-" else []) ++ n.digits ++ n.tail)

/-- So for all numbers that are printed the way doubles are: printing writes the exponent as soon as there are more than 16
digits before the point, so that the digits alone are in range. -/
def FloatCuts (f64 : Str → Option Str) : Prop := ∀ t, f64 t = some t → CutsReadable f64 t

end DIDComm
