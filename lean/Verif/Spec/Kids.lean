import Verif.Model.Basic

/-!
# The text that stands for a list of recipients
-/

set_option autoImplicit false

namespace DIDComm

/-- The key ids of the recipients, sorted by their bytes and joined with dots; what `apv` is the SHA-256 of.  Sorting, the order and
joining are those of Lean's library. -/
def joinedKids (kids : List Str) : Str := List.intercalate b!"." (kids.mergeSort (fun a b => decide (a ≤ b)))

end DIDComm
