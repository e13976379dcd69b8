import Verif.Model.Basic

/-!
# Text

A text is the UTF-8 encoding of a sequence of Unicode scalar values; `Char` and
`String.utf8EncodeChar` are those of Lean's core library.
-/

set_option autoImplicit false

namespace DIDComm

/-- The UTF-8 encoding of a sequence of characters. -/
def utf8 (cs : List Char) : Bytes := cs.flatMap String.utf8EncodeChar

/-- The bytes are text. -/
def IsUtf8 (s : Bytes) : Prop := ∃ cs : List Char, s = utf8 cs

end DIDComm
