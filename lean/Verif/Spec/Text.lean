import Verif.Model.Go

/-!
# What text is

Independent of the code: the bytes of a sequence of Unicode characters in UTF-8. `Char` and
`String.utf8EncodeChar` are those of Lean: a `Char` is a Unicode scalar value, so no surrogate.
-/

namespace Verif

/-- The bytes are the UTF-8 form of a sequence of characters. -/
def IsText (b : Bytes) : Prop := ∃ cs : List Char, b = cs.flatMap String.utf8EncodeChar

end Verif
