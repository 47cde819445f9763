/-!
# Specification vocabulary: UTF-8

Lean core's definition of the UTF-8 encoding of a scalar value (a `Char`), written by its authors from the
Unicode standard.
-/

namespace Lcms.Spec

/-- `bs` is the UTF-8 encoding of the text `cs`. -/
def Utf8Of (cs : List Char) (bs : List UInt8) : Prop := cs.flatMap String.utf8EncodeChar = bs

instance (cs : List Char) (bs : List UInt8) : Decidable (Utf8Of cs bs) :=
  inferInstanceAs (Decidable (_ = _))

/-- `bs` is valid UTF-8. -/
def ValidUtf8 (bs : List UInt8) : Prop := ∃ cs, Utf8Of cs bs

/-- Pad with blanks and cut to four bytes. -/
def padded4 (bs : List UInt8) : List UInt8 := (bs ++ [0x20, 0x20, 0x20, 0x20]).take 4

end Lcms.Spec
