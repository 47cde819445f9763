import Mathlib.Data.Rat.Defs

/-!
# Specification vocabulary: ICC s15Fixed16Number
-/

namespace Lcms.Spec

/-- Two's complement reading of a 32-bit number. -/
def twos32 (n : Nat) : Int := if n < 2147483648 then n else (n : Int) - 4294967296

end Lcms.Spec
