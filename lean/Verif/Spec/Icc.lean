import Verif.Spec.Bytes

/-!
# Specification vocabulary: the ICC header and tag table (ICC.1:2010, section 7.2, 7.3)

The offsets below are those of the ICC specification, written as literals.
-/

namespace Lcms.Spec

/-- The `n` bytes from offset `o`. -/
def at_ (b : List UInt8) (o n : Nat) : List UInt8 := (List.range n).map fun i => b.getD (o + i) 0

/-- The number stored in the `n` bytes from offset `o` of a file. -/
def num (t : Target) (b : List UInt8) (o n : Nat) : Nat := fileValue t (at_ b o n)

end Lcms.Spec
