import Verif.Model.Basic

/-!
# Specification vocabulary: positional byte order

Written from the definition of positional notation, independently of the model's digit functions:
most-significant-first values by Horner's rule and the `i`-th byte by division.
-/

namespace Lcms.Spec

/-- Value of a byte string, most significant byte first (Horner). -/
def msbFirst (bs : List UInt8) : Nat := bs.foldl (fun acc b => acc * 256 + b.toNat) 0

/-- Value of a byte string, least significant byte first: byte `i` weighs `256^i`. -/
def lsbFirst (bs : List UInt8) : Nat := msbFirst bs.reverse

/-- The value of file bytes: most significant first, unless built with `use_little_endian`. -/
def fileValue (t : Target) (bs : List UInt8) : Nat :=
  if t.leFeature then lsbFirst bs else msbFirst bs

/-- The bytes of a value in a host's memory, read by that host. -/
def hostValue (t : Target) (bs : List UInt8) : Nat :=
  if t.hostBig then msbFirst bs else lsbFirst bs

/-- `bs` is the `n`-byte file representation of `x`. -/
def IsFileBytes (t : Target) (n x : Nat) (bs : List UInt8) : Prop :=
  bs.length = n ∧ fileValue t bs = x

instance (t : Target) (n x : Nat) (bs : List UInt8) : Decidable (IsFileBytes t n x bs) :=
  inferInstanceAs (Decidable (_ ∧ _))

end Lcms.Spec
