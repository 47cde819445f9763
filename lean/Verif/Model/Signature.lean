import Verif.Model.Endian
import Verif.Model.Utf8

/-!
# src/types/signature.rs

`Signature(u32)`: a four-character code held as the big-endian value of its bytes.
Fixed-size arrays `[u8; N]` are `Vector Byte N`, slices are lists.
-/

namespace Lcms

/-- src/types/signature.rs:3-4 -/
structure Signature where
  val : UInt32
deriving DecidableEq, Repr

namespace Signature

/-- `u32::from_be_bytes` (std) (src/types/signature.rs:8, 51, 58) -/
def fromBeBytes (b : List Byte) : UInt32 := UInt32.ofNat (beVal b)

/-- src/types/signature.rs:7-9 -/
def new (value : Vector Byte 4) : Signature := ⟨fromBeBytes value.toList⟩

/-- src/types/signature.rs:29-33 -/
def default : Signature := new #v[0x20, 0x20, 0x20, 0x20]

/-- src/types/signature.rs:34-38 -/
def toU32 (item : Signature) : UInt32 := item.val

/-- src/types/signature.rs:39-43 -/
def ofU32 (item : UInt32) : Signature := ⟨item⟩

/-- src/types/signature.rs:44-48 -/
def toBytes (value : Signature) : Vector Byte 4 :=
  ⟨(beBytes 4 value.val.toNat).toArray, by simp [beBytes, leBytes]⟩

/-- src/types/signature.rs:49-53 -/
def ofBytes4 (value : Vector Byte 4) : Signature := ⟨fromBeBytes value.toList⟩

/-- `let mut result = [0x20; 4]; result[..k].copy_from_slice(value)` for `k = value.len() ≤ 4`
(src/types/signature.rs:56-57, 63-64, 70-71, 78-85). -/
def overSpaces (value : List Byte) : List Byte :=
  value ++ (List.replicate 4 (0x20 : Byte)).drop value.length

/-- src/types/signature.rs:54-60 -/
def ofBytes3 (value : Vector Byte 3) : Signature := ⟨fromBeBytes (overSpaces value.toList)⟩

/-- src/types/signature.rs:61-67 -/
def ofBytes2 (value : Vector Byte 2) : Signature := ⟨fromBeBytes (overSpaces value.toList)⟩

/-- src/types/signature.rs:68-74 -/
def ofBytes1 (value : Vector Byte 1) : Signature := ⟨fromBeBytes (overSpaces value.toList)⟩

/-- src/types/signature.rs:75-88.  The `match` on the length picks the prefix that is copied. -/
def ofSlice (value : List Byte) : Signature :=
  let result : List Byte :=
    if value.length ≤ 0 then List.replicate 4 0x20
    else if value.length = 1 then overSpaces (value.take 1)
    else if value.length = 2 then overSpaces (value.take 2)
    else if value.length = 3 then overSpaces (value.take 3)
    else overSpaces (value.take 4)
  ⟨fromBeBytes result⟩

/-- src/types/signature.rs:89-96 -/
def toStr (value : Signature) : List Char :=
  match fromUtf8 (beBytes 4 value.val.toNat) with
  | none => [' ', ' ', ' ', ' ']
  | some i => i

/-- src/types/signature.rs:97-101 -/
def ofStr (s : List Char) : Signature := ofSlice (strBytes s)

/-- The `value` text of src/types/signature.rs:14-24 -/
def debugText (self : Signature) : List Char :=
  match fromUtf8 (beBytes 4 self.val.toNat) with
  | some i => i
  | none => (beBytes 4 self.val.toNat).flatMap hexCell

/-- src/types/signature.rs:12-28 -/
def debug (plain : Char → Bool) (pretty : Bool) (self : Signature) : List Char :=
  debugValueStruct plain pretty "Signature".toList self.debugText

end Signature

/-- src/types/profile_id.rs:4-8.  The union is its sixteen bytes; `id16` and `id32` are other views of them. -/
structure ProfileID where
  id8 : Vector Byte 16
deriving DecidableEq

namespace ProfileID

/-- The `value` text of src/types/profile_id.rs:12-17 -/
def debugText (self : ProfileID) : List Char := self.id8.toList.flatMap hexCell

/-- src/types/profile_id.rs:10-21 -/
def debug (plain : Char → Bool) (pretty : Bool) (self : ProfileID) : List Char :=
  debugValueStruct plain pretty "ProfileID".toList self.debugText

/-- src/types/profile_id.rs:22-26 -/
def eq (self other : ProfileID) : Bool := self.id8 == other.id8

/-- `ProfileID { id16: [0u16; 8] }` (src/types/profile.rs:73) -/
def zero : ProfileID := ⟨Vector.replicate 16 0⟩

end ProfileID

end Lcms
