import Verif.Model.Basic

/-!
# src/io/big_endian.rs, src/io/little_endian.rs, src/io.rs:44-69

Byte order conversion.  `[u8; N]` is a list of bytes (length `N` is a hypothesis where it matters);
`u16/u32/u64` are `UInt16/UInt32/UInt64`.
-/

namespace Lcms

/-- `n` little-endian base-256 digits of `x`: what `to_le_bytes` returns (std)
(used in src/io/little_endian.rs:4-34). -/
def leBytes : Nat → Nat → List Byte
  | 0, _ => []
  | n + 1, x => UInt8.ofNat x :: leBytes n (x / 256)

/-- `to_be_bytes` (std) (used in src/io/big_endian.rs:4-34). -/
def beBytes (n x : Nat) : List Byte := (leBytes n x).reverse

/-- `from_le_bytes` (std), as a natural number (used in src/io/little_endian.rs:4-19). -/
def leVal : List Byte → Nat
  | [] => 0
  | b :: bs => b.toNat + 256 * leVal bs

/-- `from_be_bytes` (std), as a natural number (used in src/io/big_endian.rs:4-19). -/
def beVal (bs : List Byte) : Nat := leVal bs.reverse

/-- `to_ne_bytes` (std): the host's own order (used in src/io/big_endian.rs:4-19, src/io/io_handler.rs:353-447). -/
def neBytes (t : Target) (n x : Nat) : List Byte :=
  if t.hostBig then beBytes n x else leBytes n x

/-- `from_ne_bytes` (std) (used in src/io/io_handler.rs:200-283). -/
def neVal (t : Target) (bs : List Byte) : Nat :=
  if t.hostBig then beVal bs else leVal bs

/-- `swap_bytes` (std) on an `8*n`-bit integer (used in src/io/big_endian.rs:22-34). -/
def swapBytes (n x : Nat) : Nat := beVal (leBytes n x)

/-- `to_be` (std): identity on a big-endian host, byte swap on a little-endian one
(used in src/io/big_endian.rs:22-34). -/
def toBe (t : Target) (n x : Nat) : Nat := if t.hostBig then x else swapBytes n x

/-- `to_le` (std) (used in src/io/little_endian.rs:22-34). -/
def toLe (t : Target) (n x : Nat) : Nat := if t.hostBig then swapBytes n x else x

namespace BigEndian
/-- src/io/big_endian.rs:4-7 -/
def adjust16 (t : Target) (v : List Byte) : List Byte :=
  let value := UInt16.ofNat (beVal v)
  neBytes t 2 value.toNat
/-- src/io/big_endian.rs:10-13 -/
def adjust32 (t : Target) (v : List Byte) : List Byte :=
  let value := UInt32.ofNat (beVal v)
  neBytes t 4 value.toNat
/-- src/io/big_endian.rs:16-19 -/
def adjust64 (t : Target) (v : List Byte) : List Byte :=
  let value := UInt64.ofNat (beVal v)
  neBytes t 8 value.toNat
/-- src/io/big_endian.rs:22-24 -/
def adjustU16 (t : Target) (v : UInt16) : UInt16 := UInt16.ofNat (toBe t 2 v.toNat)
/-- src/io/big_endian.rs:27-29 -/
def adjustU32 (t : Target) (v : UInt32) : UInt32 := UInt32.ofNat (toBe t 4 v.toNat)
/-- src/io/big_endian.rs:32-34 -/
def adjustU64 (t : Target) (v : UInt64) : UInt64 := UInt64.ofNat (toBe t 8 v.toNat)
end BigEndian

namespace LittleEndian
/-- src/io/little_endian.rs:4-7 -/
def adjust16 (t : Target) (v : List Byte) : List Byte :=
  let value := UInt16.ofNat (leVal v)
  neBytes t 2 value.toNat
/-- src/io/little_endian.rs:10-13 -/
def adjust32 (t : Target) (v : List Byte) : List Byte :=
  let value := UInt32.ofNat (leVal v)
  neBytes t 4 value.toNat
/-- src/io/little_endian.rs:16-19 -/
def adjust64 (t : Target) (v : List Byte) : List Byte :=
  let value := UInt64.ofNat (leVal v)
  neBytes t 8 value.toNat
/-- src/io/little_endian.rs:22-24 -/
def adjustU16 (t : Target) (v : UInt16) : UInt16 := UInt16.ofNat (toLe t 2 v.toNat)
/-- src/io/little_endian.rs:27-29 -/
def adjustU32 (t : Target) (v : UInt32) : UInt32 := UInt32.ofNat (toLe t 4 v.toNat)
/-- src/io/little_endian.rs:32-34 -/
def adjustU64 (t : Target) (v : UInt64) : UInt64 := UInt64.ofNat (toLe t 8 v.toNat)
end LittleEndian

/-! The re-exports of src/io.rs:44-69: the feature picks the module. -/

/-- src/io.rs:44-45, 58-59 -/
def adjustEndianness16 (t : Target) (v : List Byte) : List Byte :=
  if t.leFeature then LittleEndian.adjust16 t v else BigEndian.adjust16 t v
/-- src/io.rs:46-47, 60-61 -/
def adjustEndianness32 (t : Target) (v : List Byte) : List Byte :=
  if t.leFeature then LittleEndian.adjust32 t v else BigEndian.adjust32 t v
/-- src/io.rs:48-49, 62-63 -/
def adjustEndianness64 (t : Target) (v : List Byte) : List Byte :=
  if t.leFeature then LittleEndian.adjust64 t v else BigEndian.adjust64 t v

/-- src/io.rs:50-51, 64-65 -/
def adjustEndiannessU16 (t : Target) (v : UInt16) : UInt16 :=
  if t.leFeature then LittleEndian.adjustU16 t v else BigEndian.adjustU16 t v
/-- src/io.rs:52-53, 66-67 -/
def adjustEndiannessU32 (t : Target) (v : UInt32) : UInt32 :=
  if t.leFeature then LittleEndian.adjustU32 t v else BigEndian.adjustU32 t v
/-- src/io.rs:54-55, 68-69 -/
def adjustEndiannessU64 (t : Target) (v : UInt64) : UInt64 :=
  if t.leFeature then LittleEndian.adjustU64 t v else BigEndian.adjustU64 t v

end Lcms
