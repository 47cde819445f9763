import Verif.Model.Signature

/-!
# src/types/icc_header.rs, src/types/tag_entry.rs and the structs they contain

`ICCHeaderConverter`/`TagEntryConverter` reinterpret bytes as a `repr(C)` struct through a union and then
fix the byte order of every multi-byte field.  The reinterpretation is modelled by the `repr(C)` layout
algorithm of the Rust reference applied to the declared field list; the alignment of `u64` is a parameter
(4 or 8 depending on the target).  `Signature(u32)` is assumed to have the layout of `u32`.
-/

namespace Lcms

/-- Size and alignment of a type (for src/types/icc_header.rs:8-52). -/
structure CType where
  size : Nat
  align : Nat
deriving DecidableEq, Repr

/-- Smallest multiple of `a` that is at least `n` (for src/types/icc_header.rs:8-52). -/
def roundUp (n a : Nat) : Nat := (n + (a - 1)) / a * a

/-- `repr(C)`: each field at the next offset that is a multiple of its alignment, starting at `pos`
(for src/types/icc_header.rs:9). -/
def reprCOffsets : Nat → List CType → List Nat
  | _, [] => []
  | pos, f :: fs =>
    let o := roundUp pos f.align
    o :: reprCOffsets (o + f.size) fs

/-- `repr(C)`: alignment of the struct (for src/types/icc_header.rs:9). -/
def reprCAlign (fs : List CType) : Nat := fs.foldl (fun a f => max a f.align) 1

/-- End of the last field (for src/types/icc_header.rs:9). -/
def reprCEnd : Nat → List CType → Nat
  | pos, [] => pos
  | pos, f :: fs => reprCEnd (roundUp pos f.align + f.size) fs

/-- `repr(C)`: the struct as a type, its size rounded up to its alignment (for src/types/icc_header.rs:9). -/
def reprC (fs : List CType) : CType := ⟨roundUp (reprCEnd 0 fs) (reprCAlign fs), reprCAlign fs⟩

/-- `repr(C)` union: the size of the largest member rounded up to the largest alignment
(for src/types/profile_id.rs:3). -/
def reprCUnion (fs : List CType) : CType :=
  ⟨roundUp (fs.foldl (fun a f => max a f.size) 0) (reprCAlign fs), reprCAlign fs⟩

/-- `[T; n]` (for src/types/profile_id.rs:5-7, src/types/icc_header.rs:46) -/
def CType.array (T : CType) (n : Nat) : CType := ⟨T.size * n, T.align⟩

/-- `u8`, e.g. src/types/icc_header.rs:46 -/
def cU8 : CType := ⟨1, 1⟩
/-- `u16`, e.g. src/types/date_time_number.rs:7 -/
def cU16 : CType := ⟨2, 2⟩
/-- `u32` and `i32`, e.g. src/types/icc_header.rs:12 -/
def cU32 : CType := ⟨4, 4⟩
/-- `u64` is 4-aligned on some 32-bit targets and 8-aligned elsewhere (for src/types/icc_header.rs:36). -/
def cU64 (al : Nat) : CType := ⟨8, al⟩
/-- `struct Signature(u32)` (src/types/signature.rs:4) -/
def cSignature : CType := cU32

/-- src/types/date_time_number.rs:4-13: six `u16` -/
def dateTimeFields : List CType := List.replicate 6 cU16
/-- src/types/encoded_xyz_number.rs:4-10: three `i32` -/
def encodedXyzFields : List CType := List.replicate 3 cU32
/-- src/types/profile_id.rs:3-8 -/
def cProfileID : CType := reprCUnion [cU8.array 16, cU16.array 8, cU32.array 4]

/-- Field types of `ICCHeader` in declaration order (src/types/icc_header.rs:8-47). -/
def headerFields (al : Nat) : List CType :=
  [cU32, cSignature, cU32, cSignature, cSignature, cSignature, reprC dateTimeFields, cSignature,
   cSignature, cU32, cSignature, cU32, cU64 al, cU32, reprC encodedXyzFields, cSignature, cProfileID,
   cU8.array 28]

/-- Field types of `TagEntry` in declaration order (src/types/tag_entry.rs:6-15). -/
def tagEntryFields : List CType := [cSignature, cU32, cU32]

/-- src/types/date_time_number.rs:6-13 -/
structure DateTimeNumber where
  year : UInt16
  month : UInt16
  day : UInt16
  hours : UInt16
  minutes : UInt16
  seconds : UInt16
deriving DecidableEq, Repr

/-- src/types/encoded_xyz_number.rs:6-10 -/
structure EncodedXYZNumber where
  x : Int32
  y : Int32
  z : Int32
deriving DecidableEq, Repr

/-- src/types/icc_header.rs:10-47 -/
structure ICCHeader where
  size : UInt32
  cmmId : Signature
  version : UInt32
  deviceClass : Signature
  colorSpace : Signature
  pcs : Signature
  date : DateTimeNumber
  magic : Signature
  platform : Signature
  flags : UInt32
  manufacturer : Signature
  model : UInt32
  attributes : UInt64
  renderingIntent : UInt32
  illuminant : EncodedXYZNumber
  creator : Signature
  profileId : ProfileID
  reserved : Vector Byte 28
deriving DecidableEq

/-- src/types/tag_entry.rs:6-15 -/
structure TagEntry where
  sig : Signature
  offset : UInt32
  size : UInt32
deriving DecidableEq, Repr

/-! ### Reading fields out of memory -/

/-- `n` bytes at offset `o` (for src/types/icc_header.rs:96-101). -/
def slice (m : List Byte) (o n : Nat) : List Byte := (m.drop o).take n

/-- The `u16` stored at offset `o`, in the host's byte order (for src/types/icc_header.rs:96-101). -/
def memU16 (t : Target) (m : List Byte) (o : Nat) : UInt16 := UInt16.ofNat (neVal t (slice m o 2))
/-- The `u32` stored at offset `o` (for src/types/icc_header.rs:96-101). -/
def memU32 (t : Target) (m : List Byte) (o : Nat) : UInt32 := UInt32.ofNat (neVal t (slice m o 4))
/-- The `u64` stored at offset `o` (for src/types/icc_header.rs:96-101). -/
def memU64 (t : Target) (m : List Byte) (o : Nat) : UInt64 := UInt64.ofNat (neVal t (slice m o 8))
/-- The `[u8; n]` stored at offset `o` (for src/types/icc_header.rs:96-101). -/
def memBytes (m : List Byte) (o n : Nat) : Vector Byte n := Vector.ofFn fun i => m.getD (o + i.val) 0

/-- The `i`-th offset of a layout, relative to `base` (for src/types/icc_header.rs:96-101). -/
def offAt (base : Nat) (fs : List CType) (i : Nat) : Nat := base + (reprCOffsets 0 fs).getD i 0

/-- Reinterpret memory at `base` as a `DateTimeNumber` (src/types/icc_header.rs:24, 96-101). -/
def DateTimeNumber.ofMem (t : Target) (m : List Byte) (base : Nat) : DateTimeNumber :=
  let o := offAt base dateTimeFields
  { year := memU16 t m (o 0), month := memU16 t m (o 1), day := memU16 t m (o 2)
    hours := memU16 t m (o 3), minutes := memU16 t m (o 4), seconds := memU16 t m (o 5) }

/-- Reinterpret memory at `base` as an `EncodedXYZNumber` (src/types/icc_header.rs:40, 96-101). -/
def EncodedXYZNumber.ofMem (t : Target) (m : List Byte) (base : Nat) : EncodedXYZNumber :=
  let o := offAt base encodedXyzFields
  { x := (memU32 t m (o 0)).toInt32, y := (memU32 t m (o 1)).toInt32, z := (memU32 t m (o 2)).toInt32 }

/-- Reading `converter.value` after writing `converter.bytes` (src/types/icc_header.rs:49-52, 96-101). -/
def ICCHeader.ofMem (t : Target) (al : Nat) (m : List Byte) : ICCHeader :=
  let o := offAt 0 (headerFields al)
  { size := memU32 t m (o 0)
    cmmId := ⟨memU32 t m (o 1)⟩
    version := memU32 t m (o 2)
    deviceClass := ⟨memU32 t m (o 3)⟩
    colorSpace := ⟨memU32 t m (o 4)⟩
    pcs := ⟨memU32 t m (o 5)⟩
    date := DateTimeNumber.ofMem t m (o 6)
    magic := ⟨memU32 t m (o 7)⟩
    platform := ⟨memU32 t m (o 8)⟩
    flags := memU32 t m (o 9)
    manufacturer := ⟨memU32 t m (o 10)⟩
    model := memU32 t m (o 11)
    attributes := memU64 t m (o 12)
    renderingIntent := memU32 t m (o 13)
    illuminant := EncodedXYZNumber.ofMem t m (o 14)
    creator := ⟨memU32 t m (o 15)⟩
    profileId := ⟨memBytes m (o 16) 16⟩
    reserved := memBytes m (o 17) 28 }

/-- Reading `converter.value` after writing `converter.bytes` (src/types/tag_entry.rs:17-20, 32-37). -/
def TagEntry.ofMem (t : Target) (m : List Byte) : TagEntry :=
  let o := offAt 0 tagEntryFields
  { sig := ⟨memU32 t m (o 0)⟩, offset := memU32 t m (o 1), size := memU32 t m (o 2) }

/-! ### Writing fields into memory -/

/-- Memory image of a `repr(C)` struct from position `pos`: for each field, padding up to its alignment and
then its bytes.  Padding bytes are unspecified; zero stands for them (for src/types/icc_header.rs:102-107). -/
def image : Nat → List (CType × List Byte) → List Byte
  | _, [] => []
  | pos, (f, bs) :: rest =>
    List.replicate (roundUp pos f.align - pos) 0 ++ bs ++
      image (roundUp pos f.align + bs.length) rest

/-- A field with its bytes (for src/types/icc_header.rs:102-107). -/
def imageOf (tys : List CType) (bytes : List (List Byte)) : List Byte := image 0 (tys.zip bytes)

/-- Memory image of src/types/date_time_number.rs:6-13 -/
def DateTimeNumber.toMem (t : Target) (d : DateTimeNumber) : List Byte :=
  imageOf dateTimeFields
    [neBytes t 2 d.year.toNat, neBytes t 2 d.month.toNat, neBytes t 2 d.day.toNat,
     neBytes t 2 d.hours.toNat, neBytes t 2 d.minutes.toNat, neBytes t 2 d.seconds.toNat]

/-- Memory image of src/types/encoded_xyz_number.rs:6-10 -/
def EncodedXYZNumber.toMem (t : Target) (v : EncodedXYZNumber) : List Byte :=
  imageOf encodedXyzFields
    [neBytes t 4 v.x.toUInt32.toNat, neBytes t 4 v.y.toUInt32.toNat, neBytes t 4 v.z.toUInt32.toNat]

/-- Reading `converter.bytes` after writing `converter.value` (src/types/icc_header.rs:102-107). -/
def ICCHeader.toMem (t : Target) (al : Nat) (h : ICCHeader) : List Byte :=
  imageOf (headerFields al)
    [neBytes t 4 h.size.toNat, neBytes t 4 h.cmmId.val.toNat, neBytes t 4 h.version.toNat,
     neBytes t 4 h.deviceClass.val.toNat, neBytes t 4 h.colorSpace.val.toNat, neBytes t 4 h.pcs.val.toNat,
     h.date.toMem t, neBytes t 4 h.magic.val.toNat, neBytes t 4 h.platform.val.toNat,
     neBytes t 4 h.flags.toNat, neBytes t 4 h.manufacturer.val.toNat, neBytes t 4 h.model.toNat,
     neBytes t 8 h.attributes.toNat, neBytes t 4 h.renderingIntent.toNat, h.illuminant.toMem t,
     neBytes t 4 h.creator.val.toNat, h.profileId.id8.toList, h.reserved.toList]

/-- Reading `converter.bytes` after writing `converter.value` (src/types/tag_entry.rs:38-43). -/
def TagEntry.toMem (t : Target) (e : TagEntry) : List Byte :=
  imageOf tagEntryFields
    [neBytes t 4 e.sig.val.toNat, neBytes t 4 e.offset.toNat, neBytes t 4 e.size.toNat]

/-! ### Byte order -/

/-- `Signature::from(adjust_endianness_u32(sig.into()))`
(src/types/icc_header.rs:59 and others, src/types/tag_entry.rs:26) -/
def adjustSig (t : Target) (s : Signature) : Signature := Signature.ofU32 (adjustEndiannessU32 t s.toU32)

/-- `transmute::<u32, i32>(adjust_endianness_u32(transmute::<i32, u32>(v)))` (src/types/icc_header.rs:77-91) -/
def adjustI32 (t : Target) (v : Int32) : Int32 := (adjustEndiannessU32 t v.toUInt32).toInt32

/-- src/types/icc_header.rs:55-95 -/
def ICCHeader.swapEndianness (t : Target) (h : ICCHeader) : ICCHeader :=
  { h with
    size := adjustEndiannessU32 t h.size
    cmmId := adjustSig t h.cmmId
    version := adjustEndiannessU32 t h.version
    deviceClass := adjustSig t h.deviceClass
    colorSpace := adjustSig t h.colorSpace
    pcs := adjustSig t h.pcs
    date :=
      { h.date with
        year := adjustEndiannessU16 t h.date.year
        month := adjustEndiannessU16 t h.date.month
        day := adjustEndiannessU16 t h.date.day
        hours := adjustEndiannessU16 t h.date.hours
        minutes := adjustEndiannessU16 t h.date.minutes
        seconds := adjustEndiannessU16 t h.date.seconds }
    magic := adjustSig t h.magic
    platform := adjustSig t h.platform
    flags := adjustEndiannessU32 t h.flags
    manufacturer := adjustSig t h.manufacturer
    model := adjustEndiannessU32 t h.model
    attributes := adjustEndiannessU64 t h.attributes
    renderingIntent := adjustEndiannessU32 t h.renderingIntent
    illuminant :=
      { h.illuminant with
        x := adjustI32 t h.illuminant.x
        y := adjustI32 t h.illuminant.y
        z := adjustI32 t h.illuminant.z }
    creator := adjustSig t h.creator }

/-- src/types/icc_header.rs:96-101.  The argument is a `[u8; 128]`. -/
def ICCHeader.fromBytes (t : Target) (al : Nat) (bytes : List Byte) : ICCHeader :=
  (ICCHeader.ofMem t al bytes).swapEndianness t

/-- src/types/icc_header.rs:102-107 -/
def ICCHeader.toBytes (t : Target) (al : Nat) (value : ICCHeader) : List Byte :=
  (value.swapEndianness t).toMem t al

/-- src/types/tag_entry.rs:23-31 -/
def TagEntry.swapEndianness (t : Target) (e : TagEntry) : TagEntry :=
  { e with
    sig := adjustSig t e.sig
    offset := adjustEndiannessU32 t e.offset
    size := adjustEndiannessU32 t e.size }

/-- src/types/tag_entry.rs:32-37.  The argument is a `[u8; 12]`. -/
def TagEntry.fromBytes (t : Target) (bytes : List Byte) : TagEntry :=
  (TagEntry.ofMem t bytes).swapEndianness t

/-- src/types/tag_entry.rs:38-43 -/
def TagEntry.toBytes (t : Target) (value : TagEntry) : List Byte :=
  (value.swapEndianness t).toMem t

end Lcms
