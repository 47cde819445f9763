import Verif.Model.Endian
import Verif.Model.Float64

/-!
# src/io/io_handler.rs

The `IOHandler` trait: four required methods over an arbitrary state, and the provided methods, defined
once for every handler.  `close` is in `Model/Close`, `Debug` in `Model/Debug`.
-/

namespace Lcms

/-- `std::io::SeekFrom` (argument of src/io/io_handler.rs:80). -/
inductive SeekFrom where
  | start (n : UInt64)
  | end_ (d : Int64)
  | current (d : Int64)
deriving DecidableEq, Repr

/-- The required methods of `IOHandler` (src/io/io_handler.rs:14-157).

`read` gets the caller's `&mut [u8]` and returns the outcome together with what the caller's buffer holds
afterwards (also when it fails).  `read_length` is what the type `&mut [u8]` enforces. -/
structure Handler (σ : Type) where
  read : List Byte → σ → Out σ Unit × List Byte
  seek : SeekFrom → M σ Unit
  tell : M σ Nat
  write : List Byte → M σ Unit
  read_length : ∀ buf s, (read buf s).2.length = buf.length

/-- `[0u8; n]` (src/io/io_handler.rs:184 and others) -/
def zeros (n : Nat) : List Byte := List.replicate n 0

/-- src/types/cie_xyz.rs:2-8 `CIEXYZ` -/
structure CIEXYZ where
  X : F64
  Y : F64
  Z : F64
deriving DecidableEq

/-- `self.seek(..)?` after `let result = self.tell()` has been stored, then returning `result`
(src/io/io_handler.rs:164-171).  The error of the second `tell` is only returned after the seek back. -/
def reportedSize {σ : Type} (h : Handler σ) : M σ Nat := fun s =>
  match h.tell s with
  | .panic => .panic
  | .err e s => .err e s
  | .ok currentPos s =>
    match h.seek (.end_ 0) s with
    | .panic => .panic
    | .err e s => .err e s
    | .ok _ s =>
      match h.tell s with
      | .panic => .panic
      | .err e s1 =>
        match h.seek (.start (UInt64.ofNat currentPos)) s1 with
        | .panic => .panic
        | .err e' s2 => .err e' s2
        | .ok _ s2 => .err e s2
      | .ok result s1 =>
        match h.seek (.start (UInt64.ofNat currentPos)) s1 with
        | .panic => .panic
        | .err e' s2 => .err e' s2
        | .ok _ s2 => .ok result s2

/-- `let mut buf = [0u8; n]; self.read(&mut buf)?` (src/io/io_handler.rs:184-185, 201-202 and others) -/
def readBuf {σ : Type} (h : Handler σ) (n : Nat) : M σ (List Byte) := fun s =>
  match h.read (zeros n) s with
  | (.ok _ s', buf) => .ok buf s'
  | (.err e s', _) => .err e s'
  | (.panic, _) => .panic

/-- src/io/io_handler.rs:183-188 -/
def readU8 {σ : Type} (h : Handler σ) : M σ UInt8 := do
  let buf ← readBuf h 1
  match buf with
  | b :: _ => pure b
  | [] => M.panic

/-- src/io/io_handler.rs:200-206 -/
def readU16 {σ : Type} (t : Target) (h : Handler σ) : M σ UInt16 := do
  let buf ← readBuf h 2
  let value := UInt16.ofNat (neVal t buf)
  pure (adjustEndiannessU16 t value)

/-- src/io/io_handler.rs:224-229.  Returns the outcome and what the caller's slice holds afterwards. -/
def readU16Array {σ : Type} (t : Target) (h : Handler σ) :
    List UInt16 → σ → Out σ Unit × List UInt16
  | [], s => (.ok () s, [])
  | x :: xs, s =>
    match readU16 t h s with
    | .panic => (.panic, x :: xs)
    | .err e s' => (.err e s', x :: xs)
    | .ok v s' =>
      let r := readU16Array t h xs s'
      (r.1, v :: r.2)

/-- src/io/io_handler.rs:241-247 -/
def readU32 {σ : Type} (t : Target) (h : Handler σ) : M σ UInt32 := do
  let buf ← readBuf h 4
  let value := UInt32.ofNat (neVal t buf)
  pure (adjustEndiannessU32 t value)

/-- An `f32` seen through `transmute::<f32, u32>`: its bit pattern (src/io/io_handler.rs:259-265, 421-426). -/
structure F32 where
  bits : UInt32
deriving DecidableEq, Repr

/-- src/io/io_handler.rs:259-265 -/
def readF32 {σ : Type} (t : Target) (h : Handler σ) : M σ F32 := do
  let uintValue ← readU32 t h
  pure ⟨uintValue⟩

/-- src/io/io_handler.rs:277-283 -/
def readU64 {σ : Type} (t : Target) (h : Handler σ) : M σ UInt64 := do
  let buf ← readBuf h 8
  let value := UInt64.ofNat (neVal t buf)
  pure (adjustEndiannessU64 t value)

/-- src/io/io_handler.rs:295-298 -/
def readS15f16 {σ : Type} (t : Target) (h : Handler σ) : M σ F64 := do
  let v ← readU32 t h
  match s15f16ToF64 t v.toInt32 with
  | some x => pure x
  | none => M.panic

/-- src/io/io_handler.rs:313-319 -/
def readXyz {σ : Type} (t : Target) (h : Handler σ) : M σ CIEXYZ := do
  let x ← readS15f16 t h
  let y ← readS15f16 t h
  let z ← readS15f16 t h
  pure ⟨x, y, z⟩

/-- src/io/io_handler.rs:333-335 -/
def writeU8 {σ : Type} (h : Handler σ) (value : UInt8) : M σ Unit := h.write [value]

/-- src/io/io_handler.rs:353-356 -/
def writeU16 {σ : Type} (t : Target) (h : Handler σ) (value : UInt16) : M σ Unit :=
  h.write (neBytes t 2 (adjustEndiannessU16 t value).toNat)

/-- src/io/io_handler.rs:377-382 -/
def writeU16Array {σ : Type} (t : Target) (h : Handler σ) : List UInt16 → M σ Unit
  | [] => pure ()
  | v :: vs => do
    writeU16 t h v
    writeU16Array t h vs

/-- src/io/io_handler.rs:400-403 -/
def writeU32 {σ : Type} (t : Target) (h : Handler σ) (value : UInt32) : M σ Unit :=
  h.write (neBytes t 4 (adjustEndiannessU32 t value).toNat)

/-- src/io/io_handler.rs:421-426 -/
def writeF32 {σ : Type} (t : Target) (h : Handler σ) (value : F32) : M σ Unit :=
  writeU32 t h value.bits

/-- src/io/io_handler.rs:444-447 -/
def writeU64 {σ : Type} (t : Target) (h : Handler σ) (value : UInt64) : M σ Unit :=
  h.write (neBytes t 8 (adjustEndiannessU64 t value).toNat)

/-- src/io/io_handler.rs:461-464 -/
def writeS15f16 {σ : Type} (t : Target) (h : Handler σ) (value : F64) : M σ Unit :=
  writeU32 t h (f64ToS15f16 value).toUInt32

/-- src/io/io_handler.rs:481-485 -/
def writeXyz {σ : Type} (t : Target) (h : Handler σ) (value : CIEXYZ) : M σ Unit := do
  writeS15f16 t h value.X
  writeS15f16 t h value.Y
  writeS15f16 t h value.Z

end Lcms
