import Verif.Model.IO

/-!
# src/io/file_mem.rs

`FileMem<T>` wraps `std::io::Cursor<T>`; the methods are one-line delegations, so the model is a model of
the `std` cursor (mid-2022 sources): `read_exact`, `write` + the default `write_all` loop, `seek`,
`position`.  `Cursor::pos` is a `u64`; it is a `Nat` here and every operation keeps it below `2^64`
(proved, C11).
-/

namespace Lcms

/-- `Cursor { inner, pos }` (src/io/file_mem.rs:39-45). -/
structure Mem where
  buf : List Byte
  pos : Nat
deriving DecidableEq, Repr

namespace Mem

/-- `FileMem::new` (src/io/file_mem.rs:65-69). -/
def new (buf : List Byte) : Mem := ⟨buf, 0⟩

/-- `read_exact` of `Cursor` (std), src/io/file_mem.rs:77-79: `remaining_slice()` starts at
`min(pos, len)`; `read_exact` of a slice fails without side effects if it is too short. -/
def readExact (b : List Byte) (s : Mem) : Out Mem Unit × List Byte :=
  let remaining := s.buf.drop (min s.pos s.buf.length)
  if b.length > remaining.length then (.err .unexpectedEof s, b)
  else (.ok () { s with pos := s.pos + b.length }, remaining.take b.length)

/-- `Seek for Cursor` (std), src/io/file_mem.rs:81-84. -/
def seek (p : SeekFrom) : M Mem Unit := fun s =>
  match p with
  | .start n => .ok () { s with pos := n.toNat }
  | .end_ d =>
    let q := (s.buf.length : Int) + d.toInt
    if 0 ≤ q ∧ q < 18446744073709551616 then .ok () { s with pos := q.toNat } else .err .invalidInput s
  | .current d =>
    let q := (s.pos : Int) + d.toInt
    if 0 ≤ q ∧ q < 18446744073709551616 then .ok () { s with pos := q.toNat } else .err .invalidInput s

/-- `position() as usize`, src/io/file_mem.rs:90-92. -/
def tell (t : Target) : M Mem Nat := fun s => .ok (s.pos % t.usizeMod) s

/-- `Write::write` for `Cursor<&mut [u8]>` and `Cursor<Box<[u8]>>` (std `slice_write`): copies what fits
after `min(pos, len)`. Returns the number of bytes written (below src/io/file_mem.rs:94-96). -/
def sliceWrite (b : List Byte) : M Mem Nat := fun s =>
  let p := min s.pos s.buf.length
  let amt := min b.length (s.buf.length - p)
  .ok amt { buf := s.buf.take p ++ b.take amt ++ s.buf.drop (p + amt), pos := s.pos + amt }

/-- `Write::write` for `Cursor<Vec<u8>>` (std `vec_write`): pads with zeros up to `pos`, overwrites, then
extends.  Growing a `Vec` beyond `isize::MAX` bytes panics ("capacity overflow")
(below src/io/file_mem.rs:94-96). -/
def vecWrite (t : Target) (b : List Byte) : M Mem Nat := fun s =>
  if t.usizeMod ≤ s.pos then .err .invalidInput s
  else if t.isizeMax < s.pos + b.length then .panic
  else
    let padded := s.buf ++ zeros (s.pos - s.buf.length)
    let left := b.take (min (padded.length - s.pos) b.length)
    let right := b.drop (min (padded.length - s.pos) b.length)
    let over := padded.take s.pos ++ left ++ padded.drop (s.pos + left.length)
    .ok b.length { buf := over ++ right, pos := s.pos + b.length }

/-- The loop of the default `Write::write_all` (std): repeat until everything is written; `Ok(0)` is a
`WriteZero` error.  Each round writes at least one byte, so `fuel = b.length` rounds suffice and the
out-of-fuel case is never reached (`writeAll_vec`, `writeAll_fixed`) (src/io/file_mem.rs:94-96). -/
def writeAllLoop {σ : Type} (w : List Byte → M σ Nat) : Nat → List Byte → M σ Unit
  | 0, b, s => if b = [] then .ok () s else .panic
  | fuel + 1, b, s =>
    if b = [] then .ok () s
    else
      match w b s with
      | .panic => .panic
      | .err e s' => .err e s'
      | .ok n s' => if n = 0 then .err .writeZero s' else writeAllLoop w fuel (b.drop n) s'

/-- `write_all` (std), src/io/file_mem.rs:94-96. -/
def writeAll {σ : Type} (w : List Byte → M σ Nat) (b : List Byte) : M σ Unit :=
  writeAllLoop w b.length b

theorem readExact_length (b : List Byte) (s : Mem) : (readExact b s).2.length = b.length := by
  unfold readExact; simp only; split
  · rfl
  · simp only [List.length_take]; omega

/-- `IOHandler for FileMem<&mut [u8]>` and `FileMem<Box<[u8]>>` (src/io/file_mem.rs:72-97). -/
def fixed (t : Target) : Handler Mem where
  read := readExact
  seek := seek
  tell := tell t
  write := writeAll sliceWrite
  read_length := readExact_length

/-- `IOHandler for FileMem<Vec<u8>>` and `FileMem<&mut Vec<u8>>` (src/io/file_mem.rs:72-97). -/
def vec (t : Target) : Handler Mem where
  read := readExact
  seek := seek
  tell := tell t
  write := writeAll (vecWrite t)
  read_length := readExact_length

end Mem

end Lcms
