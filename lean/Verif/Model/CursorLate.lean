import Verif.Model.FileMem

/-!
# `FileMem` with a newer standard library

The rest of the model follows `std` as of mid-2022.  Later versions of `Cursor` put the position at the end of
the buffer when `read_exact` finds too few bytes; the older ones leave it alone.  Everything else about `Cursor`
that `FileMem` uses is the same.
-/

namespace Lcms

namespace Mem

/-- `read_exact` of `Cursor` in newer versions of `std`, src/io/file_mem.rs:77-79. -/
def readExactLate (b : List Byte) (s : Mem) : Out Mem Unit × List Byte :=
  let remaining := s.buf.drop (min s.pos s.buf.length)
  if b.length > remaining.length then (.err .unexpectedEof { s with pos := s.buf.length }, b)
  else (.ok () { s with pos := s.pos + b.length }, remaining.take b.length)

theorem readExactLate_length (b : List Byte) (s : Mem) : (readExactLate b s).2.length = b.length := by
  unfold readExactLate; simp only; split
  · rfl
  · simp only [List.length_take]; omega

/-- `IOHandler for FileMem<&mut [u8]>` and `FileMem<Box<[u8]>>` on newer versions of `std`
(src/io/file_mem.rs:72-97). -/
def fixedLate (t : Target) : Handler Mem where
  read := readExactLate
  seek := seek
  tell := tell t
  write := writeAll sliceWrite
  read_length := readExactLate_length

/-- `IOHandler for FileMem<Vec<u8>>` and `FileMem<&mut Vec<u8>>` on newer versions of `std`
(src/io/file_mem.rs:72-97). -/
def vecLate (t : Target) : Handler Mem where
  read := readExactLate
  seek := seek
  tell := tell t
  write := writeAll (vecWrite t)
  read_length := readExactLate_length

end Mem

end Lcms
