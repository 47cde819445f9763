import Verif.Model.IO

/-!
# src/io/file_file.rs

`impl IOHandler for std::fs::File`: delegations to `read_exact`, `seek`, `stream_position`, `write_all`
(std), over a POSIX regular file.  The operating system's freedom to transfer fewer bytes than asked or to
be interrupted by a signal is an arbitrary finite schedule; once it is used up every transfer is complete.
I/O failures of the medium (EIO, ENOSPC, …) are not modelled.
-/

namespace Lcms

/-- How the OS answers one `read(2)`/`write(2)` (below src/io/file_file.rs:5-28). -/
inductive OsResp where
  /-- `EINTR` -/
  | interrupted
  /-- at most `k + 1` bytes are transferred -/
  | chunk (k : Nat)
deriving DecidableEq, Repr

/-- An open regular file (the `File` of src/io/file_file.rs:5-28). -/
structure OsFile where
  data : List Byte
  pos : Nat
  readable : Bool
  writable : Bool
  sched : List OsResp
deriving DecidableEq, Repr

namespace OsFile

/-- Result of one `read(2)`/`write(2)`: number of bytes, or `EINTR` (below src/io/file_file.rs:5-28). -/
inductive Sys (α : Type) where
  | interrupted (s : OsFile)
  | done (a : α) (s : OsFile)

/-- `read(2)` for up to `n` bytes at the file offset (below src/io/file_file.rs:6-8). -/
def sysRead (n : Nat) (s : OsFile) : Sys (List Byte) :=
  match s.sched with
  | .interrupted :: rest => .interrupted { s with sched := rest }
  | .chunk k :: rest =>
    let got := (s.data.drop s.pos).take (min n (k + 1))
    .done got { s with sched := rest, pos := s.pos + got.length }
  | [] =>
    let got := (s.data.drop s.pos).take n
    .done got { s with pos := s.pos + got.length }

/-- Effect of `write(2)` of exactly `b` at the file offset: a gap is filled with zeros; writing nothing
changes nothing (below src/io/file_file.rs:25-27). -/
def put (b : List Byte) (s : OsFile) : OsFile :=
  if b = [] then s
  else
    { s with
      data := s.data.take s.pos ++ zeros (s.pos - s.data.length) ++ b ++ s.data.drop (s.pos + b.length)
      pos := s.pos + b.length }

/-- `write(2)` (below src/io/file_file.rs:25-27). -/
def sysWrite (b : List Byte) (s : OsFile) : Sys Nat :=
  match s.sched with
  | .interrupted :: rest => .interrupted { s with sched := rest }
  | .chunk k :: rest =>
    let now := b.take (k + 1)
    .done now.length { put now s with sched := rest }
  | [] => .done b.length (put b s)

/-- The default `Read::read_exact` loop (std), for the bytes still missing in `rest` (what the caller's
buffer holds there); returns the outcome and the final content of that part of the buffer.  Every round
consumes a schedule entry or at least one byte, so `rest.length + sched.length` rounds suffice and the
out-of-fuel case is never reached (`readExact_eq`) (src/io/file_file.rs:6-8). -/
def readExactLoop : Nat → List Byte → OsFile → Out OsFile Unit × List Byte
  | 0, rest, s => if rest = [] then (.ok () s, []) else (.panic, rest)
  | fuel + 1, rest, s =>
    if rest = [] then (.ok () s, [])
    else if s.readable = false then (.err .badFd s, rest)
    else
      match sysRead rest.length s with
      | .interrupted s' => readExactLoop fuel rest s'
      | .done got s' =>
        if got = [] then (.err .unexpectedEof s', rest)
        else
          let r := readExactLoop fuel (rest.drop got.length) s'
          (r.1, got ++ r.2)

/-- `read_exact`, src/io/file_file.rs:6-8. -/
def readExact (buf : List Byte) (s : OsFile) : Out OsFile Unit × List Byte :=
  readExactLoop (buf.length + s.sched.length + 1) buf s

/-- The default `Write::write_all` loop (std), with enough fuel as above (`writeAll_eq`)
(src/io/file_file.rs:25-27). -/
def writeAllLoop : Nat → List Byte → OsFile → Out OsFile Unit
  | 0, b, s => if b = [] then .ok () s else .panic
  | fuel + 1, b, s =>
    if b = [] then .ok () s
    else if s.writable = false then .err .badFd s
    else
      match sysWrite b s with
      | .interrupted s' => writeAllLoop fuel b s'
      | .done n s' => if n = 0 then .err .writeZero s' else writeAllLoop fuel (b.drop n) s'

/-- `write_all`, src/io/file_file.rs:25-27. -/
def writeAll (b : List Byte) : M OsFile Unit := fun s =>
  writeAllLoop (b.length + s.sched.length + 1) b s

/-- `lseek(2)`, src/io/file_file.rs:10-13.  `SeekFrom::Start(n)` is passed as `n as i64`. -/
def seek (p : SeekFrom) : M OsFile Unit := fun s =>
  let q : Int :=
    match p with
    | .start n => n.toInt64.toInt
    | .end_ d => (s.data.length : Int) + d.toInt
    | .current d => (s.pos : Int) + d.toInt
  if 0 ≤ q ∧ q < 9223372036854775808 then .ok () { s with pos := q.toNat } else .err .invalidInput s

/-- `stream_position()? as usize`, src/io/file_file.rs:21-23. -/
def tell (t : Target) : M OsFile Nat := fun s => .ok (s.pos % t.usizeMod) s

theorem readExactLoop_length (fuel : Nat) (rest : List Byte) (s : OsFile) :
    (readExactLoop fuel rest s).2.length = rest.length := by
  induction fuel generalizing rest s with
  | zero =>
    unfold readExactLoop; split
    · simp_all
    · rfl
  | succ fuel ih =>
    unfold readExactLoop
    split
    · simp_all
    split
    · rfl
    split
    · exact ih _ _
    · rename_i got s' h
      have hlen : got.length ≤ rest.length := by
        unfold sysRead at h
        split at h <;> cases h <;> simp only [List.length_take, List.length_drop] <;> omega
      split
      · rfl
      · simp only [List.length_append, ih, List.length_drop]; omega

/-- `impl IOHandler for File` (src/io/file_file.rs:5-28). -/
def handler (t : Target) : Handler OsFile where
  read := readExact
  seek := seek
  tell := tell t
  write := writeAll
  read_length := fun buf s => readExactLoop_length _ buf s

end OsFile

end Lcms
