import Verif.Model.FileFile

/-!
# src/io/file_file.rs on a file that fails and that others truncate

The same delegations as in `Verif.Model.FileFile`, over a regular file whose system calls may also fail
(EIO, ENOSPC, EISDIR, …) and which other processes may truncate between any two system calls (which is what
`Profile::open_from_file_thr(Write)` does to an existing file).  An arbitrary finite script says what
happens; once it is used up every transfer is complete.
-/

namespace Lcms

/-- One event (below src/io/file_file.rs:5-28). -/
inductive OsEvent where
  /-- the system call returns `EINTR` -/
  | interrupted
  /-- the system call transfers at most `k + 1` bytes -/
  | chunk (k : Nat)
  /-- the system call fails with the OS error `n` (not `EINTR`) and transfers nothing -/
  | fail (n : Nat)
  /-- before the system call somebody truncates the file to length 0 -/
  | truncated
deriving DecidableEq, Repr

/-- An open regular file in such a world (the `File` of src/io/file_file.rs:5-28). -/
structure SharedFile where
  data : List Byte
  pos : Nat
  readable : Bool
  writable : Bool
  script : List OsEvent
deriving DecidableEq, Repr

namespace SharedFile

/-- What is answered to one `read(2)`/`write(2)` (below src/io/file_file.rs:5-28). -/
inductive Answer where
  | interrupted
  | upTo (k : Nat)
  | all
  | fail (n : Nat)
deriving DecidableEq, Repr

/-- Consume the script up to and including the answer to one transfer: was the file truncated first, the
answer, the remaining script (below src/io/file_file.rs:5-28). -/
def next : List OsEvent → Bool × Answer × List OsEvent
  | [] => (false, .all, [])
  | .interrupted :: es => (false, .interrupted, es)
  | .chunk k :: es => (false, .upTo (k + 1), es)
  | .fail n :: es => (false, .fail n, es)
  | .truncated :: es => (true, (next es).2)

/-- The truncations before a system call that is not a transfer (below src/io/file_file.rs:10-23). -/
def settle : List OsEvent → Bool × List OsEvent
  | .truncated :: es => (true, (settle es).2)
  | es => (false, es)

/-- The content after possible truncation (below src/io/file_file.rs:5-28). -/
def after (cut : Bool) (data : List Byte) : List Byte := if cut then [] else data

/-- Result of one `read(2)`/`write(2)` (below src/io/file_file.rs:5-28). -/
inductive Sys (α : Type) where
  | interrupted (s : SharedFile)
  | failed (n : Nat) (s : SharedFile)
  | done (a : α) (s : SharedFile)

/-- `read(2)` for up to `n` bytes at the file offset (below src/io/file_file.rs:6-8). -/
def sysRead (n : Nat) (s : SharedFile) : Sys (List Byte) :=
  let (cut, answer, rest) := next s.script
  let s := { s with data := after cut s.data, script := rest }
  let transfer (m : Nat) : Sys (List Byte) :=
    let got := (s.data.drop s.pos).take m
    .done got { s with pos := s.pos + got.length }
  match answer with
  | .interrupted => .interrupted s
  | .fail n => .failed n s
  | .upTo k => transfer (min n k)
  | .all => transfer n

/-- Effect of `write(2)` of exactly `b` at the file offset: a gap is filled with zeros; writing nothing
changes nothing (below src/io/file_file.rs:25-27). -/
def put (b : List Byte) (s : SharedFile) : SharedFile :=
  if b = [] then s
  else
    { s with
      data := s.data.take s.pos ++ zeros (s.pos - s.data.length) ++ b ++ s.data.drop (s.pos + b.length)
      pos := s.pos + b.length }

/-- `write(2)` (below src/io/file_file.rs:25-27). -/
def sysWrite (b : List Byte) (s : SharedFile) : Sys Nat :=
  let (cut, answer, rest) := next s.script
  let s := { s with data := after cut s.data, script := rest }
  match answer with
  | .interrupted => .interrupted s
  | .fail n => .failed n s
  | .upTo k => .done (b.take k).length (put (b.take k) s)
  | .all => .done b.length (put b s)

/-- The default `Read::read_exact` loop (std): `EINTR` is retried, other errors are returned, a read of 0
bytes is `UnexpectedEof` (src/io/file_file.rs:6-8). -/
def readExactLoop : Nat → List Byte → SharedFile → Out SharedFile Unit × List Byte
  | 0, rest, s => if rest = [] then (.ok () s, []) else (.panic, rest)
  | fuel + 1, rest, s =>
    if rest = [] then (.ok () s, [])
    else if s.readable = false then (.err .badFd s, rest)
    else
      match sysRead rest.length s with
      | .interrupted s' => readExactLoop fuel rest s'
      | .failed n s' => (.err (.other n) s', rest)
      | .done got s' =>
        if got = [] then (.err .unexpectedEof s', rest)
        else
          let r := readExactLoop fuel (rest.drop got.length) s'
          (r.1, got ++ r.2)

/-- `read_exact`, src/io/file_file.rs:6-8. -/
def readExact (buf : List Byte) (s : SharedFile) : Out SharedFile Unit × List Byte :=
  readExactLoop (buf.length + s.script.length + 1) buf s

/-- The default `Write::write_all` loop (std): `EINTR` is retried, other errors are returned
(src/io/file_file.rs:25-27). -/
def writeAllLoop : Nat → List Byte → SharedFile → Out SharedFile Unit
  | 0, b, s => if b = [] then .ok () s else .panic
  | fuel + 1, b, s =>
    if b = [] then .ok () s
    else if s.writable = false then .err .badFd s
    else
      match sysWrite b s with
      | .interrupted s' => writeAllLoop fuel b s'
      | .failed n s' => .err (.other n) s'
      | .done n s' => if n = 0 then .err .writeZero s' else writeAllLoop fuel (b.drop n) s'

/-- `write_all`, src/io/file_file.rs:25-27. -/
def writeAll (b : List Byte) : M SharedFile Unit := fun s =>
  writeAllLoop (b.length + s.script.length + 1) b s

/-- `lseek(2)`, src/io/file_file.rs:10-13.  It transfers nothing and does not fail on a regular file, except
for an invalid target. -/
def seek (p : SeekFrom) : M SharedFile Unit := fun s =>
  let (cut, rest) := settle s.script
  let s := { s with data := after cut s.data, script := rest }
  let q : Int :=
    match p with
    | .start n => n.toInt64.toInt
    | .end_ d => (s.data.length : Int) + d.toInt
    | .current d => (s.pos : Int) + d.toInt
  if 0 ≤ q ∧ q < 9223372036854775808 then .ok () { s with pos := q.toNat } else .err .invalidInput s

/-- `stream_position()? as usize`, src/io/file_file.rs:21-23. -/
def tell (t : Target) : M SharedFile Nat := fun s => .ok (s.pos % t.usizeMod) s

theorem readExactLoop_length (fuel : Nat) (rest : List Byte) (s : SharedFile) :
    (readExactLoop fuel rest s).2.length = rest.length := by
  induction fuel generalizing rest s with
  | zero =>
    unfold readExactLoop; split
    · simp_all
    · rfl
  | succ fuel ih =>
    unfold readExactLoop
    split
    · simp_all
    split
    · rfl
    split
    · exact ih _ _
    · rfl
    · rename_i got s' h
      have hlen : got.length ≤ rest.length := by
        unfold sysRead at h
        simp only at h
        split at h <;> cases h <;> simp only [List.length_take, List.length_drop] <;> omega
      split
      · rfl
      · simp only [List.length_append, ih, List.length_drop]; omega

/-- `impl IOHandler for File` (src/io/file_file.rs:5-28). -/
def handler (t : Target) : Handler SharedFile where
  read := readExact
  seek := seek
  tell := tell t
  write := writeAll
  read_length := fun buf s => readExactLoop_length _ buf s

end SharedFile

end Lcms
