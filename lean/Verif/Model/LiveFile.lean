import Verif.Model.Threads

/-!
# Threads calling `Profile::open_from_file_thr`, each with its own context

`open_from_file_thr` (src/types/profile.rs:90-110) takes no lock: calls in different threads overlap in any way, at
the grain of single system calls.  The only thing they share is the file system, and the only change one of them
makes to it is `File::create` (profile.rs:103), which creates or truncates.  Time is counted in ticks; every call
comes with the ticks at which its system calls are made, which may be any.  (In a real execution no two system calls
fall on the same tick; nothing depends on it.)  Files are neither removed nor written to meanwhile.
-/

namespace Lcms

/-- A file handle through which a file is read that others may change: what the file contains at the time of the
first, second, … system call still to come (the `File` of src/io/file_file.rs:5-28). -/
structure LiveFile where
  world : Nat → List Byte
  pos : Nat
  readable : Bool
  sched : List OsResp

namespace LiveFile

/-- One system call later (below src/io/file_file.rs:5-28). -/
def pass (s : LiveFile) : LiveFile := { s with world := fun k => s.world (k + 1) }

/-- Result of one `read(2)` (below src/io/file_file.rs:6-8). -/
inductive Sys where
  | interrupted (s : LiveFile)
  | done (a : List Byte) (s : LiveFile)

/-- `read(2)` for up to `n` bytes at the file offset (below src/io/file_file.rs:6-8). -/
def sysRead (n : Nat) (s : LiveFile) : Sys :=
  match s.sched with
  | .interrupted :: rest => .interrupted { s.pass with sched := rest }
  | .chunk k :: rest =>
    let got := ((s.world 0).drop s.pos).take (min n (k + 1))
    .done got { s.pass with sched := rest, pos := s.pos + got.length }
  | [] =>
    let got := ((s.world 0).drop s.pos).take n
    .done got { s.pass with pos := s.pos + got.length }

/-- The default `Read::read_exact` loop (std), as in `OsFile.readExactLoop` (src/io/file_file.rs:6-8). -/
def readExactLoop : Nat → List Byte → LiveFile → Out LiveFile Unit × List Byte
  | 0, rest, s => if rest = [] then (.ok () s, []) else (.panic, rest)
  | fuel + 1, rest, s =>
    if rest = [] then (.ok () s, [])
    else if s.readable = false then (.err .badFd s.pass, rest)
    else
      match sysRead rest.length s with
      | .interrupted s' => readExactLoop fuel rest s'
      | .done got s' =>
        if got = [] then (.err .unexpectedEof s', rest)
        else
          let r := readExactLoop fuel (rest.drop got.length) s'
          (r.1, got ++ r.2)

/-- `read_exact`, src/io/file_file.rs:6-8. -/
def readExact (buf : List Byte) (s : LiveFile) : Out LiveFile Unit × List Byte :=
  readExactLoop (buf.length + s.sched.length + 1) buf s

/-- `lseek(2)`, src/io/file_file.rs:10-13. -/
def seek (p : SeekFrom) : M LiveFile Unit := fun s =>
  let q : Int :=
    match p with
    | .start n => n.toInt64.toInt
    | .end_ d => ((s.world 0).length : Int) + d.toInt
    | .current d => (s.pos : Int) + d.toInt
  if 0 ≤ q ∧ q < 9223372036854775808 then .ok () { s.pass with pos := q.toNat } else .err .invalidInput s.pass

/-- `stream_position()? as usize`, a system call too, src/io/file_file.rs:21-23. -/
def tell (t : Target) : M LiveFile Nat := fun s => .ok (s.pos % t.usizeMod) s.pass

theorem readExactLoop_length (fuel : Nat) (rest : List Byte) (s : LiveFile) :
    (readExactLoop fuel rest s).2.length = rest.length := by
  induction fuel generalizing rest s with
  | zero =>
    unfold readExactLoop; split
    · simp_all
    · rfl
  | succ fuel ih =>
    unfold readExactLoop
    split
    · simp_all
    split
    · rfl
    split
    · exact ih _ _
    · rename_i got s' h
      have hlen : got.length ≤ rest.length := by
        unfold sysRead at h
        split at h <;> cases h <;> simp only [List.length_take, List.length_drop] <;> omega
      split
      · rfl
      · simp only [List.length_append, ih, List.length_drop]; omega

/-- `impl IOHandler for File` (src/io/file_file.rs:5-28), without writing: opening a profile writes nothing, so
`write` is a panic here, which would show. -/
def handler (t : Target) : Handler LiveFile where
  read := readExact
  seek := seek
  tell := tell t
  write := fun _ _ => .panic
  read_length := fun buf s => readExactLoop_length _ buf s

end LiveFile

/-- A call of `open_from_file_thr` and the ticks of its system calls, the first of which opens or creates the file
(src/types/profile.rs:90-110). -/
structure Visit where
  now : NaiveDateTime
  sched : List OsResp
  path : Path
  mode : AccessMode
  tick : Nat → Nat

/-- The call creates or truncates its file (src/types/profile.rs:103). -/
def Visit.creates (fs : FS) (v : Visit) : Bool := v.mode = .write && (fs.mayCreate v.path).isNone

/-- The files before each tick, if the calls `vs` are made (src/types/profile.rs:98-105). -/
def filesAt (fs : FS) (vs : List Visit) : Nat → FS
  | 0 => fs
  | n + 1 => (vs.filter fun v => v.tick 0 = n && v.creates fs).foldl (fun fs v => fs.put v.path []) (filesAt fs vs n)

/-- What the caller gets; the handle in the profile is the live one (src/types/profile.rs:94). -/
inductive LiveOpened where
  | ok (p : Profile LiveFile)
  | err (e : IoErr)
  | panic

/-- `read_header_thr(context)?; Ok(profile)` (src/types/profile.rs:107-109). -/
def LiveOpened.finish (t : Target) (env : Handlers) (p : Profile LiveFile) (ctx : CState) : LiveOpened × CState :=
  match Profile.readHeaderThr t (LiveFile.handler t) env ⟨p, ctx⟩ with
  | .ok () s => (.ok s.prof, s.ctx)
  | .err e s => (.err e, s.ctx)
  | .panic s => (.panic, s.ctx)

/-- The call `v` while the calls `vs` (itself among them) are made (src/types/profile.rs:90-110). -/
def Visit.run (t : Target) (env : Handlers) (fs : FS) (vs : List Visit) (v : Visit) (ctx : CState) :
    LiveOpened × CState :=
  let prof : Profile LiveFile := Profile.new v.now
  let world := fun k => ((filesAt fs vs (v.tick (k + 1))).files v.path).getD []
  match v.mode with
  | .read =>
    match (filesAt fs vs (v.tick 0)).open v.path v.sched with
    | .error e => (.err e, ctx)
    | .ok f => LiveOpened.finish t env { prof with io := some ⟨world, f.pos, f.readable, f.sched⟩ } ctx
  | .write =>
    match (filesAt fs vs (v.tick 0)).create v.path v.sched with
    | .error e => (.err e, ctx)
    | .ok f =>
      LiveOpened.finish t env { prof with io := some ⟨world, f.pos, f.readable, f.sched⟩, isWrite := true } ctx

/-- A thread makes the calls `mine` one after the other with one context, while the calls `vs` are made by all threads
together; panics are caught (a thread that dies of one has a shorter program) (src/types/profile.rs:90-110). -/
def runThread (t : Target) (env : Handlers) (fs : FS) (vs : List Visit) : List Visit → CState → List LiveOpened × CState
  | [], ctx => ([], ctx)
  | v :: mine, ctx =>
    let r := v.run t env fs vs ctx
    let rest := runThread t env fs vs mine r.2
    (r.1 :: rest.1, rest.2)

end Lcms
