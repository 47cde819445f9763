import Verif.Model.Profile

/-!
# Threads calling `Profile::open_from_file`

`GLOBAL_CONTEXT.lock().unwrap()` (src/types/profile.rs:87) on the process-wide
`Lazy<Mutex<Context>>` (src/state/context.rs:40); the guard lives until `open_from_file` returns or unwinds
(profile.rs:83-89).  `std::sync::Mutex`: one holder at a time, `lock` blocks while it is held, a panic while the
guard is alive poisons it, locking a poisoned mutex yields an error (`unwrap` panics, and the guard inside the
error is dropped at once).  The scheduler is arbitrary; a thread makes the following steps per call: lock, open
or create the file, read the header, return and drop the guard.  The error callback does not lock the mutex
itself.  A panic kills the thread unless the caller catches it.
-/

namespace Lcms

/-- One call of `open_from_file` in a thread's program (src/types/profile.rs:83-89). -/
structure Call where
  now : NaiveDateTime
  sched : List OsResp
  path : Path
  mode : AccessMode
  /-- the caller survives a panic (`catch_unwind`) -/
  catches : Bool

/-- Where a thread is (src/types/profile.rs:83-110). -/
inductive Phase where
  /-- outside `open_from_file` -/
  | idle
  /-- has the lock (profile.rs:87) -/
  | locked (c : Call)
  /-- has opened or created the file (profile.rs:98-105) -/
  | opened (c : Call) (p : Profile)
  /-- has the result, guard still alive (profile.rs:107-109) -/
  | finished (c : Call) (r : Opened)

/-- src/types/profile.rs:83-110 -/
structure Thread where
  todo : List Call
  phase : Phase

/-- A process with `n` threads; `hist` is the ghost list of completed calls
(src/state/context.rs:40, src/types/profile.rs:83-110). -/
structure Sys (n : Nat) where
  g : Global
  holder : Option (Fin n)
  fs : FS
  threads : Fin n → Thread
  hist : List (Fin n × Call × Opened)

namespace Sys

/-- Replace the state of one thread (for src/types/profile.rs:83-110). -/
def setThread {n : Nat} (s : Sys n) (i : Fin n) (th : Thread) : Sys n :=
  { s with threads := fun j => if j = i then th else s.threads j }

/-- What a thread still does after a call ended with `r` (for src/types/profile.rs:83-110). -/
def after (c : Call) (r : Opened) (todo : List Call) : List Call :=
  if r = .panic ∧ c.catches = false then [] else todo

/-- Thread `i` makes a step; `none` if it is blocked or has nothing to do (src/types/profile.rs:83-110). -/
def step {n : Nat} (t : Target) (env : Handlers) (i : Fin n) (s : Sys n) : Option (Sys n) :=
  let th := s.threads i
  match th.phase with
  | .idle =>
    match th.todo with
    | [] => none
    | c :: rest =>
      if s.holder.isSome then none
      else if s.g.poisoned then
        some { s.setThread i ⟨after c .panic rest, .idle⟩ with hist := s.hist ++ [(i, c, .panic)] }
      else some { s.setThread i ⟨rest, .locked c⟩ with holder := some i }
  | .locked c =>
    let prof : Profile := Profile.new c.now
    match c.mode with
    | .read =>
      match s.fs.open c.path c.sched with
      | .error e => some (s.setThread i ⟨th.todo, .finished c (.err e)⟩)
      | .ok f => some (s.setThread i ⟨th.todo, .opened c { prof with io := some f }⟩)
    | .write =>
      match s.fs.create c.path c.sched with
      | .error e => some (s.setThread i ⟨th.todo, .finished c (.err e)⟩)
      | .ok f =>
        some { s.setThread i ⟨th.todo, .opened c { prof with io := some f, isWrite := true }⟩ with
          fs := s.fs.put c.path f.data }
  | .opened c p =>
    match finishOpen t env p s.g.ctx s.fs c.path with
    | (r, ctx, fs) => some { s.setThread i ⟨th.todo, .finished c r⟩ with g := { s.g with ctx := ctx }, fs := fs }
  | .finished c r =>
    some { s.setThread i ⟨after c r th.todo, .idle⟩ with
      holder := none
      g := { s.g with poisoned := s.g.poisoned || decide (r = .panic) }
      hist := s.hist ++ [(i, c, r)] }

/-- Run a schedule; a thread that cannot move when it is its turn does nothing (src/types/profile.rs:83-110). -/
def run {n : Nat} (t : Target) (env : Handlers) : List (Fin n) → Sys n → Sys n
  | [], s => s
  | i :: is, s => run t env is ((step t env i s).getD s)

/-- Before any thread has started (src/state/context.rs:40). -/
def start {n : Nat} (g : Global) (fs : FS) (prog : Fin n → List Call) : Sys n :=
  { g := g, holder := none, fs := fs, threads := fun i => ⟨prog i, .idle⟩, hist := [] }

end Sys

end Lcms
