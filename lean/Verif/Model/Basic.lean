/-!
# Basic vocabulary of the model

Target description, outcome of a fallible Rust call, and the result monad.
Nothing here models a function of the repository; it is the vocabulary the other files use.
-/

namespace Lcms

/-- `u8` (src/io/io_handler.rs:42). -/
abbrev Byte := UInt8

/-- What the Rust compiler fixes at build time.
* `hostBig`   – host byte order (`cfg(target_endian)`)
* `leFeature` – cargo feature `use_little_endian` (Cargo.toml:12, src/io.rs:44-69)
* `wide`      – `usize` is 64 bit (`true`) or 32 bit (`false`)
* `checks`    – integer overflow checks on (debug) or wrapping (release) -/
structure Target where
  hostBig : Bool
  leFeature : Bool
  wide : Bool
  checks : Bool
deriving DecidableEq, Repr

/-- Width of `usize` (e.g. src/io/file_null.rs:31). -/
def Target.usizeBits (t : Target) : Nat := if t.wide then 64 else 32

/-- `usize::MAX + 1` (e.g. src/io/file_null.rs:66). -/
def Target.usizeMod (t : Target) : Nat := 2 ^ t.usizeBits

/-- `isize::MAX`, the largest possible allocation (below src/io/file_mem.rs:94-96). -/
def Target.isizeMax (t : Target) : Nat := 2 ^ (t.usizeBits - 1) - 1

/-- `std::io::ErrorKind`, restricted to the kinds that can occur here.  `badFd` is the
"uncategorized" error produced by `EBADF`; `other n` stands for any other OS error (src/io/io_handler.rs:8). -/
inductive IoErr where
  | unexpectedEof
  | writeZero
  | invalidInput
  | invalidData
  | notFound
  | badFd
  | other (n : Nat)
deriving DecidableEq, Repr

/-- Outcome of a call that mutates a state `σ`: a value, an `io::Error` (with the state that is left
behind), or a panic (src/io/io_handler.rs:8). -/
inductive Out (σ α : Type) where
  | ok (a : α) (s : σ)
  | err (e : IoErr) (s : σ)
  | panic
deriving DecidableEq, Repr

/-- A method taking `&mut self` and returning `io::Result<α>` (src/io/io_handler.rs:14-157). -/
def M (σ α : Type) := σ → Out σ α

/-- `Ok(a)` (e.g. src/io/io_handler.rs:187). -/
def M.pure {σ α : Type} (a : α) : M σ α := fun s => .ok a s

/-- Sequencing with the `?` operator (e.g. src/io/io_handler.rs:185). -/
def M.bind {σ α β : Type} (m : M σ α) (f : α → M σ β) : M σ β := fun s =>
  match m s with
  | .ok a s' => f a s'
  | .err e s' => .err e s'
  | .panic => .panic

instance {σ : Type} : Monad (M σ) where
  pure := M.pure
  bind := M.bind

/-- `Err(e)` (e.g. src/types/profile.rs:135). -/
def M.fail {σ α : Type} (e : IoErr) : M σ α := fun s => .err e s

/-- `panic!()` (e.g. src/types/profile.rs:54). -/
def M.panic {σ α : Type} : M σ α := fun _ => .panic

/-- `usize + usize`: panics on overflow with checks, wraps otherwise. `none` is the panic
(src/io/file_null.rs:58, 69, 72, 88). -/
def Target.addUsize (t : Target) (a b : Nat) : Option Nat :=
  if a + b < t.usizeMod then some (a + b)
  else if t.checks then none
  else some ((a + b) % t.usizeMod)

/-- `u32 + u32`: panics on overflow with checks, wraps otherwise. `none` is the panic (src/types/profile.rs:182). -/
def Target.addU32 (t : Target) (a b : UInt32) : Option UInt32 :=
  if a.toNat + b.toNat < 2 ^ 32 then some (a + b)
  else if t.checks then none
  else some (a + b)

/-- `i32::abs`: `i32::MIN.abs()` panics with overflow checks and is `i32::MIN` otherwise
(src/io/io_handler.rs:490, src/plugins/para_curve.rs:85). -/
def Target.absI32 (t : Target) (a : Int32) : Option Int32 :=
  if a = Int32.minValue then (if t.checks then none else some a)
  else if a < 0 then some (-a) else some a

end Lcms
