import Verif.Model.IO

/-!
# Specification vocabulary: histories of stream operations, and the abstract byte tape

`Op`/`Obs` are the calls a client can make on an `IOHandler` and what it can observe.  `Tape` is the
abstract file: infinitely many cells, a length and a position; it knows nothing about buffers, cursors or
loops.
-/

namespace Lcms.Spec

/-- A client call. `read` carries the caller's buffer. -/
inductive Op where
  | read (buf : List UInt8)
  | write (b : List UInt8)
  | seek (p : SeekFrom)
  | tell
  | size
deriving DecidableEq, Repr

/-- What the client observes. -/
inductive Obs where
  /-- successful read: the caller's buffer afterwards -/
  | bytes (b : List UInt8)
  /-- failed read: the error and the caller's buffer afterwards -/
  | readErr (e : IoErr) (b : List UInt8)
  | unit
  | num (n : Nat)
  | err (e : IoErr)
  | panic
deriving DecidableEq, Repr

/-- Did the call succeed? -/
def Obs.isOk : Obs → Bool
  | .bytes _ => true
  | .unit => true
  | .num _ => true
  | _ => false

def obsUnit {σ : Type} : Out σ Unit → Obs × Option σ
  | .ok _ s => (.unit, some s)
  | .err e s => (.err e, some s)
  | .panic => (.panic, none)

def obsNum {σ : Type} : Out σ Nat → Obs × Option σ
  | .ok n s => (.num n, some s)
  | .err e s => (.err e, some s)
  | .panic => (.panic, none)

def obsRead {σ : Type} : Out σ Unit × List UInt8 → Obs × Option σ
  | (.ok _ s, b) => (.bytes b, some s)
  | (.err e s, b) => (.readErr e b, some s)
  | (.panic, _) => (.panic, none)

/-- One call on a handler: observation, and the state afterwards (none after a panic). -/
def hstep {σ : Type} (h : Handler σ) : Op → σ → Obs × Option σ
  | .read buf, s => obsRead (h.read buf s)
  | .write b, s => obsUnit (h.write b s)
  | .seek p, s => obsUnit (h.seek p s)
  | .tell, s => obsNum (h.tell s)
  | .size, s => obsNum (reportedSize h s)

/-- Run a history with a step function, up to the first panic. -/
def runWith {σ : Type} (step : Op → σ → Obs × Option σ) : List Op → σ → List Obs × Option σ
  | [], s => ([], some s)
  | op :: ops, s =>
    match step op s with
    | (o, none) => ([o], none)
    | (o, some s') => let r := runWith step ops s'; (o :: r.1, r.2)

/-- The abstract file. -/
structure Tape where
  cell : Nat → UInt8
  len : Nat
  pos : Nat

/-- Target position of a seek, as an integer. -/
def seekTarget (len pos : Nat) : SeekFrom → Int
  | .start n => n.toNat
  | .end_ d => len + d.toInt
  | .current d => pos + d.toInt

/-- One call on the abstract tape.  The target only contributes its limits: `usize` range and the maximal
size of an allocation. -/
def Tape.step (t : Target) : Op → Tape → Obs × Option Tape
  | .read buf, T =>
    if buf = [] ∨ T.pos + buf.length ≤ T.len then
      (.bytes ((List.range buf.length).map fun i => T.cell (T.pos + i)),
        some { T with pos := T.pos + buf.length })
    else (.readErr .unexpectedEof buf, some T)
  | .write b, T =>
    if b = [] then (.unit, some T)
    else if t.usizeMod ≤ T.pos then (.err .invalidInput, some T)
    else if t.isizeMax < T.pos + b.length then (.panic, none)
    else (.unit, some
      { cell := fun i => if T.pos ≤ i ∧ i < T.pos + b.length then b.getD (i - T.pos) 0 else T.cell i
        len := max T.len (T.pos + b.length)
        pos := T.pos + b.length })
  | .seek p, T =>
    let q := seekTarget T.len T.pos p
    if 0 ≤ q ∧ q < 18446744073709551616 then (.unit, some { T with pos := q.toNat })
    else (.err .invalidInput, some T)
  | .tell, T => (.num (T.pos % t.usizeMod), some T)
  | .size, T => (.num T.len, some { T with pos := T.pos % t.usizeMod })

/-- The tape holding `buf`, zero elsewhere. -/
def Tape.ofList (buf : List UInt8) (pos : Nat) : Tape := ⟨fun i => buf.getD i 0, buf.length, pos⟩

end Lcms.Spec

namespace Lcms.Spec

/-- `m` is exactly one read of `n` bytes (into a zeroed buffer), returning the value whose number is the
file-order value of those bytes, and otherwise passing the failure of that read through. -/
def ReadsAs {σ α : Type} (t : Target) (h : Handler σ) (n : Nat) (toNat : α → Nat) (m : M σ α) : Prop :=
  ∀ s, match h.read (List.replicate n 0) s with
    | (.ok _ s', buf) => ∃ a, toNat a = fileValueOf t buf ∧ m s = .ok a s'
    | (.err e s', _) => m s = .err e s'
    | (.panic, _) => m s = .panic
where
  /-- positional value of file bytes (as `Spec.fileValue`, repeated to keep this file self-contained) -/
  fileValueOf (t : Target) (bs : List UInt8) : Nat :=
    (if t.leFeature then bs.reverse else bs).foldl (fun acc b => acc * 256 + b.toNat) 0

end Lcms.Spec
