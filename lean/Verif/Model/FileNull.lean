import Verif.Model.IO

/-!
# src/io/file_null.rs
-/

namespace Lcms

/-- src/io/file_null.rs:30-33 `FileNull` (both fields `usize`). -/
structure Null where
  pointer : Nat
  usedSpace : Nat
deriving DecidableEq, Repr

namespace Null

/-- `FileNull::new` (src/io/file_null.rs:44-46). -/
def new : Null := ⟨0, 0⟩

/-- `i64 as usize` / `u64 as usize`: truncation modulo `2^bits` (used in src/io/file_null.rs:63-76). -/
def asUsize (t : Target) (v : Int) : Nat := (v % (t.usizeMod : Int)).toNat

/-- src/io/file_null.rs:56-61 `read`: advances, never touches the caller's buffer. -/
def read (t : Target) (b : List Byte) (s : Null) : Out Null Unit × List Byte :=
  match t.addUsize s.pointer b.length with
  | none => (.panic, b)
  | some p => (.ok () { s with pointer := p }, b)

/-- src/io/file_null.rs:63-76 `seek`. -/
def seek (t : Target) (p : SeekFrom) : M Null Unit := fun s =>
  match p with
  | .start v => .ok () { s with pointer := asUsize t v.toNat }
  | .end_ v =>
    match t.addUsize s.usedSpace (asUsize t v.toInt) with
    | none => .panic
    | some q => .ok () { s with pointer := q }
  | .current v =>
    match t.addUsize s.pointer (asUsize t v.toInt) with
    | none => .panic
    | some q => .ok () { s with pointer := q }

/-- src/io/file_null.rs:82-84 `tell`. -/
def tell : M Null Nat := fun s => .ok s.pointer s

/-- src/io/file_null.rs:86-95 `write`. -/
def write (t : Target) (b : List Byte) : M Null Unit := fun s =>
  match t.addUsize s.pointer b.length with
  | none => .panic
  | some p => .ok () { pointer := p, usedSpace := if p > s.usedSpace then p else s.usedSpace }

/-- `impl IOHandler for FileNull` (src/io/file_null.rs:55-96). -/
def handler (t : Target) : Handler Null where
  read := read t
  seek := seek t
  tell := tell
  write := write t
  read_length := by intro b s; unfold read; split <;> rfl

end Null

end Lcms
