import Verif.Model.IO
import Verif.Spec.Bytes

/-!
# Specification vocabulary: typed values in a file

`Val` is a value together with the accessor a client chooses for it; `Val.put`/`Ty.get` are the client's
calls.  `Encodes` says which bytes a value has in the file.
-/

namespace Lcms.Spec

/-- A value to be written with the accessor of its type. -/
inductive Val where
  | u8 (v : UInt8)
  | u16 (v : UInt16)
  | u16s (vs : List UInt16)
  | u32 (v : UInt32)
  | f32 (v : F32)
  | u64 (v : UInt64)
  | s15 (v : F64)
  | xyz (v : CIEXYZ)
deriving DecidableEq

/-- The accessors. -/
inductive Ty where
  | u8 | u16 | u16s (n : Nat) | u32 | f32 | u64 | s15 | xyz
deriving DecidableEq, Repr

def Val.ty : Val → Ty
  | .u8 _ => .u8
  | .u16 _ => .u16
  | .u16s vs => .u16s vs.length
  | .u32 _ => .u32
  | .f32 _ => .f32
  | .u64 _ => .u64
  | .s15 _ => .s15
  | .xyz _ => .xyz

/-- The size of a value in a file. -/
def Ty.size : Ty → Nat
  | .u8 => 1
  | .u16 => 2
  | .u16s n => 2 * n
  | .u32 => 4
  | .f32 => 4
  | .u64 => 8
  | .s15 => 4
  | .xyz => 12

/-- The client's call that writes a value. -/
def Val.put {σ : Type} (t : Target) (h : Handler σ) : Val → M σ Unit
  | .u8 v => writeU8 h v
  | .u16 v => writeU16 t h v
  | .u16s vs => writeU16Array t h vs
  | .u32 v => writeU32 t h v
  | .f32 v => writeF32 t h v
  | .u64 v => writeU64 t h v
  | .s15 v => writeS15f16 t h v
  | .xyz v => writeXyz t h v

/-- The client's call that reads a value (an array is read into one of that length filled with zeros). -/
def Ty.get {σ : Type} (t : Target) (h : Handler σ) : Ty → M σ Val
  | .u8 => readU8 h >>= fun v => pure (.u8 v)
  | .u16 => readU16 t h >>= fun v => pure (.u16 v)
  | .u16s n => fun s =>
    match readU16Array t h (List.replicate n 0) s with
    | (.ok _ s', vs) => .ok (.u16s vs) s'
    | (.err e s', _) => .err e s'
    | (.panic, _) => .panic
  | .u32 => readU32 t h >>= fun v => pure (.u32 v)
  | .f32 => readF32 t h >>= fun v => pure (.f32 v)
  | .u64 => readU64 t h >>= fun v => pure (.u64 v)
  | .s15 => readS15f16 t h >>= fun v => pure (.s15 v)
  | .xyz => readXyz t h >>= fun v => pure (.xyz v)

/-- Write values one after the other, stopping at the first error. -/
def putAll {σ : Type} (t : Target) (h : Handler σ) : List Val → M σ Unit
  | [] => pure ()
  | v :: vs => v.put t h >>= fun _ => putAll t h vs

/-- Read values one after the other, stopping at the first error. -/
def getAll {σ : Type} (t : Target) (h : Handler σ) : List Ty → M σ (List Val)
  | [] => pure []
  | ty :: tys => ty.get t h >>= fun v => getAll t h tys >>= fun vs => pure (v :: vs)

/-- `bs` are the file bytes of the value: most significant byte first (unless built with
`use_little_endian`), arrays element by element, a fixed-point number as the 32-bit number it is rounded to. -/
def Encodes (t : Target) : Val → List UInt8 → Prop
  | .u8 v, bs => IsFileBytes t 1 v.toNat bs
  | .u16 v, bs => IsFileBytes t 2 v.toNat bs
  | .u16s vs, bs => ∃ bss, List.Forall₂ (fun v b => IsFileBytes t 2 (UInt16.toNat v) b) vs bss ∧ bs = bss.flatten
  | .u32 v, bs => IsFileBytes t 4 v.toNat bs
  | .f32 v, bs => IsFileBytes t 4 v.bits.toNat bs
  | .u64 v, bs => IsFileBytes t 8 v.toNat bs
  | .s15 v, bs => IsFileBytes t 4 (f64ToS15f16 v).toUInt32.toNat bs
  | .xyz v, bs => ∃ x y z, IsFileBytes t 4 (f64ToS15f16 v.X).toUInt32.toNat x ∧
      IsFileBytes t 4 (f64ToS15f16 v.Y).toUInt32.toNat y ∧ IsFileBytes t 4 (f64ToS15f16 v.Z).toUInt32.toNat z ∧
      bs = x ++ y ++ z

/-- The number is a multiple of 2⁻¹⁶ strictly between ±32768. -/
def FixedPoint (x : F64) : Prop :=
  ∃ n : Int, -2147483648 < n ∧ n < 2147483648 ∧ F64.val x = some ((n : ℚ) / 65536)

/-- The value can be stored without loss. -/
def Val.Exact : Val → Prop
  | .s15 v => FixedPoint v
  | .xyz v => FixedPoint v.X ∧ FixedPoint v.Y ∧ FixedPoint v.Z
  | _ => True

/-- The same value: floating-point numbers are compared as numbers, `f32` by bit pattern. -/
def Val.Same : Val → Val → Prop
  | .s15 x, .s15 y => F64.val x = F64.val y
  | .xyz a, .xyz b => F64.val a.X = F64.val b.X ∧ F64.val a.Y = F64.val b.Y ∧ F64.val a.Z = F64.val b.Z
  | v, w => v = w

/-- `d'` is `d` with `b` written at `p`: nothing happens if `b` is empty; otherwise the result is long enough, and
what is neither written nor old is 0. -/
def Overwritten (d : List UInt8) (p : Nat) (b d' : List UInt8) : Prop :=
  if b = [] then d' = d
  else d'.length = max d.length (p + b.length) ∧
    ∀ i < d'.length, d'.getD i 0 = if p ≤ i ∧ i < p + b.length then b.getD (i - p) 0 else d.getD i 0

/-- A typed place in a file. -/
structure Cell where
  offset : Nat
  ty : Ty
deriving DecidableEq, Repr

/-- No byte belongs to two cells. -/
def Apart {n : Nat} (cells : Fin n → Cell) : Prop :=
  ∀ i j, i ≠ j → (cells i).offset + (cells i).ty.size ≤ (cells j).offset ∨
    (cells j).offset + (cells j).ty.size ≤ (cells i).offset

/-- What a client does with its cells. -/
inductive CellOp (n : Nat) where
  | set (i : Fin n) (v : Val)
  | get (i : Fin n)

/-- The client: seek to the cell, write or read it; the values it reads, in order. -/
def runCells {σ : Type} {n : Nat} (t : Target) (h : Handler σ) (cells : Fin n → Cell) :
    List (CellOp n) → M σ (List Val)
  | [] => pure []
  | .set i v :: ops =>
    h.seek (.start (UInt64.ofNat (cells i).offset)) >>= fun _ => v.put t h >>= fun _ => runCells t h cells ops
  | .get i :: ops =>
    h.seek (.start (UInt64.ofNat (cells i).offset)) >>= fun _ => (cells i).ty.get t h >>= fun v =>
      runCells t h cells ops >>= fun vs => pure (v :: vs)

/-- The same client with ordinary variables: the values it reads, and the variables at the end. -/
def runVars {n : Nat} : List (CellOp n) → (Fin n → Val) → List Val × (Fin n → Val)
  | [], env => ([], env)
  | .set i v :: ops, env => runVars ops fun j => if j = i then v else env j
  | .get i :: ops, env => (env i :: (runVars ops env).1, (runVars ops env).2)

/-- A value a cell can hold without loss. -/
def Fits (c : Cell) (v : Val) : Prop := v.ty = c.ty ∧ v.Exact

/-- The client assigns only such values. -/
def WellTyped {n : Nat} (cells : Fin n → Cell) (ops : List (CellOp n)) : Prop :=
  ∀ i v, CellOp.set i v ∈ ops → Fits (cells i) v

/-- The bytes of the cells in `d` are the encodings of the variables. -/
def Represents {n : Nat} (t : Target) (cells : Fin n → Cell) (d : List UInt8) (env : Fin n → Val) : Prop :=
  ∀ i, (cells i).offset + (cells i).ty.size ≤ d.length ∧ Fits (cells i) (env i) ∧
    Encodes t (env i) ((d.drop (cells i).offset).take (cells i).ty.size)

/-- `d'` differs from `d` at most inside the cells. -/
def SameElsewhere {n : Nat} (cells : Fin n → Cell) (d d' : List UInt8) : Prop :=
  d'.length = d.length ∧ ∀ k, (∀ i, k < (cells i).offset ∨ (cells i).offset + (cells i).ty.size ≤ k) →
    d'.getD k 0 = d.getD k 0

end Lcms.Spec
