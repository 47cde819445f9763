import Mathlib.Analysis.SpecialFunctions.Pow.Real
import Mathlib.Analysis.SpecialFunctions.Log.Base
import Verif.Model.Float64

/-!
# src/plugins/para_curve.rs

The evaluator is written once, over an arbitrary arithmetic `FOps`, and is used at

* `F64.ops`: IEEE-754 binary64, with whatever `powf`, `exp` and `log10` the platform has;
* `realOps`: real numbers, `none` standing for an undefined operation (division by zero, power of a
  negative number to a fractional exponent, zero to a negative exponent, logarithm of a non-positive number).

`Option` as the result of the evaluator: `none` is an index panic.
-/

namespace Lcms

/-- The operations on `f64` used by the evaluator (the operations of src/plugins/para_curve.rs:93-467). -/
structure FOps (F : Type) where
  /-- a literal -/
  lit : ℚ → F
  add : F → F → F
  sub : F → F → F
  mul : F → F → F
  div : F → F → F
  neg : F → F
  abs : F → F
  max : F → F → F
  /-- `<` -/
  lt : F → F → Bool
  /-- `<=` -/
  le : F → F → Bool
  powf : F → F → F
  exp : F → F
  log10 : F → F

/-- The platform's implementations of the three transcendental functions
(`powf`, `exp`, `log10` in src/plugins/para_curve.rs:93-467). -/
structure Libm where
  powf : F64 → F64 → F64
  exp : F64 → F64
  log10 : F64 → F64

/-- `f64` arithmetic (src/plugins/para_curve.rs:93-467). -/
def F64.ops (l : Libm) : FOps F64 where
  lit := F64.ofRat
  add := F64.add
  sub := F64.sub
  mul := F64.mul
  div := F64.div
  neg := F64.neg
  abs := F64.abs
  max := F64.max
  lt := F64.lt
  le := F64.le
  powf := l.powf
  exp := l.exp
  log10 := l.log10

/-- Partial operations on the reals (idealises `f64` in src/plugins/para_curve.rs:93-467). -/
abbrev PReal := Option ℝ

namespace PReal

/-- Strict extension of a total operation (idealises `+ - *` in src/plugins/para_curve.rs:93-467). -/
noncomputable def map₂ (f : ℝ → ℝ → ℝ) : PReal → PReal → PReal
  | some x, some y => some (f x y)
  | _, _ => none

open Classical in
/-- Division, undefined for a zero divisor (idealises `/` in src/plugins/para_curve.rs:93-467). -/
noncomputable def div : PReal → PReal → PReal
  | some x, some y => if y = 0 then none else some (x / y)
  | _, _ => none

open Classical in
/-- Comparison; false if an operand is undefined (idealises `<` in src/plugins/para_curve.rs:93-467). -/
noncomputable def lt : PReal → PReal → Bool
  | some x, some y => decide (x < y)
  | _, _ => false

open Classical in
/-- Comparison; false if an operand is undefined (idealises `<=` in src/plugins/para_curve.rs:93-467). -/
noncomputable def le : PReal → PReal → Bool
  | some x, some y => decide (x ≤ y)
  | _, _ => false

open Classical in
/-- Power, undefined for a negative base with a fractional exponent and for zero to a negative exponent
(idealises `powf` in src/plugins/para_curve.rs:93-467). -/
noncomputable def powf : PReal → PReal → PReal
  | some x, some y =>
    if (x < 0 ∧ ¬ ∃ n : ℤ, y = n) ∨ (x = 0 ∧ y < 0) then none else some (x ^ y)
  | _, _ => none

open Classical in
/-- Decimal logarithm of a positive number (idealises `log10` in src/plugins/para_curve.rs:452-455). -/
noncomputable def log10 : PReal → PReal
  | some x => if 0 < x then some (Real.logb 10 x) else none
  | none => none

end PReal

/-- Real arithmetic (idealises src/plugins/para_curve.rs:93-467). -/
noncomputable def realOps : FOps PReal where
  lit := fun q => some (q : ℝ)
  add := PReal.map₂ (· + ·)
  sub := PReal.map₂ (· - ·)
  mul := PReal.map₂ (· * ·)
  div := PReal.div
  neg := Option.map (- ·)
  abs := Option.map (|·|)
  max := PReal.map₂ max
  lt := PReal.lt
  le := PReal.le
  powf := PReal.powf
  exp := Option.map Real.exp
  log10 := PReal.log10

namespace Curves

/-- `MATRIX_DET_TOLERANCE`, src/lib.rs:52 -/
def tolerance : ℚ := 1 / 10000

variable {F : Type} (o : FOps F)

/-- src/plugins/para_curve.rs:448-451 -/
def sigmoidBase (k t : F) : F :=
  o.sub (o.div (o.lit 1) (o.add (o.lit 1) (o.exp (o.mul (o.neg k) t)))) (o.lit (1 / 2))

/-- src/plugins/para_curve.rs:452-455.  (Unary minus binds weaker than a method call, tighter than `/`.) -/
def invertedSigmoidBase (k t : F) : F :=
  o.div (o.neg (o.log10 (o.sub (o.div (o.lit 1) (o.add t (o.lit (1 / 2)))) (o.lit 1)))) k

/-- src/plugins/para_curve.rs:456-461 -/
def sigmoidFactory (k t : F) : F :=
  let correction := o.div (o.lit (1 / 2)) (sigmoidBase o k (o.lit 1))
  o.add (o.mul correction (sigmoidBase o k (o.sub (o.mul (o.lit 2) t) (o.lit 1)))) (o.lit (1 / 2))

/-- src/plugins/para_curve.rs:462-467 -/
def invertedSigmoidFactory (k t : F) : F :=
  let correction := o.div (o.lit (1 / 2)) (sigmoidBase o k (o.lit 1))
  o.div (o.add (invertedSigmoidBase o k (o.div (o.sub t (o.lit (1 / 2))) correction)) (o.lit 1)) (o.lit 2)

/-- `x.abs() < MATRIX_DET_TOLERANCE` (src/plugins/para_curve.rs:120, 138 and others) -/
def tiny (x : F) : Bool := o.lt (o.abs x) (o.lit tolerance)

/-- src/plugins/para_curve.rs:96-108 -/
def f1 (gamma r : F) : F :=
  if o.lt r (o.lit 0) then
    if o.lt (o.sub (o.abs gamma) (o.lit 1)) (o.lit tolerance) then r else o.lit 0
  else o.powf r gamma

/-- src/plugins/para_curve.rs:110-126; `PLUS_INF` is line 8 -/
def g1 (gamma r : F) : F :=
  if o.lt r (o.lit 0) then
    if o.lt (o.abs (o.sub gamma (o.lit 1))) (o.lit tolerance) then r else o.lit 0
  else if tiny o gamma then o.lit (10 ^ 22)
  else o.powf r (o.div (o.lit 1) gamma)

/-- src/plugins/para_curve.rs:130-151 -/
def f2 (gamma a b r : F) : F :=
  if tiny o a then o.lit 0
  else
    let disc := o.div (o.neg b) a
    if o.le disc r then
      let e := o.add (o.mul a r) b
      if o.lt (o.lit 0) e then o.powf e gamma else o.lit 0
    else o.lit 0

/-- src/plugins/para_curve.rs:154-173 -/
def g2 (gamma a b r : F) : F :=
  if tiny o gamma || tiny o a then o.lit 0
  else
    let val :=
      if o.lt r (o.lit 0) then o.lit 0
      else o.div (o.sub (o.powf r (o.div (o.lit 1) gamma)) b) a
    if o.lt val (o.lit 0) then o.lit 0 else val

/-- src/plugins/para_curve.rs:177-200 -/
def f3 (gamma a b c r : F) : F :=
  if tiny o a then o.lit 0
  else
    let disc := o.max (o.div (o.neg b) a) (o.lit 0)
    if o.le disc r then
      let e := o.add (o.mul a r) b
      if o.lt (o.lit 0) e then o.add (o.powf e gamma) c else o.lit 0
    else c

/-- src/plugins/para_curve.rs:204-225 -/
def g3 (gamma a b c r : F) : F :=
  if tiny o a then o.lit 0
  else if o.le c r then
    let e := o.sub r c
    if o.lt (o.lit 0) e then o.div (o.sub (o.powf e (o.div (o.lit 1) gamma)) b) a else o.lit 0
  else o.div (o.neg b) a

/-- src/plugins/para_curve.rs:229-247 -/
def f4 (gamma a b c d r : F) : F :=
  if o.le d r then
    let e := o.add (o.mul a r) b
    if o.lt (o.lit 0) e then o.powf e gamma else o.lit 0
  else o.mul r c

/-- src/plugins/para_curve.rs:251-274 -/
def g4 (gamma a b c d r : F) : F :=
  let e := o.add (o.mul a d) b
  let disc := if o.lt e (o.lit 0) then o.lit 0 else o.powf e gamma
  if o.le disc r then
    if tiny o gamma || tiny o a then o.lit 0
    else o.div (o.sub (o.powf r (o.div (o.lit 1) gamma)) b) a
  else if tiny o c then o.lit 0
  else o.div r c

/-- src/plugins/para_curve.rs:277-297 -/
def f5 (gamma a b c d e f r : F) : F :=
  if o.le d r then
    let e' := o.add (o.mul a r) b
    if o.lt (o.lit 0) e' then o.add (o.powf e' gamma) e else e
  else o.add (o.mul r c) f

/-- src/plugins/para_curve.rs:301-329 -/
def g5 (gamma a b c d e f r : F) : F :=
  let disc := o.add (o.mul c d) f
  if o.le disc r then
    let e' := o.sub r e
    if o.lt e' (o.lit 0) then o.lit 0
    else if tiny o gamma || tiny o a then o.lit 0
    else o.div (o.sub (o.powf e' (o.div (o.lit 1) gamma)) b) a
  else if tiny o c then o.lit 0
  else o.div (o.sub r f) c

/-- src/plugins/para_curve.rs:331-344 -/
def f6 (gamma a b c r : F) : F :=
  let e := o.add (o.mul a r) b
  if o.lt e (o.lit 0) then c else o.add (o.powf e gamma) c

/-- src/plugins/para_curve.rs:346-363 -/
def g6 (gamma a b c r : F) : F :=
  if tiny o a then o.lit 0
  else
    let e := o.sub r c
    if o.lt e (o.lit 0) then o.lit 0
    else o.div (o.sub (o.powf e (o.div (o.lit 1) gamma)) b) a

/-- src/plugins/para_curve.rs:365-378 -/
def f7 (gamma a b c d r : F) : F :=
  let e := o.add (o.mul b (o.powf r gamma)) c
  if o.le e (o.lit 0) then d else o.add (o.mul a (o.log10 e)) d

/-- src/plugins/para_curve.rs:382-395 -/
def g7 (gamma a b c d r : F) : F :=
  if o.lt gamma (o.lit tolerance) || o.lt a (o.lit tolerance) || o.lt b (o.lit tolerance) then o.lit 0
  else
    o.powf (o.div (o.sub (o.powf (o.lit 10) (o.div (o.sub r d) a)) c) b) (o.div (o.lit 1) gamma)

/-- src/plugins/para_curve.rs:397-405 -/
def f8 (a b c d e r : F) : F := o.add (o.mul a (o.powf b (o.add (o.mul c r) d))) e

/-- src/plugins/para_curve.rs:407-425 -/
def g8 (a b c d e r : F) : F :=
  let disc := o.sub r e
  if o.lt disc (o.lit 0) then o.lit 0
  else if tiny o a || tiny o c then o.lit 0
  else o.div (o.sub (o.div (o.log10 (o.div disc a)) (o.log10 b)) d) c

/-- src/plugins/para_curve.rs:427-434 -/
def f108 (g r : F) : F :=
  if tiny o g then o.lit 0
  else
    o.powf (o.sub (o.lit 1) (o.powf (o.sub (o.lit 1) r) (o.div (o.lit 1) g))) (o.div (o.lit 1) g)

/-- src/plugins/para_curve.rs:436-440 -/
def g108 (g r : F) : F := o.sub (o.lit 1) (o.powf (o.sub (o.lit 1) (o.powf r g)) g)

/-- `default_eval_parametric_fn`, src/plugins/para_curve.rs:93-446.  In every arm all parameters are fetched
before anything else happens; `ps[i]?` is `none` for an index panic. -/
def eval (type : Int32) (ps : List F) (r : F) : Option F :=
  match type.toInt with
  | 1 => do pure (f1 o (← ps[0]?) r)
  | -1 => do pure (g1 o (← ps[0]?) r)
  | 2 => do pure (f2 o (← ps[0]?) (← ps[1]?) (← ps[2]?) r)
  | -2 => do pure (g2 o (← ps[0]?) (← ps[1]?) (← ps[2]?) r)
  | 3 => do pure (f3 o (← ps[0]?) (← ps[1]?) (← ps[2]?) (← ps[3]?) r)
  | -3 => do pure (g3 o (← ps[0]?) (← ps[1]?) (← ps[2]?) (← ps[3]?) r)
  | 4 => do pure (f4 o (← ps[0]?) (← ps[1]?) (← ps[2]?) (← ps[3]?) (← ps[4]?) r)
  | -4 => do pure (g4 o (← ps[0]?) (← ps[1]?) (← ps[2]?) (← ps[3]?) (← ps[4]?) r)
  | 5 => do pure (f5 o (← ps[0]?) (← ps[1]?) (← ps[2]?) (← ps[3]?) (← ps[4]?) (← ps[5]?) (← ps[6]?) r)
  | -5 => do pure (g5 o (← ps[0]?) (← ps[1]?) (← ps[2]?) (← ps[3]?) (← ps[4]?) (← ps[5]?) (← ps[6]?) r)
  | 6 => do pure (f6 o (← ps[0]?) (← ps[1]?) (← ps[2]?) (← ps[3]?) r)
  | -6 => do pure (g6 o (← ps[0]?) (← ps[1]?) (← ps[2]?) (← ps[3]?) r)
  | 7 => do pure (f7 o (← ps[0]?) (← ps[1]?) (← ps[2]?) (← ps[3]?) (← ps[4]?) r)
  | -7 => do pure (g7 o (← ps[0]?) (← ps[1]?) (← ps[2]?) (← ps[3]?) (← ps[4]?) r)
  | 8 => do pure (f8 o (← ps[0]?) (← ps[1]?) (← ps[2]?) (← ps[3]?) (← ps[4]?) r)
  | -8 => do pure (g8 o (← ps[0]?) (← ps[1]?) (← ps[2]?) (← ps[3]?) (← ps[4]?) r)
  | 108 => do pure (f108 o (← ps[0]?) r)
  | -108 => do pure (g108 o (← ps[0]?) r)
  | 109 => do pure (sigmoidFactory o (← ps[0]?) r)
  | -109 => do pure (invertedSigmoidFactory o (← ps[0]?) r)
  | _ => some (o.lit 0)

/-- src/plugins/para_curve.rs:27-30 -/
structure Curve where
  functionCurveId : Int32
  parameterCount : UInt32
deriving DecidableEq, Repr

/-- src/plugins/para_curve.rs:31-80, the `curves` of `ParametricCurves::default()` -/
def defaultCurves : List Curve :=
  [⟨1, 1⟩, ⟨2, 3⟩, ⟨3, 4⟩, ⟨4, 5⟩, ⟨5, 7⟩, ⟨6, 4⟩, ⟨7, 5⟩, ⟨8, 5⟩, ⟨108, 1⟩, ⟨109, 1⟩]

/-- src/plugins/para_curve.rs:83-90, from index `i` on; the outer `none` is a panic. -/
def isInSetFrom (t : Target) (type : Int32) (i : Nat) : List Curve → Option (Option Nat)
  | [] => some none
  | c :: cs => do
    let a ← t.absI32 type
    if a = c.functionCurveId then some (some i) else isInSetFrom t type (i + 1) cs

/-- src/plugins/para_curve.rs:83-90 -/
def isInSet (t : Target) (curves : List Curve) (type : Int32) : Option (Option Nat) :=
  isInSetFrom t type 0 curves

end Curves

end Lcms
