import Mathlib.Data.Int.Log
import Mathlib.Data.Rat.Floor
import Mathlib.Algebra.Order.Floor.Semiring
import Verif.Model.Basic

/-!
# IEEE-754 binary64

A value-level model of Rust's `f64` (std / hardware, not in the repository): correctly rounded
(round to nearest, ties to even) basic arithmetic, signed zeros, infinities, one NaN (payloads are not
modelled).  Every finite value of the type is a binary64 number: magnitude `m * 2^(k-1074)` with
`m < 2^53`, `k < 2046` (a number may have several such spellings; only its value matters).
-/

namespace Lcms

/-- `f64` (the `f64` of src/io/io_handler.rs:488-503, src/plugins/para_curve.rs:93-467). -/
inductive F64 where
  | nan
  | inf (neg : Bool)
  | fin (neg : Bool) (m : Fin (2 ^ 53)) (k : Fin 2046)
deriving DecidableEq

namespace F64

/-- The exponent of the smallest positive binary64 number is `-bias`
(below the arithmetic of src/io/io_handler.rs:488-503, src/plugins/para_curve.rs:93-467). -/
def bias : Nat := 1074

/-- Magnitude of a finite number
(below the arithmetic of src/io/io_handler.rs:488-503, src/plugins/para_curve.rs:93-467). -/
def magVal (m k : Nat) : ℚ := (m : ℚ) * 2 ^ k / 2 ^ bias

/-- The rational value of a finite number, `none` for NaN and infinities
(below the arithmetic of src/io/io_handler.rs:488-503, src/plugins/para_curve.rs:93-467). -/
def val : F64 → Option ℚ
  | fin true m k => some (-(magVal m k))
  | fin false m k => some (magVal m k)
  | _ => none

/-- Round a non-negative rational to the nearest natural number, ties to even
(below the arithmetic of src/io/io_handler.rs:488-503, src/plugins/para_curve.rs:93-467). -/
def rneNat (x : ℚ) : Nat :=
  let f := ⌊x⌋₊
  if x - f < 1 / 2 then f
  else if 1 / 2 < x - f then f + 1
  else if f % 2 = 0 then f else f + 1

/-- Exponent index used for a positive magnitude
(below the arithmetic of src/io/io_handler.rs:488-503, src/plugins/para_curve.rs:93-467). -/
def expIdx (q : ℚ) : Nat := (Int.log 2 q + 1022).toNat

/-- Round a non-negative magnitude to binary64, with the given sign
(below the arithmetic of src/io/io_handler.rs:488-503, src/plugins/para_curve.rs:93-467). -/
def roundMag (neg : Bool) (q : ℚ) : F64 :=
  if q = 0 then fin neg 0 0 else
  let k := expIdx q
  let m := rneNat (q * 2 ^ bias / 2 ^ k)
  if h : m < 2 ^ 53 ∧ k < 2046 then fin neg ⟨m, h.1⟩ ⟨k, h.2⟩
  else if h : m = 2 ^ 53 ∧ k + 1 < 2046 then fin neg ⟨2 ^ 52, by decide⟩ ⟨k + 1, h.2⟩
  else inf neg

/-- Round a rational; an exact zero is `+0`
(below the arithmetic of src/io/io_handler.rs:488-503, src/plugins/para_curve.rs:93-467). -/
def round (q : ℚ) : F64 := if q < 0 then roundMag true (-q) else roundMag false q

/-- A literal, or an exact conversion such as `u16 as f64`
(src/io/io_handler.rs:494-502, src/plugins/para_curve.rs:93-467). -/
def ofRat (q : ℚ) : F64 := round q

/-- Sign bit (NaN counts as positive)
(below the arithmetic of src/io/io_handler.rs:488-503, src/plugins/para_curve.rs:93-467). -/
def sign : F64 → Bool
  | nan => false
  | inf s => s
  | fin s _ _ => s

/-- Below the arithmetic of src/io/io_handler.rs:488-503, src/plugins/para_curve.rs:93-467 -/
def isZero : F64 → Bool
  | fin _ m _ => m.val = 0
  | _ => false

/-- `-x` (src/plugins/para_curve.rs:138 and others) -/
def neg : F64 → F64
  | nan => nan
  | inf s => inf (!s)
  | fin s m k => fin (!s) m k

/-- `x.abs()` (src/plugins/para_curve.rs:100 and others) -/
def abs : F64 → F64
  | nan => nan
  | inf _ => inf false
  | fin _ m k => fin false m k

/-- Rational value of a finite number (0 otherwise; only used on finite numbers)
(below the arithmetic of src/io/io_handler.rs:488-503, src/plugins/para_curve.rs:93-467). -/
def ratOf (x : F64) : ℚ := x.val.getD 0

/-- `x + y` (src/io/io_handler.rs:494-502, src/plugins/para_curve.rs:93-467) -/
def add (x y : F64) : F64 :=
  match x, y with
  | nan, _ => nan
  | _, nan => nan
  | inf s, inf s' => if s = s' then inf s else nan
  | inf s, _ => inf s
  | _, inf s => inf s
  | fin s m k, fin s' m' k' =>
    let q := ratOf (fin s m k) + ratOf (fin s' m' k')
    if q = 0 then fin (s && s') 0 0 else round q

/-- `x - y` (src/io/io_handler.rs:494-502, src/plugins/para_curve.rs:93-467) -/
def sub (x y : F64) : F64 := add x (neg y)

/-- `x * y` (src/io/io_handler.rs:494-502, src/plugins/para_curve.rs:93-467) -/
def mul (x y : F64) : F64 :=
  match x, y with
  | nan, _ => nan
  | _, nan => nan
  | inf s, y => if isZero y then nan else inf (s != sign y)
  | x, inf s => if isZero x then nan else inf (sign x != s)
  | fin s m k, fin s' m' k' => roundMag (s != s') (magVal m k * magVal m' k')

/-- `x / y` (src/io/io_handler.rs:494-502, src/plugins/para_curve.rs:93-467) -/
def div (x y : F64) : F64 :=
  match x, y with
  | nan, _ => nan
  | _, nan => nan
  | inf _, inf _ => nan
  | inf s, y => inf (s != sign y)
  | x, inf s => fin (sign x != s) 0 0
  | fin s m k, fin s' m' k' =>
    if m'.val = 0 then (if m.val = 0 then nan else inf (s != s'))
    else roundMag (s != s') (magVal m k / magVal m' k')

/-- `x < y` (src/plugins/para_curve.rs:99 and others) -/
def lt (x y : F64) : Bool :=
  match x, y with
  | nan, _ => false
  | _, nan => false
  | inf s, inf s' => s && !s'
  | inf s, _ => s
  | _, inf s => !s
  | x, y => ratOf x < ratOf y

/-- `x <= y` (src/plugins/para_curve.rs:93-467) -/
def le (x y : F64) : Bool :=
  match x, y with
  | nan, _ => false
  | _, nan => false
  | inf s, inf s' => s || !s'
  | inf s, _ => s
  | _, inf s => !s
  | x, y => ratOf x ≤ ratOf y

/-- `f64::max`: ignores a NaN operand (src/plugins/para_curve.rs:93-467). -/
def max (x y : F64) : F64 :=
  match x, y with
  | nan, y => y
  | x, nan => x
  | x, y => if lt x y then y else x

/-- `x.floor()`: exact, keeps the sign of zero (src/io/io_handler.rs:502). -/
def floor (x : F64) : F64 :=
  match x with
  | nan => nan
  | inf s => inf s
  | fin s m k =>
    let f := ⌊ratOf (fin s m k)⌋
    if f = 0 then fin s 0 0 else round f

/-- `x as i32`: truncates toward zero, saturates, NaN becomes 0 (src/io/io_handler.rs:502). -/
def toI32 (x : F64) : Int32 :=
  match x with
  | nan => 0
  | inf true => Int32.minValue
  | inf false => Int32.maxValue
  | fin s m k =>
    let q := ratOf (fin s m k)
    let n : Int := if q < 0 then ⌈q⌉ else ⌊q⌋
    if n < -2147483648 then Int32.minValue
    else if 2147483647 < n then Int32.maxValue
    else Int32.ofInt n

end F64

/-- src/io/io_handler.rs:488-499 `s15f16_to_f64`.  `none` is the panic of `value.abs()` on `i32::MIN`
when overflow checks are compiled in. -/
def s15f16ToF64 (t : Target) (value : Int32) : Option F64 := do
  let sign := if value < 0 then F64.ofRat (-1) else F64.ofRat 1
  let value ← t.absI32 value
  let whole : UInt16 := ((value >>> 16) &&& 0xFFFF).toUInt32.toUInt16
  let fracPart : UInt16 := (value &&& 0xFFFF).toUInt32.toUInt16
  let mid := F64.div (F64.ofRat fracPart.toNat) (F64.ofRat 65536)
  let floater := F64.add (F64.ofRat whole.toNat) mid
  return F64.mul sign floater

/-- src/io/io_handler.rs:501-503 `f64_to_s15f16`. -/
def f64ToS15f16 (value : F64) : Int32 :=
  F64.toI32 (F64.floor (F64.add (F64.mul value (F64.ofRat 65536)) (F64.ofRat (1 / 2))))

end Lcms
