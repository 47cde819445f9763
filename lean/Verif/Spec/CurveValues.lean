import Mathlib.Analysis.SpecialFunctions.Pow.Real
import Mathlib.Analysis.SpecialFunctions.Log.Base
import Verif.Spec.IccCurves

/-!
# Specification vocabulary: the values of the curves

What each curve is worth inside its domain (`Domain`), degenerate parameters and all, as a function of real
numbers.  Outside the domain the right-hand sides mean nothing.
-/

namespace Lcms.Spec

/-- `tanh (u / 2)` -/
noncomputable def tanhHalf (u : ℝ) : ℝ := (1 - Real.exp (-u)) / (1 + Real.exp (-u))

open Classical in
/-- The value of a curve with the parameters `ps` at `x`. -/
noncomputable def Value (type : Int) (ps : List ℝ) (x : ℝ) : ℝ :=
  match type, ps with
  | 1, [g] => if 0 ≤ x then x ^ g else if |g| < 10001 / 10000 then x else 0
  | -1, [g] => if 0 ≤ x then (if Tiny g then 10 ^ 22 else x ^ (1 / g)) else if Tiny (g - 1) then x else 0
  -- in particular 0 everywhere when `a` is negative
  | 2, [g, a, b] => if 1 / 10000 ≤ a ∧ 0 < a * x + b then (a * x + b) ^ g else 0
  | -2, [g, a, b] => if Tiny g ∨ Tiny a ∨ x < 0 then 0 else max 0 ((x ^ (1 / g) - b) / a)
  -- for positive `a`: the curve, 0 at the joint, `c` before; for negative `a` two constants
  | 3, [g, a, b, c] =>
    if 1 / 10000 ≤ a then
      if x < 0 ∨ a * x + b < 0 then c else if a * x + b = 0 then 0 else (a * x + b) ^ g + c
    else if a ≤ -(1 / 10000) then (if x < 0 ∨ 0 < a * x + b then c else 0)
    else 0
  | -3, [g, a, b, c] =>
    if Tiny a ∨ x = c then 0 else if x < c then -b / a else ((x - c) ^ (1 / g) - b) / a
  | 4, [g, a, b, c, d] => if x < d then c * x else if 0 < a * x + b then (a * x + b) ^ g else 0
  -- the pieces are told apart by comparison with the power at `d`
  | -4, [g, a, b, c, d] =>
    if (a * d + b < 0 ∧ x < 0) ∨ (a * d + b = 0 ∧ g < 0) ∨ (0 ≤ a * d + b ∧ x < (a * d + b) ^ g) then
      (if Tiny c then 0 else x / c)
    else if Tiny g ∨ Tiny a then 0 else (x ^ (1 / g) - b) / a
  | 5, [g, a, b, c, d, e, f] => if x < d then c * x + f else if 0 < a * x + b then (a * x + b) ^ g + e else e
  | -5, [g, a, b, c, d, e, f] =>
    if x < c * d + f then (if Tiny c then 0 else (x - f) / c)
    else if x < e ∨ Tiny g ∨ Tiny a then 0 else ((x - e) ^ (1 / g) - b) / a
  | 6, [g, a, b, c] => if a * x + b < 0 then c else (a * x + b) ^ g + c
  | -6, [g, a, b, c] => if Tiny a ∨ x < c then 0 else ((x - c) ^ (1 / g) - b) / a
  | 7, [g, a, b, c, d] => if b * x ^ g + c ≤ 0 then d else a * Real.logb 10 (b * x ^ g + c) + d
  | -7, [g, a, b, c, d] =>
    if g < 1 / 10000 ∨ a < 1 / 10000 ∨ b < 1 / 10000 then 0
    else (((10 : ℝ) ^ ((x - d) / a) - c) / b) ^ (1 / g)
  | 8, [a, b, c, d, e] => a * b ^ (c * x + d) + e
  | -8, [a, b, c, d, e] => if x < e ∨ Tiny a ∨ Tiny c then 0 else (Real.logb b ((x - e) / a) - d) / c
  | 108, [g] => if Tiny g then 0 else (1 - (1 - x) ^ (1 / g)) ^ (1 / g)
  | -108, [g] => 1 - (1 - x ^ g) ^ g
  | 109, [k] => (1 + tanhHalf (k * (2 * x - 1)) / tanhHalf k) / 2
  | -109, [k] =>
    (1 + Real.logb 10 ((1 + (2 * x - 1) * tanhHalf k) / (1 - (2 * x - 1) * tanhHalf k)) / k) / 2
  | _, _ => 0

end Lcms.Spec
