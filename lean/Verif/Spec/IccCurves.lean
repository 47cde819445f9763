import Mathlib.Analysis.SpecialFunctions.Pow.Real

/-!
# Specification vocabulary: the parametric curves of the ICC specification

ICC.1:2010-12, 10.16, table 65: function types 0–4, for `X` in `[0, 1]`, with the parameters in file order.
-/

namespace Lcms.Spec

/-- `y` is `x ^ g`, for the bases and exponents for which this has a meaning. -/
def Pow (x g y : ℝ) : Prop := (0 < x ∨ x = 0 ∧ 0 < g) ∧ y = x ^ g

/-- The value `Y` of a function type at `X`. -/
def Icc (fn : Nat) (ps : List ℝ) (X Y : ℝ) : Prop :=
  match fn, ps with
  | 0, [g] => Pow X g Y
  | 1, [g, a, b] => a ≠ 0 ∧ ((-b / a ≤ X ∧ Pow (a * X + b) g Y) ∨ (X < -b / a ∧ Y = 0))
  | 2, [g, a, b, c] => a ≠ 0 ∧ ((-b / a ≤ X ∧ Pow (a * X + b) g (Y - c)) ∨ (X < -b / a ∧ Y = c))
  | 3, [g, a, b, c, d] => (d ≤ X ∧ Pow (a * X + b) g Y) ∨ (X < d ∧ Y = c * X)
  | 4, [g, a, b, c, d, e, f] => (d ≤ X ∧ Pow (a * X + b) g (Y - e)) ∨ (X < d ∧ Y = c * X + f)
  | _, _ => False

/-- `x ^ g` has a value. -/
def HasPow (x g : ℝ) : Prop := 0 < x ∨ (x = 0 ∧ 0 ≤ g) ∨ (x < 0 ∧ ∃ n : ℤ, g = n)

/-- Below the tolerance `1/10000`. -/
def Tiny (x : ℝ) : Prop := |x| < 1 / 10000

/-- Where a curve has a value: for the parameters `ps`, the inputs `x`. -/
def Domain (type : Int) (ps : List ℝ) (x : ℝ) : Prop :=
  match type, ps with
  | 1, [g] => x ≠ 0 ∨ 0 ≤ g
  | -1, [g] => x ≠ 0 ∨ -(1 / 10000) < g
  | 2, [_, _, _] => True
  | -2, [g, a, _] => x ≠ 0 ∨ -(1 / 10000) < g ∨ Tiny a
  | 3, [_, _, _, _] => True
  | -3, [g, a, _, c] => x ≤ c ∨ g ≠ 0 ∨ Tiny a
  | 4, [_, _, _, _, _] => True
  | -4, [g, a, b, _, d] => x ≠ 0 ∨ -(1 / 10000) < g ∨ Tiny a ∨ 0 ≤ a * d + b
  | 5, [_, _, _, _, _, _, _] => True
  | -5, [g, a, _, c, d, e, f] => x ≠ e ∨ -(1 / 10000) < g ∨ Tiny a ∨ e < c * d + f
  | 6, [g, a, b, _] => a * x + b ≠ 0 ∨ 0 ≤ g
  | -6, [g, a, _, c] => x < c ∨ (c < x ∧ g ≠ 0) ∨ 0 < g ∨ Tiny a
  | 7, [g, _, _, _, _] => HasPow x g
  | -7, [g, a, b, c, d] =>
    g < 1 / 10000 ∨ a < 1 / 10000 ∨ b < 1 / 10000 ∨ HasPow (((10 : ℝ) ^ ((x - d) / a) - c) / b) (1 / g)
  | 8, [_, b, c, d, _] => HasPow b (c * x + d)
  | -8, [a, b, c, _, e] => x < e ∨ Tiny a ∨ Tiny c ∨ (0 < a ∧ e < x ∧ 0 < b ∧ b ≠ 1)
  | 108, [g] => Tiny g ∨ (HasPow (1 - x) (1 / g) ∧ HasPow (1 - (1 - x) ^ (1 / g)) (1 / g))
  | -108, [g] => HasPow x g ∧ HasPow (1 - x ^ g) g
  | 109, [k] => k ≠ 0
  | -109, [k] => k ≠ 0 ∧ |(2 * x - 1) * ((1 - Real.exp (-k)) / (1 + Real.exp (-k)))| < 1
  | _, _ => False

end Lcms.Spec
