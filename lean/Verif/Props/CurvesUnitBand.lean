import Verif.Props.CurvesUnit
import Verif.Props.CurvesSigmoid

/-!
# Property C120: how far below 0 the sigmoid can fall

`C120_sigmoid_below` shows a value below 0.  Here the fall is bounded.
-/

namespace Lcms.Props

open Lcms.Curves Lcms.Spec

/-- The sigmoid over the reals keeps the unit interval. -/
theorem sigmoid_unit {k x : ℝ} (hk : 0 < k) (hx : 0 ≤ x) : 0 ≤ Value 109 [k] x := by
  show 0 ≤ (1 + tanhHalf (k * (2 * x - 1)) / tanhHalf k) / 2
  have hp := (tanhHalf_pos hk).1
  have h1 : tanhHalf (-k) ≤ tanhHalf (k * (2 * x - 1)) := tanhHalf_mono (by nlinarith)
  rw [tanhHalf_neg] at h1
  have h2 : -1 ≤ tanhHalf (k * (2 * x - 1)) / tanhHalf k := by
    rw [le_div_iff₀ hp]
    linarith
  linarith

/-- **C120**, type 109: on a platform with an accurate and monotone `exp`, every number from 0 to 1 is sent to a number
that is at most 1 and falls below 0 by no more than the rounding error of C117. -/
theorem C120_sigmoid_band (l : Libm) (hm : MonoLibm l) (ε : ℝ) (hl : AccurateExp l ε) (hε : 0 ≤ ε) (hε' : ε ≤ 1 / 20000)
    (k r : F64) (K R : ℚ) (hk : F64.val k = some K) (hr : F64.val r = some R) (hK : 1 / 1000 ≤ K) (hK' : K ≤ 700)
    (hR : 0 ≤ R) (hR' : R ≤ 1) :
    ∃ z Z, eval (F64.ops l) 109 [k] r = some z ∧ F64.val z = some Z ∧ Z ≤ 1 ∧
      -((10 * (K : ℝ) * uu + 3 * ε + 16 * uu) / tanhHalf K) ≤ (Z : ℝ) := by
  have hK0 : (0 : ℚ) < K := lt_of_lt_of_le (by norm_num) hK
  obtain ⟨z, Z, h1, h2, h3⟩ := C117_type109 l ε hl hε hε' k r K R hk hr hK hK' hR hR'
  obtain ⟨o, O, o1, o2, -⟩ := C117_type109 l ε hl hε hε' k (F64.ofRat 1) K 1 hk (by decide +kernel) hK hK' (by norm_num)
    (by norm_num)
  refine ⟨z, Z, h1, h2, ?_, ?_⟩
  · have hfp : FinPos k := ⟨fin_of (by rw [hk]; rfl), (F64.lt_val (show F64.val (F64.ofRat 0) = some 0 by decide +kernel) hk).2 hK0⟩
    obtain ⟨-, hu⟩ := C120_type109 l hm k hfp (fun v hv => by
      rw [o1] at hv
      cases hv
      exact fin_of (by rw [o2]; rfl))
    obtain ⟨y, hy, hy1⟩ := hu r ((F64.le_val hr (show F64.val (F64.ofRat 1) = some 1 by decide +kernel)).2 hR')
    rw [h1] at hy
    cases hy
    exact (F64.le_val h2 (show F64.val (F64.ofRat 1) = some 1 by decide +kernel)).1 hy1
  · have hv : 0 ≤ Value 109 [(K : ℝ)] (R : ℝ) := sigmoid_unit (by exact_mod_cast hK0) (by exact_mod_cast hR)
    have := (abs_le.1 h3).1
    linarith

/-- With parameter 2 and an `exp` of two units in the last place, no value falls more than 84 half units below 0. -/
example (l : Libm) (hm : MonoLibm l) (hl : AccurateExp l (2 * uu)) (r : F64) (R : ℚ) (hr : F64.val r = some R) (hR : 0 ≤ R)
    (hR' : R ≤ 1) :
    ∃ z Z, eval (F64.ops l) 109 [F64.ofRat 2] r = some z ∧ F64.val z = some Z ∧ Z ≤ 1 ∧ -(84 * uu) ≤ (Z : ℝ) := by
  have hu := uu_pos
  have hu' := uu_tiny
  obtain ⟨z, Z, h1, h2, h3, h4⟩ := C120_sigmoid_band l hm (2 * uu) hl (by linarith) (by linarith) (F64.ofRat 2) r 2 R
    (by decide +kernel) hr (by norm_num) (by norm_num) hR hR'
  refine ⟨z, Z, h1, h2, h3, ?_⟩
  have hp := (tanhHalf_pos (show (0 : ℝ) < 2 by norm_num)).1
  have hg := tanhHalf_ge (show (0 : ℝ) < 2 by norm_num)
  rw [Rat.cast_ofNat] at h4
  have h5 : (10 * 2 * uu + 3 * (2 * uu) + 16 * uu) / tanhHalf 2 ≤ 84 * uu := by
    rw [div_le_iff₀ hp]
    nlinarith
  linarith

end Lcms.Props
