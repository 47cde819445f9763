import Verif.Lemmas.CurvesReal
import Verif.Spec.Target
import Mathlib.Analysis.Complex.ExponentialBounds

/-! # Properties C60–C72: the parametric curves over the reals

`Maps type ps x y` says that the program, run in exact arithmetic, performs only defined operations at `x`
and returns `y`. -/

namespace Lcms.Props

open Lcms.Curves

/-! ### C60 -/

/-- **C60**: type 1 is `x ^ γ`, and type −1 inverts it in both directions. -/
theorem C60_gamma {g x : ℝ} (hg : 1 / 10000 ≤ g) (hx : 0 ≤ x) :
    Maps 1 [g] x (x ^ g) ∧ Maps (-1) [g] (x ^ g) x ∧
    Maps (-1) [g] x (x ^ (1 / g)) ∧ Maps 1 [g] (x ^ (1 / g)) x := by
  have h0 : 0 < g := by linarith
  refine ⟨maps1 h0.le hx, ?_, maps_1 hg hx, ?_⟩
  · have := maps_1 hg (Real.rpow_nonneg hx g)
    rwa [rpow_inv_cancel hx h0.ne'] at this
  · have := maps1 h0.le (Real.rpow_nonneg hx (1 / g))
    rwa [rpow_inv_cancel' hx h0.ne'] at this

example : Maps 1 [2] 3 9 ∧ Maps (-1) [2] 9 3 := by
  have h := C60_gamma (g := 2) (x := 3) (by norm_num) (by norm_num)
  norm_num at h
  exact ⟨h.1, h.2.1⟩

/-! ### C61 -/

/-- Below zero, both directions keep the input for `γ = 1` up to the tolerance and clip otherwise. -/
def C61_statement : Prop :=
  ∀ g r : ℝ, r < 0 → ∀ type ∈ [(1 : Int32), -1], Maps type [g] r (if |g - 1| < 1 / 10000 then r else 0)

/-- What type 1 does below zero. -/
theorem type1_negative (g : ℝ) {r : ℝ} (hr : r < 0) : Maps 1 [g] r (if |g| - 1 < 1 / 10000 then r else 0) := by
  show some (f1 realOps (some g) (some r)) = _
  unfold f1
  rw [if_pos (by rwa [r_lit0, r_lt])]
  simp only [r_abs, r_lit1, r_sub, r_tol, r_lt]
  split
  · rfl
  · rw [r_lit0]

/-- **C61** is violated: for `γ = 1/2` type 1 keeps negative inputs, type −1 clips them. -/
theorem C61_refuted : ¬ C61_statement := by
  intro h
  have h1 := h (1 / 2) (-1) (by norm_num) 1 (by simp)
  have h2 := (type1_negative (1 / 2) (show (-1 : ℝ) < 0 by norm_num)).unique h1
  rw [if_pos (by norm_num [abs_of_pos]), if_neg (by norm_num [abs_of_neg])] at h2
  norm_num at h2

/-- **C61**, what holds: type −1 always behaves as claimed; type 1 does exactly outside
`−1.0001 < γ ≤ 0.9999`. -/
theorem C61_negative_partial (g : ℝ) {r : ℝ} (hr : r < 0) :
    Maps (-1) [g] r (if |g - 1| < 1 / 10000 then r else 0) ∧
    (Maps 1 [g] r (if |g - 1| < 1 / 10000 then r else 0) ↔ ¬ (-(10001 / 10000) < g ∧ g ≤ 9999 / 10000)) := by
  constructor
  · show some (g1 realOps (some g) (some r)) = _
    unfold g1
    rw [if_pos (by rwa [r_lit0, r_lt])]
    simp only [r_abs, r_lit1, r_sub, r_tol, r_lt]
    split
    · rfl
    · rw [r_lit0]
  · have h1 := type1_negative g hr
    constructor
    · rintro h ⟨h2, h3⟩
      have h4 := h1.unique h
      rw [if_pos (by have := abs_lt.mpr (show -(10001 / 10000) < g ∧ g < 10001 / 10000 by constructor <;> linarith)
                     linarith), if_neg (by rw [abs_lt]; rintro ⟨h5, -⟩; linarith)] at h4
      linarith
    · intro h
      have : (|g| - 1 < 1 / 10000) ↔ (|g - 1| < 1 / 10000) := by
        rw [abs_lt]
        have ha : |g| < 10001 / 10000 ↔ -(10001 / 10000) < g ∧ g < 10001 / 10000 := abs_lt
        constructor
        · intro h5
          obtain ⟨h6, h7⟩ := ha.mp (by linarith)
          by_contra hc
          apply h
          refine ⟨h6, ?_⟩
          by_contra h8
          exact hc ⟨by linarith, by linarith⟩
        · rintro ⟨h5, h6⟩
          have := ha.mpr ⟨by linarith, by linarith⟩
          linarith
      simp only [this] at h1
      exact h1

/-- Both inverses keep −1 for `γ = 1` and clip it for `γ = 2`. -/
example : Maps (-1) [1] (-1) (-1) ∧ Maps 1 [1] (-1) (-1) ∧ Maps (-1) [2] (-1) 0 ∧ Maps 1 [2] (-1) 0 := by
  have h1 := C61_negative_partial 1 (show (-1 : ℝ) < 0 by norm_num)
  have h2 := C61_negative_partial 2 (show (-1 : ℝ) < 0 by norm_num)
  norm_num at h1 h2
  exact ⟨h1.1, h1.2, h2.1, h2.2⟩

/-! ### C62 -/

/-- **C62**: type 2 is `(ax + b)^γ` from `−b/a` on, and type −2 inverts it for non-negative `x`. -/
theorem C62_cie122 {g a b x : ℝ} (hg : 1 / 10000 ≤ g) (ha : 1 / 10000 ≤ a) (hx : 0 ≤ x) (hxb : -b / a ≤ x) :
    Maps 2 [g, a, b] x ((a * x + b) ^ g) ∧ Maps (-2) [g, a, b] ((a * x + b) ^ g) x := by
  have g0 : 0 < g := by linarith
  have a0 : 0 < a := by linarith
  have he : 0 ≤ a * x + b := by
    rw [div_le_iff₀ a0] at hxb
    linarith
  constructor
  · have := maps2 (b := b) g0 ha x
    rwa [max_eq_right he] at this
  · show some (g2 realOps (some g) (some a) (some b) (some ((a * x + b) ^ g))) = _
    have hp := Real.rpow_nonneg he g
    unfold g2
    have hq : (a * x + b - b) / a = x := by field_simp; ring
    rw [not_tiny' hg, not_tiny' ha]
    simp only [Bool.or_self, Bool.false_eq_true, if_false, r_lit0, r_lit1, r_lt, if_neg (not_lt.mpr hp),
      r_div _ g0.ne', r_pow hp (one_div_nonneg.mpr g0.le), rpow_inv_cancel he g0.ne', r_sub, r_div _ a0.ne', hq,
      if_neg (not_lt.mpr hx)]

/-- `(2x + 1)²` at 1, where the offset is positive, and `(2x − 1)²` at the corner 1/2. -/
example : Maps 2 [2, 2, 1] 1 9 ∧ Maps (-2) [2, 2, 1] 9 1 ∧ Maps (-2) [2, 2, -1] 0 (1 / 2) := by
  have h := C62_cie122 (g := 2) (a := 2) (b := 1) (x := 1) (by norm_num) (by norm_num) (by norm_num) (by norm_num)
  have h' := C62_cie122 (g := 2) (a := 2) (b := -1) (x := 1 / 2) (by norm_num) (by norm_num) (by norm_num)
    (by norm_num)
  norm_num at h h' ⊢
  exact ⟨h.1, h.2, h'.2⟩

/-! ### C63 -/

/-- **C63**: type 3 is `(ax + b)^γ + c` where `ax + b > 0`, and type −3 inverts it there. -/
theorem C63_iec61966_3 {g a b c x : ℝ} (hg : g ≠ 0) (ha : 1 / 10000 ≤ a) (hx : 0 ≤ x) (he : 0 < a * x + b) :
    Maps 3 [g, a, b, c] x ((a * x + b) ^ g + c) ∧ Maps (-3) [g, a, b, c] ((a * x + b) ^ g + c) x := by
  have a0 : 0 < a := by linarith
  have hp := Real.rpow_pos_of_pos he g
  constructor
  · show some (f3 realOps (some g) (some a) (some b) (some c) (some x)) = _
    unfold f3
    have hd : max (-b / a) 0 ≤ x := max_le (by rw [div_le_iff₀ a0]; linarith) hx
    rw [not_tiny' ha]
    simp only [Bool.false_eq_true, if_false, r_neg, r_div _ a0.ne', r_lit0, r_max, r_le, if_pos hd, r_mul, r_add,
      r_lt, if_pos he, r_pow_pos he]
  · show some (g3 realOps (some g) (some a) (some b) (some c) (some ((a * x + b) ^ g + c))) = _
    unfold g3
    have h1 : c ≤ (a * x + b) ^ g + c := by linarith
    have h2 : (a * x + b) ^ g + c - c = (a * x + b) ^ g := by ring
    have hq : (a * x + b - b) / a = x := by field_simp; ring
    rw [not_tiny' ha]
    simp only [Bool.false_eq_true, if_false, r_le, if_pos h1, r_sub, h2, r_lit0, r_lt, if_pos hp, r_lit1,
      r_div _ hg, r_pow_pos hp, rpow_inv_cancel he.le hg, r_div _ a0.ne', hq]

/-- `(2x + 1)² + 5` at 1, and a decreasing one: `(2x + 1)⁻¹`. -/
example : Maps 3 [2, 2, 1, 5] 1 14 ∧ Maps (-3) [2, 2, 1, 5] 14 1 ∧ Maps (-3) [-1, 2, 1, 0] (1 / 3) 1 := by
  have h := C63_iec61966_3 (g := 2) (a := 2) (b := 1) (c := 5) (x := 1) (by norm_num) (by norm_num) (by norm_num)
    (by norm_num)
  have h' := C63_iec61966_3 (g := -1) (a := 2) (b := 1) (c := 0) (x := 1) (by norm_num) (by norm_num)
    (by norm_num) (by norm_num)
  norm_num [Real.rpow_neg_one] at h h' ⊢
  exact ⟨h.1, h.2, h'.2⟩

/-! ### C64 -/

/-- **C64**: type 4 is `(ax + b)^γ` from `d` on and `cx` below, and type −4 inverts it everywhere if the
pieces do not overlap. -/
theorem C64_srgb {g a b c d : ℝ} (hg : 1 / 10000 ≤ g) (ha : 1 / 10000 ≤ a) (hc : 1 / 10000 ≤ c)
    (hd : 0 ≤ a * d + b) (hj : c * d ≤ (a * d + b) ^ g) (x : ℝ) :
    (d ≤ x → Maps 4 [g, a, b, c, d] x ((a * x + b) ^ g) ∧ Maps (-4) [g, a, b, c, d] ((a * x + b) ^ g) x) ∧
    (x < d → Maps 4 [g, a, b, c, d] x (c * x) ∧ Maps (-4) [g, a, b, c, d] (c * x) x) := by
  have g0 : 0 < g := by linarith
  have a0 : 0 < a := by linarith
  have c0 : 0 < c := by linarith
  have h4 := maps4 g0 a b c d x
  have hdisc : (if realOps.lt (realOps.add (realOps.mul (some a) (some d)) (some b)) (realOps.lit 0) = true
      then realOps.lit 0
      else realOps.powf (realOps.add (realOps.mul (some a) (some d)) (some b)) (some g)) =
      some ((a * d + b) ^ g) := by
    rw [if_neg (by rw [r_mul, r_add, r_lit0, r_lt]; linarith), r_mul, r_add, r_pow hd g0.le]
  constructor
  · intro hx
    have he : 0 ≤ a * x + b := by nlinarith
    have hp := Real.rpow_nonneg he g
    have hle : (a * d + b) ^ g ≤ (a * x + b) ^ g := Real.rpow_le_rpow hd (by nlinarith) g0.le
    have hq : (a * x + b - b) / a = x := by field_simp; ring
    rw [if_pos hx, max_eq_right he] at h4
    refine ⟨h4, ?_⟩
    show some (g4 realOps (some g) (some a) (some b) (some c) (some d) (some ((a * x + b) ^ g))) = _
    unfold g4
    simp only [hdisc]
    rw [if_pos (by rwa [r_le]), not_tiny' hg, not_tiny' ha]
    simp only [Bool.or_self, Bool.false_eq_true, if_false, r_lit1, r_div _ g0.ne', r_pow hp (one_div_nonneg.mpr g0.le),
      rpow_inv_cancel he g0.ne', r_sub, r_div _ a0.ne', hq]
  · intro hx
    rw [if_neg (not_le.mpr hx), mul_comm x c] at h4
    refine ⟨h4, ?_⟩
    show some (g4 realOps (some g) (some a) (some b) (some c) (some d) (some (c * x))) = _
    have hlt : c * x < (a * d + b) ^ g := lt_of_lt_of_le (by nlinarith) hj
    unfold g4
    simp only [hdisc]
    rw [if_neg (by rw [r_le]; linarith), not_tiny' hc, r_div _ c0.ne', mul_div_cancel_left₀ _ c0.ne']
    rfl

/-- `((x + 1)/2)²` from 1 on, `x/2` below, with a jump of 1/2 at the joint. -/
example : Maps 4 [2, 1 / 2, 1 / 2, 1 / 2, 1] 3 4 ∧ Maps (-4) [2, 1 / 2, 1 / 2, 1 / 2, 1] 4 3 ∧
    Maps 4 [2, 1 / 2, 1 / 2, 1 / 2, 1] (-3) (-3 / 2) ∧ Maps (-4) [2, 1 / 2, 1 / 2, 1 / 2, 1] (-3 / 2) (-3) := by
  have h := C64_srgb (g := 2) (a := 1 / 2) (b := 1 / 2) (c := 1 / 2) (d := 1) (by norm_num) (by norm_num)
    (by norm_num) (by norm_num) (by norm_num)
  have h1 := (h 3).1 (by norm_num)
  have h2 := (h (-3)).2 (by norm_num)
  norm_num at h1 h2 ⊢
  exact ⟨h1.1, h1.2, h2.1, h2.2⟩

/-! ### C65 -/

/-- **C65**: type 5 is `(ax + b)^γ + e` from `d` on and `cx + f` below, and type −5 inverts it everywhere if
the pieces do not overlap. -/
theorem C65_type5 {g a b c d e f : ℝ} (hg : 1 / 10000 ≤ g) (ha : 1 / 10000 ≤ a) (hc : 1 / 10000 ≤ c)
    (hd : 0 ≤ a * d + b) (hj : c * d + f ≤ (a * d + b) ^ g + e) (x : ℝ) :
    (d ≤ x → Maps 5 [g, a, b, c, d, e, f] x ((a * x + b) ^ g + e) ∧
      Maps (-5) [g, a, b, c, d, e, f] ((a * x + b) ^ g + e) x) ∧
    (x < d → Maps 5 [g, a, b, c, d, e, f] x (c * x + f) ∧ Maps (-5) [g, a, b, c, d, e, f] (c * x + f) x) := by
  have g0 : 0 < g := by linarith
  have a0 : 0 < a := by linarith
  have c0 : 0 < c := by linarith
  have h5 := maps5 g0 a b c d e f x
  constructor
  · intro hx
    have he : 0 ≤ a * x + b := by nlinarith
    have hp := Real.rpow_nonneg he g
    have hle : (a * d + b) ^ g ≤ (a * x + b) ^ g := Real.rpow_le_rpow hd (by nlinarith) g0.le
    have hq : (a * x + b - b) / a = x := by field_simp; ring
    rw [if_pos hx, max_eq_right he] at h5
    refine ⟨h5, ?_⟩
    show some (g5 realOps (some g) (some a) (some b) (some c) (some d) (some e) (some f)
      (some ((a * x + b) ^ g + e))) = _
    have hsub : (a * x + b) ^ g + e - e = (a * x + b) ^ g := by ring
    unfold g5
    rw [not_tiny' hg, not_tiny' ha, if_pos (by rw [r_mul, r_add, r_le]; linarith)]
    simp only [r_sub, hsub, r_lit0, r_lt, if_neg (not_lt.mpr hp), Bool.or_self, Bool.false_eq_true, if_false, r_lit1,
      r_div _ g0.ne', r_pow hp (one_div_nonneg.mpr g0.le), rpow_inv_cancel he g0.ne', r_div _ a0.ne', hq]
  · intro hx
    rw [if_neg (not_le.mpr hx), mul_comm x c] at h5
    refine ⟨h5, ?_⟩
    show some (g5 realOps (some g) (some a) (some b) (some c) (some d) (some e) (some f) (some (c * x + f))) = _
    unfold g5
    have hlt : c * x < c * d := by nlinarith
    have hsub : c * x + f - f = c * x := by ring
    rw [if_neg (by rw [r_mul, r_add, r_le]; linarith), not_tiny' hc, r_sub, hsub, r_div _ c0.ne',
      mul_div_cancel_left₀ _ c0.ne']
    rfl

/-- `((x + 1)/2)² + 1` from 1 on, `x/2 + 1` below. -/
example : Maps 5 [2, 1 / 2, 1 / 2, 1 / 2, 1, 1, 1] 3 5 ∧ Maps (-5) [2, 1 / 2, 1 / 2, 1 / 2, 1, 1, 1] 5 3 ∧
    Maps 5 [2, 1 / 2, 1 / 2, 1 / 2, 1, 1, 1] (-3) (-1 / 2) ∧
    Maps (-5) [2, 1 / 2, 1 / 2, 1 / 2, 1, 1, 1] (-1 / 2) (-3) := by
  have h := C65_type5 (g := 2) (a := 1 / 2) (b := 1 / 2) (c := 1 / 2) (d := 1) (e := 1) (f := 1) (by norm_num)
    (by norm_num) (by norm_num) (by norm_num) (by norm_num)
  have h1 := (h 3).1 (by norm_num)
  have h2 := (h (-3)).2 (by norm_num)
  norm_num at h1 h2 ⊢
  exact ⟨h1.1, h1.2, h2.1, h2.2⟩

/-! ### C66 -/

/-- **C66**: type 6 is `(ax + b)^γ + c` where `ax + b ≥ 0`, and type −6 inverts it there. -/
theorem C66_type6 {g a b c x : ℝ} (hg : 0 < g) (ha : 1 / 10000 ≤ |a|) (he : 0 ≤ a * x + b) :
    Maps 6 [g, a, b, c] x ((a * x + b) ^ g + c) ∧ Maps (-6) [g, a, b, c] ((a * x + b) ^ g + c) x := by
  have a0 : a ≠ 0 := by
    rintro rfl
    norm_num at ha
  have hp := Real.rpow_nonneg he g
  constructor
  · have := maps6 hg a b c x
    rwa [max_eq_right he] at this
  · show some (g6 realOps (some g) (some a) (some b) (some c) (some ((a * x + b) ^ g + c))) = _
    have hsub : (a * x + b) ^ g + c - c = (a * x + b) ^ g := by ring
    have hq : (a * x + b - b) / a = x := by field_simp; ring
    unfold g6
    rw [if_neg (not_tiny ha)]
    simp only [r_sub, hsub, r_lit0, r_lt, if_neg (not_lt.mpr hp), r_lit1, r_div _ hg.ne',
      r_pow hp (one_div_nonneg.mpr hg.le), rpow_inv_cancel he hg.ne', r_div _ a0, hq]

/-- `(1 − 2x)² + 5` at −1. -/
example : Maps 6 [2, -2, 1, 5] (-1) 14 ∧ Maps (-6) [2, -2, 1, 5] 14 (-1) := by
  have h := C66_type6 (g := 2) (a := -2) (b := 1) (c := 5) (x := -1) (by norm_num) (by norm_num [abs_of_neg])
    (by norm_num)
  norm_num at h
  exact h

/-! ### C67 -/

/-- **C67**: type 7 is `a log₁₀(b x^γ + c) + d` where the argument is positive, and type −7 inverts it there. -/
theorem C67_type7 {g a b c d x : ℝ} (hg : 1 / 10000 ≤ g) (ha : 1 / 10000 ≤ a) (hb : 1 / 10000 ≤ b) (hx : 0 ≤ x)
    (he : 0 < b * x ^ g + c) :
    Maps 7 [g, a, b, c, d] x (a * Real.logb 10 (b * x ^ g + c) + d) ∧
    Maps (-7) [g, a, b, c, d] (a * Real.logb 10 (b * x ^ g + c) + d) x := by
  have g0 : 0 < g := by linarith
  have a0 : 0 < a := by linarith
  have b0 : 0 < b := by linarith
  have hp := Real.rpow_nonneg hx g
  constructor
  · show some (f7 realOps (some g) (some a) (some b) (some c) (some d) (some x)) = _
    unfold f7
    simp only [r_pow hx g0.le, r_mul, r_add, r_lit0, r_le, if_neg (not_le.mpr he), r_log he]
  · show some (g7 realOps (some g) (some a) (some b) (some c) (some d)
      (some (a * Real.logb 10 (b * x ^ g + c) + d))) = _
    have h1 : (a * Real.logb 10 (b * x ^ g + c) + d - d) / a = Real.logb 10 (b * x ^ g + c) := by field_simp; ring
    have h2 : (10 : ℝ) ^ Real.logb 10 (b * x ^ g + c) = b * x ^ g + c :=
      Real.rpow_logb (by norm_num) (by norm_num) he
    have h3 : (b * x ^ g + c - c) / b = x ^ g := by field_simp; ring
    unfold g7
    have hno : (realOps.lt (some g) (realOps.lit tolerance) || realOps.lt (some a) (realOps.lit tolerance) ||
        realOps.lt (some b) (realOps.lit tolerance)) = false := by
      rw [← Bool.not_eq_true]
      simp only [Bool.or_eq_true, r_tol, r_lt, not_or, not_lt]
      exact ⟨⟨hg, ha⟩, hb⟩
    rw [hno]
    simp only [Bool.false_eq_true, if_false, r_sub, r_div _ a0.ne', h1, r_lit10, r_pow_pos (show (0 : ℝ) < 10 by norm_num),
      h2, r_div _ b0.ne', h3, r_lit1, r_div _ g0.ne', r_pow hp (one_div_nonneg.mpr g0.le), rpow_inv_cancel hx g0.ne']

/-- `3 log₁₀(x² + 1) + 5` at 3. -/
example : Maps 7 [2, 3, 1, 1, 5] 3 8 ∧ Maps (-7) [2, 3, 1, 1, 5] 8 3 := by
  have h := C67_type7 (g := 2) (a := 3) (b := 1) (c := 1) (d := 5) (x := 3) (by norm_num) (by norm_num)
    (by norm_num) (by norm_num) (by norm_num)
  norm_num at h
  exact h

/-! ### C68 -/

/-- Type −8 inverts type 8 for all non-degenerate parameters. -/
def C68_statement : Prop :=
  ∀ a b c d e x : ℝ, 1 / 10000 ≤ |a| → 1 / 10000 ≤ |c| → 0 < b → b ≠ 1 →
    ∀ y, Maps 8 [a, b, c, d, e] x y → Maps (-8) [a, b, c, d, e] y x

theorem type8 {b : ℝ} (hb : 0 < b) (a c d e x : ℝ) : Maps 8 [a, b, c, d, e] x (a * b ^ (c * x + d) + e) := by
  show some (f8 realOps (some a) (some b) (some c) (some d) (some e) (some x)) = _
  unfold f8
  rw [r_mul, r_add, r_pow_pos hb, r_mul, r_add]

/-- **C68** is violated for negative `a`: the inverse returns 0. -/
theorem C68_refuted : ¬ C68_statement := by
  intro h
  have h1 := h (-1) 2 1 0 0 1 (by norm_num) (by norm_num) (by norm_num) (by norm_num) _ (type8 (by norm_num) _ _ _ _ _)
  have h2 : Maps (-8) [-1, 2, 1, 0, 0] (-1 * 2 ^ ((1 : ℝ) * 1 + 0) + 0) 0 := by
    show some (g8 realOps (some (-1)) (some 2) (some 1) (some 0) (some 0) (some (-1 * 2 ^ ((1 : ℝ) * 1 + 0) + 0))) = _
    unfold g8
    rw [if_pos (by rw [r_sub, r_lit0, r_lt]; norm_num), r_lit0]
  have := h1.unique h2
  norm_num at this

/-- **C68**, the part that holds: for positive `a`, at every `x`. -/
theorem C68_type8_partial {a b c d e : ℝ} (ha : 1 / 10000 ≤ a) (hc : 1 / 10000 ≤ |c|) (hb : 0 < b) (hb1 : b ≠ 1)
    (x : ℝ) :
    Maps 8 [a, b, c, d, e] x (a * b ^ (c * x + d) + e) ∧ Maps (-8) [a, b, c, d, e] (a * b ^ (c * x + d) + e) x := by
  have a0 : 0 < a := by linarith
  have c0 : c ≠ 0 := by
    rintro rfl
    norm_num at hc
  refine ⟨type8 hb a c d e x, ?_⟩
  show some (g8 realOps (some a) (some b) (some c) (some d) (some e) (some (a * b ^ (c * x + d) + e))) = _
  have hp := Real.rpow_pos_of_pos hb (c * x + d)
  have h1 : a * b ^ (c * x + d) + e - e = a * b ^ (c * x + d) := by ring
  have h2 : a * b ^ (c * x + d) / a = b ^ (c * x + d) := by field_simp
  have h3 : 0 ≤ a * b ^ (c * x + d) := by positivity
  have hl : Real.logb 10 b ≠ 0 := by
    unfold Real.logb
    exact div_ne_zero (Real.log_ne_zero_of_pos_of_ne_one hb hb1) (Real.log_pos (by norm_num)).ne'
  have h4 : Real.logb 10 (b ^ (c * x + d)) / Real.logb 10 b = c * x + d := by
    rw [Real.logb_rpow_eq_mul_logb_of_pos hb]
    field_simp
  have h5 : (c * x + d - d) / c = x := by field_simp; ring
  unfold g8
  have ht : (tiny realOps (some a) || tiny realOps (some c)) = false := by
    rw [not_tiny' ha, Bool.false_or, ← Bool.not_eq_true]
    exact not_tiny hc
  rw [ht]
  simp only [r_sub, h1, r_lit0, r_lt, if_neg (not_lt.mpr h3), Bool.false_eq_true, if_false, r_div _ a0.ne', h2,
    r_log hp, r_log hb, r_div _ hl, h4, r_div _ c0, h5]

/-- **C68**, the part that fails, exactly: for every negative `a` the inverse answers 0 to every value of the
curve, so it is right at `x = 0` only. -/
theorem C68_negative {a b c d e : ℝ} (ha : a < 0) (hb : 0 < b) (x : ℝ) :
    Maps (-8) [a, b, c, d, e] (a * b ^ (c * x + d) + e) 0 := by
  show some (g8 realOps (some a) (some b) (some c) (some d) (some e) (some (a * b ^ (c * x + d) + e))) = _
  have hp := Real.rpow_pos_of_pos hb (c * x + d)
  unfold g8
  rw [if_pos (by rw [r_sub, r_lit0, r_lt]; nlinarith), r_lit0]

/-- `3 · 2^(1 − x) + 1` at −2. -/
example : Maps 8 [3, 2, -1, 1, 1] (-2) 25 ∧ Maps (-8) [3, 2, -1, 1, 1] 25 (-2) := by
  have h := C68_type8_partial (a := 3) (b := 2) (c := -1) (d := 1) (e := 1) (by norm_num)
    (by norm_num [abs_of_neg]) (by norm_num) (by norm_num) (-2)
  norm_num at h
  exact h

/-! ### C69 -/

/-- **C69**: type 108 maps the unit interval to itself, and type −108 inverts it there. -/
theorem C69_sshaped {g x : ℝ} (hg : 1 / 10000 ≤ g) (hx : 0 ≤ x) (hx1 : x ≤ 1) :
    ∃ y, y = (1 - (1 - x) ^ (1 / g)) ^ (1 / g) ∧ 0 ≤ y ∧ y ≤ 1 ∧ Maps 108 [g] x y ∧ Maps (-108) [g] y x := by
  have g0 : 0 < g := by linarith
  have hi : (0 : ℝ) ≤ 1 / g := by positivity
  have hu0 : 0 ≤ (1 - x) ^ (1 / g) := Real.rpow_nonneg (by linarith) _
  have hu1 : (1 - x) ^ (1 / g) ≤ 1 := Real.rpow_le_one (by linarith) (by linarith) hi
  have hv : 0 ≤ 1 - (1 - x) ^ (1 / g) := by linarith
  have hy : 0 ≤ (1 - (1 - x) ^ (1 / g)) ^ (1 / g) := Real.rpow_nonneg hv _
  refine ⟨_, rfl, hy, Real.rpow_le_one hv (by linarith) hi, ?_, ?_⟩
  · show some (f108 realOps (some g) (some x)) = _
    unfold f108
    rw [not_tiny' hg]
    simp only [Bool.false_eq_true, if_false, r_lit1, r_sub, r_div _ g0.ne', r_pow (show 0 ≤ 1 - x by linarith) hi,
      r_pow hv hi]
  · show some (g108 realOps (some g) (some _)) = _
    unfold g108
    have e1 : 1 - (1 - (1 - x) ^ (1 / g)) = (1 - x) ^ (1 / g) := by ring
    have e2 : 1 - (1 - x) = x := by ring
    rw [r_lit1, r_pow hy g0.le, rpow_inv_cancel' hv g0.ne', r_sub, e1, r_pow hu0 g0.le,
      rpow_inv_cancel' (show 0 ≤ 1 - x by linarith) g0.ne', r_sub, e2]

/-- `g = 1` is the identity; `g = 1/2` maps 1/2 to `(1 − 1/4)²`. -/
example : Maps 108 [1] (1 / 4) (1 / 4) ∧ Maps 108 [1 / 2] (1 / 2) (9 / 16) ∧ Maps (-108) [1 / 2] (9 / 16) (1 / 2) := by
  obtain ⟨y, hy, -, -, h, -⟩ := C69_sshaped (g := 1) (x := 1 / 4) (by norm_num) (by norm_num) (by norm_num)
  obtain ⟨z, hz, -, -, h1, h2⟩ := C69_sshaped (g := 1 / 2) (x := 1 / 2) (by norm_num) (by norm_num) (by norm_num)
  norm_num at hy hz
  rw [hy] at h
  rw [hz] at h1 h2
  exact ⟨h, h1, h2⟩

/-! ### C70 -/

/-- Type −109 inverts type 109. -/
def C70_statement : Prop :=
  ∀ k x : ℝ, k ≠ 0 → 0 ≤ x → x ≤ 1 → ∀ y, Maps 109 [k] x y → Maps (-109) [k] y x

theorem one_lt_log_ten : 1 < Real.log 10 := by
  rw [Real.lt_log_iff_exp_lt (by norm_num)]
  exact lt_trans Real.exp_one_lt_d9 (by norm_num)

/-- **C70** is violated: the inverse uses the decimal logarithm where the natural one is needed. -/
theorem C70_refuted : ¬ C70_statement := by
  intro h
  have h1 := h 1 1 (by norm_num) (by norm_num) (by norm_num) _ (maps109 (by norm_num) 1)
  have h2 := (maps_109 (k := 1) (by norm_num) 1).unique h1
  have h3 := one_lt_log_ten
  have h4 : ((2 : ℝ) * 1 - 1) / Real.log 10 = 1 := by linarith
  rw [div_eq_one_iff_eq (by linarith)] at h4
  linarith

/-- **C70**, exactly: for every `k ≠ 0` and every `x`, the round trip gives not `x` but `x` moved towards 1/2
by the factor `ln 10`; it is the identity only at 1/2. -/
theorem C70_sigmoid_partial {k : ℝ} (hk : k ≠ 0) (x : ℝ) :
    ∃ y, Maps 109 [k] x y ∧ Maps (-109) [k] y (1 / 2 + (x - 1 / 2) / Real.log 10) ∧
      (Maps (-109) [k] y x ↔ x = 1 / 2) := by
  have h3 := one_lt_log_ten
  have e : ((2 * x - 1) / Real.log 10 + 1) / 2 = 1 / 2 + (x - 1 / 2) / Real.log 10 := by
    field_simp
    ring
  have hm := maps_109 hk x
  rw [e] at hm
  refine ⟨sig k x, maps109 hk x, hm, ?_, ?_⟩
  · intro h
    have h4 := hm.unique h
    have h5 : (x - 1 / 2) / Real.log 10 = x - 1 / 2 := by linarith
    rw [div_eq_iff (by linarith)] at h5
    have h6 : (x - 1 / 2) * (Real.log 10 - 1) = 0 := by linarith
    rcases mul_eq_zero.mp h6 with h | h <;> linarith
  · intro h
    rw [h] at hm ⊢
    norm_num at hm ⊢
    exact hm

/-- The value the round trip gives at 0 is not 0, whatever `k`. -/
example (k : ℝ) (hk : k ≠ 0) : ¬ ∃ y, Maps 109 [k] 0 y ∧ Maps (-109) [k] y 0 := by
  rintro ⟨y, h1, h2⟩
  obtain ⟨z, h3, -, h4⟩ := C70_sigmoid_partial hk 0
  rw [h1.unique h3] at h2
  have := h4.mp h2
  norm_num at this

/-! ### C71 -/

/-- **C71**: for every `k ≠ 0`, type 109 is everywhere defined, strictly increasing, goes through (0,0),
(1/2,1/2) and (1,1), and so maps the unit interval to itself. -/
theorem C71_sigmoid {k : ℝ} (hk : k ≠ 0) :
    Maps 109 [k] 0 0 ∧ Maps 109 [k] (1 / 2) (1 / 2) ∧ Maps 109 [k] 1 1 ∧
    (∀ x, ∃ y, Maps 109 [k] x y) ∧
    (∀ x x' y y', x < x' → Maps 109 [k] x y → Maps 109 [k] x' y' → y < y') ∧
    (∀ x y, 0 ≤ x → x ≤ 1 → Maps 109 [k] x y → 0 ≤ y ∧ y ≤ 1) := by
  have h1 := sb_one_ne hk
  have e0 : sig k 0 = 0 := by
    unfold sig
    rw [show (2 : ℝ) * 0 - 1 = -1 by norm_num, sb_neg]
    field_simp
    norm_num
  have eh : sig k (1 / 2) = 1 / 2 := by
    unfold sig
    rw [show (2 : ℝ) * (1 / 2) - 1 = 0 by norm_num, sb_zero]
    norm_num
  have e1 : sig k 1 = 1 := by
    unfold sig
    rw [show (2 : ℝ) * 1 - 1 = 1 by norm_num]
    field_simp
    norm_num
  have hmono : ∀ x x', x < x' → sig k x < sig k x' := by
    have hpos : ∀ q : ℝ, 0 < q → ∀ x x', x < x' → sig q x < sig q x' := by
      intro q hq x x' h
      unfold sig
      have h2 := sb_one_pos hq
      have h3 := sb_strict hq (show 2 * x - 1 < 2 * x' - 1 by linarith)
      have h4 : 0 < 1 / 2 / sb q 1 := by positivity
      have := mul_lt_mul_of_pos_left h3 h4
      linarith
    intro x x' h
    rcases lt_or_gt_of_ne hk with hn | hp
    · rw [← sig_flip x, ← sig_flip x']
      exact hpos (-k) (by linarith) x x' h
    · exact hpos k hp x x' h
  have hm : ∀ x, Maps 109 [k] x (sig k x) := maps109 hk
  refine ⟨by rw [← e0]; simpa [e0] using hm 0, by have := hm (1 / 2); rwa [eh] at this,
    by have := hm 1; rwa [e1] at this, fun x => ⟨_, hm x⟩, ?_, ?_⟩
  · intro x x' y y' h hy hy'
    rw [← (hm x).unique hy, ← (hm x').unique hy']
    exact hmono x x' h
  · intro x y h0 h1' hy
    rw [← (hm x).unique hy]
    have hle : ∀ u v, u ≤ v → sig k u ≤ sig k v := by
      intro u v h
      rcases h.lt_or_eq with h | h
      · exact (hmono u v h).le
      · rw [h]
    exact ⟨e0 ▸ hle 0 x h0, e1 ▸ hle x 1 h1'⟩

/-- Negative `k` too: the curve stays increasing. -/
example : ∃ y, Maps 109 [-5] (1 / 4) y ∧ 0 < y ∧ y < 1 / 2 := by
  obtain ⟨h0, h2, -, h4, h5, -⟩ := C71_sigmoid (k := -5) (by norm_num)
  obtain ⟨y, hy⟩ := h4 (1 / 4)
  exact ⟨y, hy, h5 _ _ _ _ (by norm_num) h0 hy, h5 _ _ _ _ (by norm_num) hy h2⟩

/-! ### C72 -/

/-- The curve is defined and non-decreasing on a set. -/
def Rises (type : Int32) (ps : List ℝ) (s : Set ℝ) : Prop :=
  (∀ x ∈ s, ∃ y, Maps type ps x y) ∧
  ∀ x ∈ s, ∀ x' ∈ s, x ≤ x' → ∀ y y', Maps type ps x y → Maps type ps x' y' → y ≤ y'

theorem rises_of {type : Int32} {ps : List ℝ} {s : Set ℝ} (f : ℝ → ℝ) (hf : ∀ x ∈ s, Maps type ps x (f x))
    (hm : ∀ x ∈ s, ∀ x' ∈ s, x ≤ x' → f x ≤ f x') : Rises type ps s := by
  refine ⟨fun x hx => ⟨_, hf x hx⟩, ?_⟩
  intro x hx x' hx' h y y' hy hy'
  rw [← (hf x hx).unique hy, ← (hf x' hx').unique hy']
  exact hm x hx x' hx' h

/-- **C72**: types 1, 2, 4, 5 and 6 are defined and non-decreasing — type 1 from 0 on, the others
everywhere — for positive `γ`, non-negative slopes and, for the two-piece ones, a joint that does not
fall. -/
theorem C72_monotone {g a b c d e f : ℝ} (hg : 0 < g) (hc : 0 ≤ c) :
    Rises 1 [g] {x | 0 ≤ x} ∧
    (0 ≤ a → Rises 2 [g, a, b] Set.univ) ∧
    (0 ≤ a → c * d ≤ (max 0 (a * d + b)) ^ g → Rises 4 [g, a, b, c, d] Set.univ) ∧
    (0 ≤ a → c * d + f ≤ (max 0 (a * d + b)) ^ g + e → Rises 5 [g, a, b, c, d, e, f] Set.univ) ∧
    (0 ≤ a → Rises 6 [g, a, b, e] Set.univ) := by
  have hpow : ∀ x x' : ℝ, 0 ≤ a → x ≤ x' → (max 0 (a * x + b)) ^ g ≤ (max 0 (a * x' + b)) ^ g := by
    intro x x' ha h
    apply Real.rpow_le_rpow (le_max_left _ _) _ hg.le
    apply max_le_max le_rfl
    nlinarith
  refine ⟨?_, ?_, ?_, ?_, ?_⟩
  · exact rises_of (fun x => x ^ g) (fun x hx => maps1 hg.le hx)
      (fun x hx x' _ h => Real.rpow_le_rpow hx h hg.le)
  · intro ha
    rcases lt_or_ge a (1 / 10000) with ht | ht
    · refine rises_of (fun _ => 0) (fun x _ => ?_) (fun _ _ _ _ _ => le_rfl)
      show some (f2 realOps (some g) (some a) (some b) (some x)) = _
      unfold f2
      rw [if_pos (by rw [r_tiny, abs_of_nonneg ha]; exact ht), r_lit0]
    · exact rises_of _ (fun x _ => maps2 hg ht x) (fun x _ x' _ h => hpow x x' ha h)
  · intro ha hj
    refine rises_of _ (fun x _ => maps4 hg a b c d x) ?_
    intro x _ x' _ h
    by_cases h1 : d ≤ x
    · rw [if_pos h1, if_pos (h1.trans h)]
      exact hpow x x' ha h
    · rw [if_neg h1]
      by_cases h2 : d ≤ x'
      · rw [if_pos h2]
        have := hpow d x' ha h2
        nlinarith
      · rw [if_neg h2]
        nlinarith
  · intro ha hj
    refine rises_of _ (fun x _ => maps5 hg a b c d e f x) ?_
    intro x _ x' _ h
    by_cases h1 : d ≤ x
    · rw [if_pos h1, if_pos (h1.trans h)]
      have := hpow x x' ha h
      linarith
    · rw [if_neg h1]
      by_cases h2 : d ≤ x'
      · rw [if_pos h2]
        have := hpow d x' ha h2
        nlinarith
      · rw [if_neg h2]
        nlinarith
  · intro ha
    refine rises_of _ (fun x _ => maps6 hg a b e x) ?_
    intro x _ x' _ h
    have := hpow x x' ha h
    linarith

/-- `(2x)²` from 1 on and `x` below is increasing; `−2 < 1 < 3` are on different pieces. -/
example : ∀ y z, Maps 4 [2, 2, 0, 1, 1] (-2) y → Maps 4 [2, 2, 0, 1, 1] 3 z → y ≤ z := by
  intro y z hy hz
  have h := (C72_monotone (g := 2) (a := 2) (b := 0) (c := 1) (d := 1) (e := 0) (f := 0) (by norm_num)
    (by norm_num)).2.2.1 (by norm_num) (by norm_num)
  exact h.2 (-2) trivial 3 trivial (by norm_num) y z hy hz

end Lcms.Props
