import Verif.Model.Curves

/-! # Lemmas: the evaluator over the reals -/

namespace Lcms.Curves

open Real

/-- Over the reals, the curve of that type with those parameters is defined at `x` — every operation the
program performs is — and has the value `y` there. -/
def Maps (type : Int32) (ps : List ℝ) (x y : ℝ) : Prop :=
  eval realOps type (ps.map some) (some x) = some (some y)

theorem r_lit (q : ℚ) : realOps.lit q = some (q : ℝ) := rfl
theorem r_lit0 : realOps.lit 0 = some 0 := by rw [r_lit]; norm_num
theorem r_lit1 : realOps.lit 1 = some 1 := by rw [r_lit]; norm_num
theorem r_lit2 : realOps.lit 2 = some 2 := by rw [r_lit]; norm_num
theorem r_lit10 : realOps.lit 10 = some 10 := by rw [r_lit]; norm_num
theorem r_lith : realOps.lit (1 / 2) = some (1 / 2) := by rw [r_lit]; norm_num
theorem r_tol : realOps.lit tolerance = some (1 / 10000) := by rw [r_lit]; norm_num [tolerance]
theorem r_add (x y : ℝ) : realOps.add (some x) (some y) = some (x + y) := rfl
theorem r_sub (x y : ℝ) : realOps.sub (some x) (some y) = some (x - y) := rfl
theorem r_mul (x y : ℝ) : realOps.mul (some x) (some y) = some (x * y) := rfl
theorem r_neg (x : ℝ) : realOps.neg (some x) = some (-x) := rfl
theorem r_abs (x : ℝ) : realOps.abs (some x) = some |x| := rfl
theorem r_max (x y : ℝ) : realOps.max (some x) (some y) = some (max x y) := rfl
theorem r_exp (x : ℝ) : realOps.exp (some x) = some (Real.exp x) := rfl
theorem r_div (x : ℝ) {y : ℝ} (h : y ≠ 0) : realOps.div (some x) (some y) = some (x / y) := if_neg h
theorem r_lt (x y : ℝ) : (realOps.lt (some x) (some y) = true) = (x < y) := by
  show (decide (x < y) = true) = _
  rw [decide_eq_true_eq]
theorem r_le (x y : ℝ) : (realOps.le (some x) (some y) = true) = (x ≤ y) := by
  show (decide (x ≤ y) = true) = _
  rw [decide_eq_true_eq]
theorem r_pow_pos {x : ℝ} (h : 0 < x) (y : ℝ) : realOps.powf (some x) (some y) = some (x ^ y) :=
  if_neg (by rintro (⟨h', -⟩ | ⟨h', -⟩) <;> linarith)
theorem r_pow {x y : ℝ} (h : 0 ≤ x) (hy : 0 ≤ y) : realOps.powf (some x) (some y) = some (x ^ y) :=
  if_neg (by rintro (⟨h', -⟩ | ⟨-, h'⟩) <;> linarith)
theorem r_log {x : ℝ} (h : 0 < x) : realOps.log10 (some x) = some (Real.logb 10 x) := if_pos h

/-- Values that are not tiny. -/
theorem r_tiny (x : ℝ) : (tiny realOps (some x) = true) = (|x| < 1 / 10000) := by
  unfold tiny
  rw [r_abs, r_tol, r_lt]

theorem not_tiny {x : ℝ} (h : 1 / 10000 ≤ |x|) : ¬ (tiny realOps (some x) = true) := by
  rw [r_tiny]; linarith

theorem not_tiny' {x : ℝ} (h : 1 / 10000 ≤ x) : tiny realOps (some x) = false := by
  rw [← Bool.not_eq_true]
  exact not_tiny (h.trans (le_abs_self x))

theorem rpow_inv_cancel {x g : ℝ} (hx : 0 ≤ x) (hg : g ≠ 0) : (x ^ g) ^ (1 / g) = x := by
  rw [← Real.rpow_mul hx, mul_one_div_cancel hg, Real.rpow_one]

theorem rpow_inv_cancel' {x g : ℝ} (hx : 0 ≤ x) (hg : g ≠ 0) : (x ^ (1 / g)) ^ g = x := by
  rw [← Real.rpow_mul hx, one_div_mul_cancel hg, Real.rpow_one]

/-! ### Closed forms of the forward curves -/

theorem maps1 {g x : ℝ} (hg : 0 ≤ g) (hx : 0 ≤ x) : Maps 1 [g] x (x ^ g) := by
  show some (f1 realOps (some g) (some x)) = _
  unfold f1
  rw [r_lit0, if_neg (by rw [r_lt]; linarith), r_pow hx hg]

theorem maps_1 {g x : ℝ} (hg : 1 / 10000 ≤ g) (hx : 0 ≤ x) : Maps (-1) [g] x (x ^ (1 / g)) := by
  show some (g1 realOps (some g) (some x)) = _
  have h0 : 0 < g := by linarith
  unfold g1
  rw [r_lit0, if_neg (by rw [r_lt]; linarith), not_tiny' hg, r_lit1, r_div _ h0.ne', r_pow hx (by positivity)]
  rfl

/-- The power branch: `e > 0 ? e^g : 0`. -/
theorem pow_branch {g : ℝ} (hg : 0 < g) (e : ℝ) :
    (if realOps.lt (realOps.lit 0) (some e) = true then realOps.powf (some e) (some g) else realOps.lit 0) =
      some ((max 0 e) ^ g) := by
  rw [r_lit0]
  by_cases h : 0 < e
  · rw [if_pos (by rwa [r_lt]), r_pow_pos h, max_eq_right h.le]
  · rw [if_neg (by rwa [r_lt]), max_eq_left (by linarith), Real.zero_rpow hg.ne']

theorem maps2 {g a b : ℝ} (hg : 0 < g) (ha : 1 / 10000 ≤ a) (x : ℝ) :
    Maps 2 [g, a, b] x ((max 0 (a * x + b)) ^ g) := by
  show some (f2 realOps (some g) (some a) (some b) (some x)) = _
  have h0 : 0 < a := by linarith
  unfold f2
  rw [not_tiny' ha]
  simp only [Bool.false_eq_true, if_false, r_neg, r_div _ h0.ne', r_mul, r_add, r_le]
  by_cases h : -b / a ≤ x
  · rw [if_pos h]
    exact congrArg some (pow_branch hg _)
  · rw [if_neg h, r_lit0]
    have : a * x + b < 0 := by
      rw [not_le, lt_div_iff₀ h0] at h
      linarith
    rw [max_eq_left this.le, Real.zero_rpow hg.ne']

theorem maps4 {g : ℝ} (hg : 0 < g) (a b c d x : ℝ) :
    Maps 4 [g, a, b, c, d] x (if d ≤ x then (max 0 (a * x + b)) ^ g else x * c) := by
  show some (f4 realOps (some g) (some a) (some b) (some c) (some d) (some x)) = _
  unfold f4
  simp only [r_mul, r_add, r_le]
  split
  · exact congrArg some (pow_branch hg _)
  · rfl

theorem maps5 {g : ℝ} (hg : 0 < g) (a b c d e f x : ℝ) :
    Maps 5 [g, a, b, c, d, e, f] x (if d ≤ x then (max 0 (a * x + b)) ^ g + e else x * c + f) := by
  show some (f5 realOps (some g) (some a) (some b) (some c) (some d) (some e) (some f) (some x)) = _
  unfold f5
  simp only [r_mul, r_add, r_le, r_lit0, r_lt]
  by_cases hd : d ≤ x
  · simp only [if_pos hd]
    by_cases h : 0 < a * x + b
    · rw [if_pos h, r_pow_pos h, r_add, max_eq_right h.le]
    · rw [if_neg h, max_eq_left (by linarith), Real.zero_rpow hg.ne', zero_add]
  · simp only [if_neg hd]

theorem maps6 {g : ℝ} (hg : 0 < g) (a b c x : ℝ) :
    Maps 6 [g, a, b, c] x ((max 0 (a * x + b)) ^ g + c) := by
  show some (f6 realOps (some g) (some a) (some b) (some c) (some x)) = _
  unfold f6
  simp only [r_mul, r_add, r_lit0, r_lt]
  by_cases h : a * x + b < 0
  · rw [if_pos h, max_eq_left h.le, Real.zero_rpow hg.ne', zero_add]
  · rw [if_neg h, r_pow (by linarith) hg.le, r_add, max_eq_right (by linarith)]

theorem Maps.unique {type : Int32} {ps : List ℝ} {x y z : ℝ} (h : Maps type ps x y) (h' : Maps type ps x z) :
    y = z := by
  unfold Maps at h h'
  rw [h] at h'
  simpa using h'

/-! ### The sigmoid -/

/-- `sigmoid_base` over the reals. -/
noncomputable def sb (k t : ℝ) : ℝ := 1 / (1 + Real.exp (-k * t)) - 1 / 2

theorem r_sb (k t : ℝ) : sigmoidBase realOps (some k) (some t) = some (sb k t) := by
  unfold sigmoidBase sb
  have h : (1 : ℝ) + Real.exp (-k * t) ≠ 0 := by positivity
  rw [r_neg, r_mul, r_exp, r_lit1, r_add, r_div _ h, r_lith, r_sub]

theorem sb_zero (k : ℝ) : sb k 0 = 0 := by unfold sb; norm_num

theorem sb_neg (k t : ℝ) : sb k (-t) = -sb k t := by
  unfold sb
  have h1 : Real.exp (-k * -t) = (Real.exp (-k * t))⁻¹ := by rw [← Real.exp_neg]; ring_nf
  rw [h1]
  have h := Real.exp_pos (-k * t)
  generalize Real.exp (-k * t) = u at h
  field_simp
  ring

theorem sb_strict {k : ℝ} (hk : 0 < k) : StrictMono (sb k) := by
  intro s t h
  unfold sb
  have h1 : Real.exp (-k * t) < Real.exp (-k * s) := by
    rw [Real.exp_lt_exp]
    nlinarith
  have h2 := Real.exp_pos (-k * t)
  have : 1 / (1 + Real.exp (-k * s)) < 1 / (1 + Real.exp (-k * t)) :=
    one_div_lt_one_div_of_lt (by linarith) (by linarith)
  linarith

theorem sb_flip (k t : ℝ) : sb (-k) t = sb k (-t) := by unfold sb; ring_nf

theorem sb_one_pos {k : ℝ} (hk : 0 < k) : 0 < sb k 1 := by
  have := sb_strict hk (show (0 : ℝ) < 1 by norm_num)
  rwa [sb_zero] at this

theorem sb_one_ne {k : ℝ} (hk : k ≠ 0) : sb k 1 ≠ 0 := by
  rcases lt_or_gt_of_ne hk with h | h
  · have : sb k 1 = -sb (-k) 1 := by rw [← sb_neg, sb_flip, neg_neg]
    rw [this]
    exact neg_ne_zero.mpr (sb_one_pos (by linarith)).ne'
  · exact (sb_one_pos h).ne'

/-- The normalised sigmoid. -/
noncomputable def sig (k x : ℝ) : ℝ := 1 / 2 / sb k 1 * sb k (2 * x - 1) + 1 / 2

theorem maps109 {k : ℝ} (hk : k ≠ 0) (x : ℝ) : Maps 109 [k] x (sig k x) := by
  show some (sigmoidFactory realOps (some k) (some x)) = _
  unfold sigmoidFactory
  simp only [r_lit1, r_sb, r_lith, r_lit2, r_mul, r_sub, r_div _ (sb_one_ne hk), r_add]
  rfl

theorem sig_flip {k : ℝ} (x : ℝ) : sig (-k) x = sig k x := by
  unfold sig
  rw [sb_flip, sb_flip, sb_neg, sb_neg]
  rw [div_neg, neg_mul_neg]

theorem maps_109 {k : ℝ} (hk : k ≠ 0) (x : ℝ) :
    Maps (-109) [k] (sig k x) (((2 * x - 1) / Real.log 10 + 1) / 2) := by
  show some (invertedSigmoidFactory realOps (some k) (some (sig k x))) = _
  have h1 := sb_one_ne hk
  have hc : (1 : ℝ) / 2 / sb k 1 ≠ 0 := div_ne_zero (by norm_num) h1
  have harg : (sig k x - 1 / 2) / (1 / 2 / sb k 1) = sb k (2 * x - 1) := by
    unfold sig
    field_simp
    ring
  have hexp := Real.exp_pos (-k * (2 * x - 1))
  have hs : sb k (2 * x - 1) + 1 / 2 = 1 / (1 + Real.exp (-k * (2 * x - 1))) := by unfold sb; ring
  have hs0 : sb k (2 * x - 1) + 1 / 2 ≠ 0 := by rw [hs]; positivity
  have hinv : 1 / (sb k (2 * x - 1) + 1 / 2) - 1 = Real.exp (-k * (2 * x - 1)) := by
    rw [hs, one_div_one_div]; ring
  unfold invertedSigmoidFactory invertedSigmoidBase
  simp only [r_lit1, r_sb, r_lith, r_lit2, r_sub, r_div _ h1, r_div _ hc, harg, r_add, r_div _ hs0, hinv,
    r_log hexp, r_neg, r_div _ hk, r_div _ (two_ne_zero' ℝ)]
  have hl : Real.log 10 ≠ 0 := (Real.log_pos (by norm_num)).ne'
  congr 3
  rw [Real.logb, Real.log_exp]
  field_simp

end Lcms.Curves
