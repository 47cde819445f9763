import Verif.Props.CurvesSpecialLog

/-! # Property C117 continued: types 109 and -109, the sigmoid curves -/

namespace Lcms.Props

open Lcms.Curves Lcms.Spec

/-- `exp` of the numbers up to 701 is within a relative error of `ε`. -/
def AccurateExp (l : Libm) (ε : ℝ) : Prop :=
  ∀ (x : F64) (X : ℚ), F64.val x = some X → |(X : ℝ)| ≤ 701 →
    ∃ E : ℚ, F64.val (l.exp x) = some E ∧ |(E : ℝ) - Real.exp X| ≤ ε * Real.exp X

theorem uu_tiny : uu ≤ 1 / 1000000000000 := by unfold uu; norm_num

theorem val_ofRat2 : F64.val (F64.ofRat 2) = some 2 := by decide +kernel

theorem val_ofRatHalf : F64.val (F64.ofRat (1 / 2)) = some (1 / 2) := by decide +kernel

theorem rHi_100 : (2 : ℝ) ^ 100 ≤ rHi := pow_le_pow_right₀ (by norm_num) (by norm_num)

/-- The rounding error of a result of moderate size. -/
theorem rd_u {z : F64} {q : ℚ} (h : Correct z q) (hb : |(q : ℝ)| ≤ 2 ^ 100) :
    ∃ v : ℚ, F64.val z = some v ∧ |(v : ℝ) - q| ≤ uu * |(q : ℝ)| + uu / 100000 := by
  have hu := uu_pos
  obtain ⟨v, hv, he⟩ := rd_both h (by have := rHi_100; have := rHi_pos; linarith)
  refine ⟨v, hv, he.trans ?_⟩
  have h1 : rLo ≤ 1 / 100000 := rLo_le (by norm_num)
  have h2 : rLo * uu ≤ 1 / 100000 * uu := mul_le_mul_of_nonneg_right h1 hu.le
  linarith

theorem exp_bound : Real.exp 701 ≤ rHi / 64 := by
  have h1 : Real.exp 9 ≤ 2 ^ 13 := by
    have h2 := Real.exp_one_lt_d9
    have h3 : Real.exp 9 = Real.exp 1 ^ 9 := by
      rw [← Real.exp_nat_mul]
      norm_num
    rw [h3]
    calc Real.exp 1 ^ 9 ≤ 2.7182818286 ^ 9 := pow_le_pow_left₀ (Real.exp_pos 1).le h2.le 9
      _ ≤ 2 ^ 13 := by norm_num
  have h2 : Real.exp 701 ≤ Real.exp 702 := Real.exp_le_exp.mpr (by norm_num)
  have h3 : Real.exp 702 = Real.exp 9 ^ 78 := by
    rw [← Real.exp_nat_mul]
    norm_num
  have h4 : Real.exp 9 ^ 78 ≤ ((2 : ℝ) ^ 13) ^ 78 := pow_le_pow_left₀ (Real.exp_pos 9).le h1 78
  have h5 : rHi = ((2 : ℝ) ^ 13) ^ 78 * 2 ^ 8 := by
    unfold rHi
    rw [← pow_mul, ← pow_add]
  rw [h5]
  have h6 : (0 : ℝ) < ((2 : ℝ) ^ 13) ^ 78 := by positivity
  generalize ((2 : ℝ) ^ 13) ^ 78 = t at *
  linarith

/-- The logistic function does not increase distances. -/
theorem logistic_near (u v : ℝ) : |1 / (1 + Real.exp u) - 1 / (1 + Real.exp v)| ≤ |u - v| := by
  wlog h : v ≤ u generalizing u v
  · rw [abs_sub_comm, abs_sub_comm u]
    exact this v u (by linarith)
  have hu := Real.exp_pos u
  have hv := Real.exp_pos v
  have hm := Real.exp_le_exp.mpr h
  have hk : Real.exp u - Real.exp v ≤ Real.exp u * (u - v) := by
    have h1 := Real.add_one_le_exp (v - u)
    have h2 : Real.exp v = Real.exp u * Real.exp (v - u) := by rw [← Real.exp_add]; congr 1; ring
    rw [h2]
    nlinarith
  rw [div_sub_div _ _ (by positivity) (by positivity), abs_div, abs_of_pos (by positivity : 0 < (1 + Real.exp u) * (1 + Real.exp v)),
    div_le_iff₀ (by positivity), abs_of_nonneg (by linarith : 0 ≤ u - v),
    abs_of_nonpos (by linarith : 1 * (1 + Real.exp v) - (1 + Real.exp u) * 1 ≤ 0)]
  have h3 : 0 ≤ (u - v) * (1 + Real.exp v + Real.exp u * Real.exp v) :=
    mul_nonneg (by linarith) (by positivity)
  nlinarith

/-- The computed base of the sigmoid, `t` being slightly wrong. -/
theorem base_near {l : Libm} {ε τ : ℝ} (hl : AccurateExp l ε) (hε : 0 ≤ ε) (hε' : ε ≤ 1 / 20000) {k t : F64} {K T : ℚ}
    {T₀ : ℝ} (hk : F64.val k = some K) (ht : F64.val t = some T) (hK : 1 / 1000 ≤ (K : ℝ)) (hK' : (K : ℝ) ≤ 700)
    (hT₀ : |T₀| ≤ 1) (h : |(T : ℝ) - T₀| ≤ τ) (hτ' : τ ≤ 4 * uu) :
    ∃ B : ℚ, F64.val (sigmoidBase (F64.ops l) k t) = some B ∧
      |(B : ℝ) - tanhHalf (K * T₀) / 2| ≤ K * τ + 2 * (K * uu) + ε + 4 * uu := by
  have hu := uu_pos
  have hu' := uu_tiny
  have hτ : 0 ≤ τ := (abs_nonneg _).trans h
  have hK0 : (0 : ℝ) < K := by linarith
  have hKu : K * uu ≤ 700 * uu := mul_le_mul_of_nonneg_right hK' hu.le
  have hKu' : 1 / 1000 * uu ≤ K * uu := mul_le_mul_of_nonneg_right hK hu.le
  have hT1 : |(T : ℝ)| ≤ 1 + τ := by
    have := abs_add_le ((T : ℝ) - T₀) T₀
    rw [sub_add_cancel] at this
    linarith
  have hKT : |(K : ℝ) * T| ≤ K * (1 + τ) := by
    rw [abs_mul, abs_of_pos hK0]
    exact mul_le_mul_of_nonneg_left hT1 hK0.le
  have hKτ : K * τ ≤ K * (4 * uu) := mul_le_mul_of_nonneg_left hτ' hK0.le
  -- the argument
  obtain ⟨U, hU, hUe⟩ := rd_u ((C104_operations (F64.neg k) t (-K) T (F64.val_neg hk) ht).2.2.1) (by
    rw [Rat.cast_mul, Rat.cast_neg, neg_mul, abs_neg]
    linarith)
  rw [Rat.cast_mul, Rat.cast_neg, neg_mul, abs_neg] at hUe
  have hUd : |(U : ℝ) - -(K * T₀)| ≤ K * τ + 2 * (K * uu) := by
    have h1 : |(U : ℝ) - -(K * T₀)| ≤ |(U : ℝ) - -(K * T)| + |-((K : ℝ) * T) - -(K * T₀)| := abs_sub_le _ _ _
    have h2 : |-((K : ℝ) * T) - -(K * T₀)| ≤ K * τ := by
      rw [show -((K : ℝ) * T) - -(K * T₀) = -(K * (T - T₀)) by ring, abs_neg, abs_mul, abs_of_pos hK0]
      exact mul_le_mul_of_nonneg_left h hK0.le
    have h3 : uu * |(K : ℝ) * T| ≤ uu * (K * (1 + τ)) := mul_le_mul_of_nonneg_left hKT hu.le
    have h4 : uu * (K * τ) ≤ uu * (K * (4 * uu)) := mul_le_mul_of_nonneg_left hKτ hu.le
    have h5 : K * uu * uu ≤ K * uu * (1 / 1000000000000) := mul_le_mul_of_nonneg_left hu' (by positivity)
    linarith
  have hUle : |(U : ℝ)| ≤ 701 := by
    have h1 := abs_add_le ((U : ℝ) - -(K * T₀)) (-(K * T₀))
    rw [sub_add_cancel, abs_neg, abs_mul, abs_of_pos hK0] at h1
    have h2 : K * |T₀| ≤ K * 1 := mul_le_mul_of_nonneg_left hT₀ hK0.le
    linarith
  -- the exponential
  obtain ⟨E, hE, hEe⟩ := hl _ U hU hUle
  set x := Real.exp (U : ℝ) with hx
  have hx0 : 0 < x := Real.exp_pos _
  have hxle : x ≤ rHi / 64 := le_trans (Real.exp_le_exp.mpr ((le_abs_self _).trans hUle)) exp_bound
  have hEx := abs_le.mp hEe
  have hεx : ε * x ≤ 1 / 20000 * x := mul_le_mul_of_nonneg_right hε' hx0.le
  have hE0 : (0 : ℝ) < E := by linarith
  have hhi := rHi_big
  have e1 : |1 / (1 + (E : ℝ)) - 1 / (1 + x)| ≤ ε := by
    rw [div_sub_div _ _ (by positivity) (by positivity), abs_div,
      abs_of_pos (by positivity : 0 < (1 + (E : ℝ)) * (1 + x)), div_le_iff₀ (by positivity),
      show 1 * (1 + x) - (1 + (E : ℝ)) * 1 = -(E - x) by ring, abs_neg]
    refine hEe.trans (mul_le_mul_of_nonneg_left ?_ hε)
    have := mul_pos hE0 hx0
    linarith
  -- the sum
  obtain ⟨S, hS, hSe⟩ := rd_rel ((C104_operations (F64.ofRat 1) _ 1 E val_ofRat1 hE).1)
    (by rw [Rat.cast_add, Rat.cast_one]; exact rLo_le (by linarith))
    (by rw [Rat.cast_add, Rat.cast_one]; linarith)
  rw [Rat.cast_add, Rat.cast_one] at hSe
  have hSx := abs_le.mp hSe
  have h1E : uu * (1 + (E : ℝ)) ≤ 1 / 1000000000000 * (1 + (E : ℝ)) := mul_le_mul_of_nonneg_right hu' (by linarith)
  have hS0 : 99 / 100 ≤ (S : ℝ) := by linarith
  have hSpos : (0 : ℝ) < S := by linarith
  have hSne : S ≠ 0 := by
    have : (S : ℝ) ≠ 0 := hSpos.ne'
    exact_mod_cast this
  have e2 : |1 / (S : ℝ) - 1 / (1 + E)| ≤ 101 / 100 * uu := by
    rw [div_sub_div _ _ hSpos.ne' (by positivity), abs_div, abs_of_pos (by positivity : 0 < (S : ℝ) * (1 + E)),
      div_le_iff₀ (by positivity), show 1 * (1 + (E : ℝ)) - S * 1 = -(S - (1 + E)) by ring, abs_neg]
    refine hSe.trans ?_
    have : (1 + (E : ℝ)) * uu * 1 ≤ (1 + (E : ℝ)) * uu * (101 / 100 * S) :=
      mul_le_mul_of_nonneg_left (by linarith) (by positivity)
    linarith
  have e3 : |1 / (S : ℝ)| ≤ 101 / 99 := by
    rw [abs_of_pos (by positivity), div_le_iff₀ hSpos]
    linarith
  -- the reciprocal and the difference
  obtain ⟨Q, hQ, hQe⟩ := rd_u ((C104_operations (F64.ofRat 1) _ 1 S val_ofRat1 hS).2.2.2 hSne) (by
    rw [Rat.cast_div, Rat.cast_one]
    linarith)
  rw [Rat.cast_div, Rat.cast_one] at hQe
  have e4 : |(Q : ℝ) - 1 / (1 + x)| ≤ ε + 21 / 10 * uu := by
    have h1 : |(Q : ℝ) - 1 / (1 + x)| ≤ |(Q : ℝ) - 1 / S| + |1 / (S : ℝ) - 1 / (1 + x)| := abs_sub_le _ _ _
    have h2 : |1 / (S : ℝ) - 1 / (1 + x)| ≤ |1 / (S : ℝ) - 1 / (1 + E)| + |1 / (1 + (E : ℝ)) - 1 / (1 + x)| :=
      abs_sub_le _ _ _
    have h3 : uu * |1 / (S : ℝ)| ≤ uu * (101 / 99) := mul_le_mul_of_nonneg_left e3 hu.le
    linarith
  have hx1 : 1 / (1 + x) ≤ 1 := by
    rw [div_le_one (by positivity)]
    linarith
  have hx2 : 0 < 1 / (1 + x) := by positivity
  have hQ1 : |(Q : ℝ) - 1 / 2| ≤ 1 := by
    have := abs_le.mp e4
    rw [abs_le]
    constructor <;> linarith
  obtain ⟨B, hB, hBe⟩ := rd_u ((C104_operations _ (F64.ofRat (1 / 2)) Q (1 / 2) hQ val_ofRatHalf).2.1) (by
    push_cast
    linarith)
  push_cast at hBe
  refine ⟨B, hB, ?_⟩
  have hexact : tanhHalf (K * T₀) / 2 = 1 / (1 + Real.exp (-(K * T₀))) - 1 / 2 := by
    unfold tanhHalf
    have := Real.exp_pos (-(K * T₀))
    field_simp
    ring
  rw [hexact]
  have h1 : |(B : ℝ) - (1 / (1 + Real.exp (-(K * T₀))) - 1 / 2)| ≤
      |(B : ℝ) - (Q - 1 / 2)| + |((Q : ℝ) - 1 / 2) - (1 / (1 + Real.exp (-(K * T₀))) - 1 / 2)| := abs_sub_le _ _ _
  have h2 : ((Q : ℝ) - 1 / 2) - (1 / (1 + Real.exp (-(K * T₀))) - 1 / 2) =
      (Q - 1 / (1 + x)) + (1 / (1 + x) - 1 / (1 + Real.exp (-(K * T₀)))) := by ring
  rw [h2] at h1
  have h3 := abs_add_le ((Q : ℝ) - 1 / (1 + x)) (1 / (1 + x) - 1 / (1 + Real.exp (-(K * T₀))))
  have h4 := logistic_near (U : ℝ) (-(K * T₀))
  rw [← hx] at h4
  have h5 : uu * |(Q : ℝ) - 1 / 2| ≤ uu * 1 := mul_le_mul_of_nonneg_left hQ1 hu.le
  linarith

theorem tanhHalf_pos {k : ℝ} (h : 0 < k) : 0 < tanhHalf k ∧ tanhHalf k < 1 := by
  unfold tanhHalf
  have h1 : Real.exp (-k) < 1 := by rw [Real.exp_lt_one_iff]; linarith
  have h2 := Real.exp_pos (-k)
  exact ⟨div_pos (by linarith) (by linarith), by rw [div_lt_one (by linarith)]; linarith⟩

theorem tanhHalf_ge {k : ℝ} (h : 0 < k) : k / (2 + k) ≤ tanhHalf k := by
  unfold tanhHalf
  have h2 := Real.exp_pos (-k)
  have h3 : Real.exp (-k) * (1 + k) ≤ 1 := by
    have := Real.add_one_le_exp k
    have h4 : Real.exp (-k) * Real.exp k = 1 := by rw [← Real.exp_add]; simp
    nlinarith
  rw [div_le_div_iff₀ (by linarith) (by linarith)]
  linarith

theorem tanhHalf_neg (u : ℝ) : tanhHalf (-u) = -tanhHalf u := by
  unfold tanhHalf
  rw [neg_neg]
  have h : Real.exp u * Real.exp (-u) = 1 := by rw [← Real.exp_add]; simp
  have h1 := Real.exp_pos u
  have h2 := Real.exp_pos (-u)
  rw [← neg_div, div_eq_div_iff (by linarith) (by linarith)]
  linarith

theorem tanhHalf_mono {u v : ℝ} (h : u ≤ v) : tanhHalf u ≤ tanhHalf v := by
  unfold tanhHalf
  have h1 : Real.exp (-v) ≤ Real.exp (-u) := Real.exp_le_exp.mpr (by linarith)
  have h2 := Real.exp_pos (-u)
  have h3 := Real.exp_pos (-v)
  rw [div_le_div_iff₀ (by linarith) (by linarith)]
  linarith

theorem abs_tanhHalf_le {k s : ℝ} (hk : 0 < k) (hs : |s| ≤ 1) : |tanhHalf (k * s)| ≤ tanhHalf k := by
  have h := abs_le.mp hs
  rw [abs_le]
  constructor
  · rw [← tanhHalf_neg]
    exact tanhHalf_mono (by nlinarith)
  · exact tanhHalf_mono (by nlinarith)

/-- The computed correction factor. -/
theorem correction_near {l : Libm} {ε : ℝ} (hl : AccurateExp l ε) (hε : 0 ≤ ε) (hε' : ε ≤ 1 / 20000) {k : F64} {K : ℚ}
    (hk : F64.val k = some K) (hK : 1 / 1000 ≤ (K : ℝ)) (hK' : (K : ℝ) ≤ 700) :
    ∃ C : ℚ, F64.val (F64.div (F64.ofRat (1 / 2)) (sigmoidBase (F64.ops l) k (F64.ofRat 1))) = some C ∧
      |C * tanhHalf K - 1| ≤ 8 / 3 * ((2 * (K * uu) + ε + 4 * uu) / tanhHalf K) + 3 / 2 * uu := by
  have hu := uu_pos
  have hu' := uu_tiny
  have hK0 : (0 : ℝ) < K := by linarith
  have hKu : K * uu ≤ 700 * uu := mul_le_mul_of_nonneg_right hK' hu.le
  have hKu0 : 0 ≤ K * uu := by positivity
  obtain ⟨B, hB, hBe⟩ := base_near (τ := 0) (T₀ := 1) hl hε hε' hk val_ofRat1 hK hK' (by norm_num) (by norm_num) (by linarith)
  rw [mul_one, mul_zero, zero_add] at hBe
  obtain ⟨hT0, hT1⟩ := tanhHalf_pos hK0
  have hTge := tanhHalf_ge hK0
  set T := tanhHalf (K : ℝ) with hT
  set e := 2 * (K * uu) + ε + 4 * uu with he
  have hT2 : 1 / 2002 ≤ T := by
    refine le_trans ?_ hTge
    rw [div_le_div_iff₀ (by norm_num) (by linarith)]
    linarith
  have he0 : 0 ≤ e := by positivity
  have heT : e ≤ T / 8 := by linarith
  have hB1 := abs_le.mp hBe
  have hB2 : 3 / 8 * T ≤ (B : ℝ) := by linarith
  have hB0 : (0 : ℝ) < B := by linarith
  have hBne : B ≠ 0 := by
    have : (B : ℝ) ≠ 0 := hB0.ne'
    exact_mod_cast this
  have hq : |(1 / 2 : ℝ) / B| ≤ 4 / 3 / T := by
    rw [abs_of_pos (by positivity), div_le_div_iff₀ hB0 hT0]
    linarith
  have hq2 : 4 / 3 / T ≤ 4000 := by
    rw [div_le_iff₀ hT0]
    linarith
  obtain ⟨C, hC, hCe⟩ := rd_u ((C104_operations (F64.ofRat (1 / 2)) _ (1 / 2) B val_ofRatHalf hB).2.2.2 hBne) (by
    push_cast
    linarith)
  push_cast at hCe
  refine ⟨C, hC, ?_⟩
  have h1 : C * T - 1 = (C - 1 / 2 / B) * T + (1 / 2 / B * T - 1) := by ring
  rw [h1]
  have h2 := abs_add_le (((C : ℝ) - 1 / 2 / B) * T) (1 / 2 / B * T - 1)
  rw [abs_mul, abs_of_pos hT0] at h2
  have h3 : |(C : ℝ) - 1 / 2 / B| * T ≤ (uu * (4 / 3 / T) + uu / 100000) * T :=
    mul_le_mul_of_nonneg_right (hCe.trans (by
      have := mul_le_mul_of_nonneg_left hq hu.le
      linarith)) hT0.le
  have h4 : (uu * (4 / 3 / T) + uu / 100000) * T = 4 / 3 * uu + uu * T / 100000 := by
    field_simp
  have h5 : uu * T ≤ uu * 1 := mul_le_mul_of_nonneg_left hT1.le hu.le
  have h6 : |1 / 2 / B * T - 1| ≤ 8 / 3 * (e / T) := by
    have h7 : 1 / 2 / (B : ℝ) * T - 1 = -((B - T / 2) / B) := by
      field_simp
      ring
    rw [h7, abs_neg, abs_div, abs_of_pos hB0, div_le_iff₀ hB0]
    have h8 : 8 / 3 * (e / T) * (3 / 8 * T) ≤ 8 / 3 * (e / T) * B :=
      mul_le_mul_of_nonneg_left hB2 (by positivity)
    have h9 : 8 / 3 * (e / T) * (3 / 8 * T) = e := by field_simp
    linarith
  linarith

/-- **C117**, type 109. -/
theorem C117_type109 (l : Libm) (ε : ℝ) (hl : AccurateExp l ε) (hε : 0 ≤ ε) (hε' : ε ≤ 1 / 20000) (k r : F64) (K R : ℚ)
    (hk : F64.val k = some K) (hr : F64.val r = some R) (hK : 1 / 1000 ≤ K) (hK' : K ≤ 700) (hR : 0 ≤ R) (hR' : R ≤ 1) :
    ∃ z Z, eval (F64.ops l) 109 [k] r = some z ∧ F64.val z = some Z ∧
      |(Z : ℝ) - Value 109 [(K : ℝ)] R| ≤ (10 * K * uu + 3 * ε + 16 * uu) / tanhHalf K := by
  have hu := uu_pos
  have hu' := uu_tiny
  have hK1 : (1 / 1000 : ℝ) ≤ K := by
    have := (Rat.cast_le (K := ℝ)).mpr hK
    push_cast at this
    exact this
  have hK2 : (K : ℝ) ≤ 700 := by exact_mod_cast hK'
  have hR1 : (0 : ℝ) ≤ R := by exact_mod_cast hR
  have hR2 : (R : ℝ) ≤ 1 := by exact_mod_cast hR'
  have hK0 : (0 : ℝ) < K := by linarith
  have hKu : K * uu ≤ 700 * uu := mul_le_mul_of_nonneg_right hK2 hu.le
  have hKu0 : 0 ≤ K * uu := by positivity
  -- `2 t - 1`
  obtain ⟨D, hD, hDe⟩ := rd_u ((C104_operations (F64.ofRat 2) r 2 R val_ofRat2 hr).2.2.1) (by
    push_cast
    rw [abs_of_nonneg (by linarith)]
    linarith)
  push_cast at hDe
  rw [abs_of_nonneg (by linarith : (0 : ℝ) ≤ 2 * R)] at hDe
  have hDe' : |(D : ℝ) - 2 * R| ≤ 201 / 100 * uu := by
    have : uu * (2 * R) ≤ uu * 2 := mul_le_mul_of_nonneg_left (by linarith) hu.le
    linarith
  have hD1 := abs_le.mp hDe'
  have hD2 : |(D : ℝ) - 1| ≤ 101 / 100 := by
    rw [abs_le]
    constructor <;> linarith
  obtain ⟨T, hT, hTe⟩ := rd_u ((C104_operations _ (F64.ofRat 1) D 1 hD val_ofRat1).2.1) (by
    push_cast
    linarith)
  push_cast at hTe
  have hTe' : |(T : ℝ) - (2 * R - 1)| ≤ 4 * uu := by
    have h1 : |(T : ℝ) - (2 * R - 1)| ≤ |(T : ℝ) - (D - 1)| + |((D : ℝ) - 1) - (2 * R - 1)| := abs_sub_le _ _ _
    rw [show ((D : ℝ) - 1) - (2 * R - 1) = D - 2 * R by ring] at h1
    have h2 : uu * |(D : ℝ) - 1| ≤ uu * (101 / 100) := mul_le_mul_of_nonneg_left hD2 hu.le
    linarith
  have hs : |2 * (R : ℝ) - 1| ≤ 1 := by
    rw [abs_le]
    constructor <;> linarith
  obtain ⟨B, hB, hBe⟩ := base_near hl hε hε' hk hT hK1 hK2 hs hTe' (le_refl _)
  obtain ⟨C, hC, hCe⟩ := correction_near hl hε hε' hk hK1 hK2
  obtain ⟨hτ0, hτ1⟩ := tanhHalf_pos hK0
  have hτge := tanhHalf_ge hK0
  have hτs := abs_tanhHalf_le hK0 hs
  have hval : Value 109 [(K : ℝ)] R = (1 + tanhHalf (K * (2 * R - 1)) / tanhHalf K) / 2 := rfl
  rw [hval]
  set τ := tanhHalf (K : ℝ) with hτ
  set σ := tanhHalf ((K : ℝ) * (2 * R - 1)) with hσ
  have hτ2 : 1 / 2002 ≤ τ := by
    refine le_trans ?_ hτge
    rw [div_le_div_iff₀ (by norm_num) (by linarith)]
    linarith
  set e1 := 2 * (K * uu) + ε + 4 * uu with he1
  set e2 := K * (4 * uu) + 2 * (K * uu) + ε + 4 * uu with he2
  have he10 : 0 ≤ e1 := by positivity
  have he20 : 0 ≤ e2 := by positivity
  have he2τ : e2 ≤ τ / 8 := by linarith
  set κ := 8 / 3 * (e1 / τ) + 3 / 2 * uu with hκ
  have hκ0 : 0 ≤ κ := by positivity
  have he1τ : e1 / τ ≤ 1 / 8 := by
    rw [div_le_iff₀ hτ0]
    linarith
  -- the product
  have hBσ : |(B : ℝ)| ≤ 5 / 8 * τ := by
    have h1 := abs_add_le ((B : ℝ) - σ / 2) (σ / 2)
    rw [sub_add_cancel, abs_div, abs_two] at h1
    linarith
  have hprod : |(C : ℝ) * B - σ / τ / 2| ≤ 5 / 8 * κ + e2 / τ := by
    have h1 : (C : ℝ) * B - σ / τ / 2 = (C * τ - 1) * (B / τ) + (B - σ / 2) / τ := by
      field_simp
      ring
    rw [h1]
    have h2 := abs_add_le (((C : ℝ) * τ - 1) * (B / τ)) ((B - σ / 2) / τ)
    rw [abs_mul, abs_div, abs_div, abs_of_pos hτ0] at h2
    have h3 : |(B : ℝ)| / τ ≤ 5 / 8 := by
      rw [div_le_iff₀ hτ0]
      exact hBσ
    have h4 : |(C : ℝ) * τ - 1| * (|(B : ℝ)| / τ) ≤ κ * (5 / 8) :=
      mul_le_mul hCe h3 (by positivity) hκ0
    have h5 : |(B : ℝ) - σ / 2| / τ ≤ e2 / τ := div_le_div_of_nonneg_right hBe hτ0.le
    linarith
  have hστ : |σ / τ / 2| ≤ 1 / 2 := by
    rw [abs_div, abs_div, abs_two, abs_of_pos hτ0]
    have : |σ| / τ ≤ 1 := by
      rw [div_le_one hτ0]
      exact hτs
    linarith
  have he2τ' : e2 / τ ≤ 1 / 8 := by
    rw [div_le_iff₀ hτ0]
    linarith
  have hCB : |(C : ℝ) * B| ≤ 1 := by
    have h1 := abs_add_le ((C : ℝ) * B - σ / τ / 2) (σ / τ / 2)
    rw [sub_add_cancel] at h1
    linarith
  obtain ⟨P, hP, hPe⟩ := rd_u ((C104_operations _ _ C B hC hB).2.2.1) (by
    push_cast
    linarith)
  push_cast at hPe
  have hPe' : |(P : ℝ) - C * B| ≤ 101 / 100 * uu := by
    have : uu * |(C : ℝ) * B| ≤ uu * 1 := mul_le_mul_of_nonneg_left hCB hu.le
    linarith
  have hP1 : |(P : ℝ) + 1 / 2| ≤ 8 / 5 := by
    have h1 := abs_le.mp hPe'
    have h2 := abs_le.mp hCB
    rw [abs_le]
    constructor <;> linarith
  obtain ⟨Z, hZ, hZe⟩ := rd_u ((C104_operations _ (F64.ofRat (1 / 2)) P (1 / 2) hP val_ofRatHalf).1) (by
    push_cast
    linarith)
  push_cast at hZe
  refine ⟨_, Z, rfl, hZ, ?_⟩
  have h1 : |(Z : ℝ) - (1 + σ / τ) / 2| ≤ |(Z : ℝ) - (P + 1 / 2)| + |((P : ℝ) + 1 / 2) - (1 + σ / τ) / 2| :=
    abs_sub_le _ _ _
  have h2 : ((P : ℝ) + 1 / 2) - (1 + σ / τ) / 2 = (P - C * B) + (C * B - σ / τ / 2) := by ring
  rw [h2] at h1
  have h3 := abs_add_le ((P : ℝ) - C * B) (C * B - σ / τ / 2)
  have h4 : uu * |(P : ℝ) + 1 / 2| ≤ uu * (8 / 5) := mul_le_mul_of_nonneg_left hP1 hu.le
  have h5 : 5 / 3 * (e1 / τ) + e2 / τ + 4 * (uu / τ) ≤ (10 * K * uu + 3 * ε + 16 * uu) / τ := by
    have : 5 / 3 * (e1 / τ) + e2 / τ + 4 * (uu / τ) = (5 / 3 * e1 + e2 + 4 * uu) / τ := by ring
    rw [this]
    refine div_le_div_of_nonneg_right ?_ hτ0.le
    rw [he1, he2]
    linarith
  have h6 : uu ≤ uu / τ := by
    rw [le_div_iff₀ hτ0]
    have := mul_le_mul_of_nonneg_left hτ1.le hu.le
    linarith
  linarith

/-- Type 109 with 2 at 1: within 84 half units of 1. -/
example (l : Libm) (hl : AccurateExp l (2 * uu)) :
    ∃ z Z, eval (F64.ops l) 109 [F64.ofRat 2] (F64.ofRat 1) = some z ∧ F64.val z = some Z ∧ |(Z : ℝ) - 1| ≤ 84 * uu := by
  have hu := uu_pos
  have hu' := uu_small
  obtain ⟨z, Z, h1, h2, h3⟩ := C117_type109 l (2 * uu) hl (by linarith) (by linarith) (F64.ofRat 2) (F64.ofRat 1) 2 1
    (by decide +kernel) (by decide +kernel) (by norm_num) (by norm_num) (by norm_num) (by norm_num)
  have hp := (tanhHalf_pos (show (0 : ℝ) < 2 by norm_num)).1
  have hg := tanhHalf_ge (show (0 : ℝ) < 2 by norm_num)
  have hv : Value 109 [((2 : ℚ) : ℝ)] ((1 : ℚ) : ℝ) = 1 := by
    show (1 + tanhHalf (((2 : ℚ) : ℝ) * (2 * ((1 : ℚ) : ℝ) - 1)) / tanhHalf ((2 : ℚ) : ℝ)) / 2 = 1
    push_cast
    rw [show (2 : ℝ) * (2 * 1 - 1) = 2 by norm_num, div_self hp.ne']
    norm_num
  rw [hv, Rat.cast_ofNat] at h3
  refine ⟨z, Z, h1, h2, h3.trans ?_⟩
  rw [div_le_iff₀ hp]
  have : 84 * uu * (2 / (2 + 2)) ≤ 84 * uu * tanhHalf 2 := mul_le_mul_of_nonneg_left hg (by linarith)
  linarith

end Lcms.Props
