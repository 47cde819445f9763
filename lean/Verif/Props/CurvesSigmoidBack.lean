import Verif.Props.CurvesSigmoid

/-! # Property C117 continued: type -109, and a library with an accurate `exp` -/

namespace Lcms.Props

open Lcms.Curves Lcms.Spec

/-- The computed argument of the logarithm of type -109, before the reciprocal. -/
theorem shifted_near {l : Libm} {ε : ℝ} (hl : AccurateExp l ε) (hε : 0 ≤ ε) (hε' : ε ≤ 1 / 20000) {k r : F64} {K R : ℚ}
    (hk : F64.val k = some K) (hr : F64.val r = some R) (hK : 1 / 1000 ≤ (K : ℝ)) (hK' : (K : ℝ) ≤ 700)
    (hR : 0 ≤ (R : ℝ)) (hR' : (R : ℝ) ≤ 1) :
    ∃ W : ℚ, F64.val (F64.add (F64.div (F64.sub r (F64.ofRat (1 / 2)))
        (F64.div (F64.ofRat (1 / 2)) (sigmoidBase (F64.ops l) k (F64.ofRat 1)))) (F64.ofRat (1 / 2))) = some W ∧
      |(W : ℝ) - (1 + (2 * R - 1) * tanhHalf K) / 2| ≤ 6 * (K * uu) + 3 * ε + 16 * uu := by
  have hu := uu_pos
  have hu' := uu_tiny
  have hK0 : (0 : ℝ) < K := by linarith
  have hKu : K * uu ≤ 700 * uu := mul_le_mul_of_nonneg_right hK' hu.le
  have hKu0 : 0 ≤ K * uu := by positivity
  obtain ⟨C, hC, hCe⟩ := correction_near hl hε hε' hk hK hK'
  obtain ⟨hτ0, hτ1⟩ := tanhHalf_pos hK0
  have hτge := tanhHalf_ge hK0
  set τ := tanhHalf (K : ℝ) with hτ
  have hτ2 : 1 / 2002 ≤ τ := by
    refine le_trans ?_ hτge
    rw [div_le_div_iff₀ (by norm_num) (by linarith)]
    linarith
  set e := 2 * (K * uu) + ε + 4 * uu with he
  have he0 : 0 ≤ e := by positivity
  have heτ : e / τ ≤ 1 / 8 := by
    rw [div_le_iff₀ hτ0]
    linarith
  set κ := 8 / 3 * (e / τ) + 3 / 2 * uu with hκ
  have hκ1 : κ ≤ 1 / 2 := by linarith
  have hCτ := abs_le.mp hCe
  have hC0 : (0 : ℝ) < C := by
    by_contra hn
    have : (C : ℝ) * τ ≤ 0 := mul_nonpos_of_nonpos_of_nonneg (by linarith) hτ0.le
    linarith
  have hCne : C ≠ 0 := by
    have : (C : ℝ) ≠ 0 := hC0.ne'
    exact_mod_cast this
  have hinv : 1 / (C : ℝ) ≤ 2 * τ := by
    rw [div_le_iff₀ hC0]
    linarith
  -- the difference
  have hr2 : |(R : ℝ) - 1 / 2| ≤ 1 / 2 := by
    rw [abs_le]
    constructor <;> linarith
  obtain ⟨D, hD, hDe⟩ := rd_u ((C104_operations r (F64.ofRat (1 / 2)) R (1 / 2) hr val_ofRatHalf).2.1) (by
    push_cast
    linarith)
  push_cast at hDe
  have hDe' : |(D : ℝ) - (R - 1 / 2)| ≤ 51 / 100 * uu := by
    have : uu * |(R : ℝ) - 1 / 2| ≤ uu * (1 / 2) := mul_le_mul_of_nonneg_left hr2 hu.le
    linarith
  -- the quotient
  have hquo : |(D : ℝ) / C - (R - 1 / 2) * τ| ≤ 8 / 3 * e + 53 / 20 * uu := by
    have h1 : (D : ℝ) / C - (R - 1 / 2) * τ = (D - (R - 1 / 2)) * (1 / C) - (R - 1 / 2) * ((C * τ - 1) * (1 / C)) := by
      field_simp
      ring
    rw [h1]
    have h2 := abs_sub (((D : ℝ) - (R - 1 / 2)) * (1 / C)) ((R - 1 / 2) * ((C * τ - 1) * (1 / C)))
    have hi : |1 / (C : ℝ)| ≤ 2 * τ := by rwa [abs_of_pos (by positivity)]
    rw [abs_mul, abs_mul, abs_mul] at h2
    have h3 : |(D : ℝ) - (R - 1 / 2)| * |1 / (C : ℝ)| ≤ 51 / 100 * uu * (2 * τ) :=
      mul_le_mul hDe' hi (abs_nonneg _) (by positivity)
    have h4 : |(C : ℝ) * τ - 1| * |1 / (C : ℝ)| ≤ κ * (2 * τ) :=
      mul_le_mul hCe hi (abs_nonneg _) (by positivity)
    have h5 : |(R : ℝ) - 1 / 2| * (|(C : ℝ) * τ - 1| * |1 / (C : ℝ)|) ≤ 1 / 2 * (κ * (2 * τ)) :=
      mul_le_mul hr2 h4 (by positivity) (by norm_num)
    have h6 : 1 / 2 * (κ * (2 * τ)) = 8 / 3 * e + 3 / 2 * (uu * τ) := by
      rw [hκ]
      field_simp
    have h7 : uu * τ ≤ uu * 1 := mul_le_mul_of_nonneg_left hτ1.le hu.le
    linarith
  have hv0 : |((R : ℝ) - 1 / 2) * τ| ≤ 1 / 2 := by
    rw [abs_mul, abs_of_pos hτ0]
    have : |(R : ℝ) - 1 / 2| * τ ≤ 1 / 2 * 1 := mul_le_mul hr2 hτ1.le hτ0.le (by norm_num)
    linarith
  have he1 : e ≤ 1 / 16 := by linarith
  have hDC : |(D : ℝ) / C| ≤ 3 / 4 := by
    have h1 := abs_add_le ((D : ℝ) / C - (R - 1 / 2) * τ) ((R - 1 / 2) * τ)
    rw [sub_add_cancel] at h1
    linarith
  obtain ⟨V, hV, hVe⟩ := rd_u ((C104_operations _ _ D C hD hC).2.2.2 hCne) (by
    push_cast
    linarith)
  push_cast at hVe
  have hVe' : |(V : ℝ) - D / C| ≤ uu := by
    have : uu * |(D : ℝ) / C| ≤ uu * (3 / 4) := mul_le_mul_of_nonneg_left hDC hu.le
    linarith
  have hV1 : |(V : ℝ) + 1 / 2| ≤ 13 / 10 := by
    have h1 := abs_le.mp hVe'
    have h2 := abs_le.mp hDC
    rw [abs_le]
    constructor <;> linarith
  obtain ⟨W, hW, hWe⟩ := rd_u ((C104_operations _ (F64.ofRat (1 / 2)) V (1 / 2) hV val_ofRatHalf).1) (by
    push_cast
    linarith)
  push_cast at hWe
  refine ⟨W, hW, ?_⟩
  have h1 : |(W : ℝ) - (1 + (2 * R - 1) * τ) / 2| ≤
      |(W : ℝ) - (V + 1 / 2)| + |((V : ℝ) + 1 / 2) - (1 + (2 * R - 1) * τ) / 2| := abs_sub_le _ _ _
  have h2 : ((V : ℝ) + 1 / 2) - (1 + (2 * R - 1) * τ) / 2 = (V - D / C) + (D / C - (R - 1 / 2) * τ) := by ring
  rw [h2] at h1
  have h3 := abs_add_le ((V : ℝ) - D / C) (D / C - (R - 1 / 2) * τ)
  have h4 : uu * |(V : ℝ) + 1 / 2| ≤ uu * (13 / 10) := mul_le_mul_of_nonneg_left hV1 hu.le
  rw [he] at hquo
  linarith

/-- The relative error of `1 / w - 1` in terms of the error of `w`. -/
theorem odds_near {x : F64} {X : ℚ} {w e : ℝ} (hx : F64.val x = some X) (hw : 0 < w) (hw' : w < 1)
    (h : |(X : ℝ) - w| ≤ e) (hm : 8 * (e + uu) ≤ w * (1 - w)) :
    ∃ Q : ℚ, F64.val (F64.sub (F64.div (F64.ofRat 1) x) (F64.ofRat 1)) = some Q ∧ 0 < (Q : ℝ) ∧
      |(Q : ℝ) - (1 - w) / w| ≤ (2 * (e + uu) / (w * (1 - w)) + 2 * uu) * ((1 - w) / w) := by
  have hu := uu_pos
  have hu' := uu_tiny
  have he : 0 ≤ e := (abs_nonneg _).trans h
  set m := w * (1 - w) with hmd
  have hm0 : 0 < m := mul_pos hw (by linarith)
  have hmw : m ≤ w := by rw [hmd]; nlinarith
  have hmw' : m ≤ 1 - w := by rw [hmd]; nlinarith
  have h1 := abs_le.mp h
  have hX1 : 7 / 8 * w ≤ X := by linarith
  have hX0 : (0 : ℝ) < X := by linarith
  have hXle : (X : ℝ) ≤ 2 := by linarith
  have hXne : X ≠ 0 := by
    have : (X : ℝ) ≠ 0 := hX0.ne'
    exact_mod_cast this
  have hum : uu ≤ m := by linarith
  have hinvX : 1 / (X : ℝ) ≤ 8 / 7 * (1 / w) := by
    rw [div_le_iff₀ hX0]
    have h3 : 8 / 7 * (1 / w) * (7 / 8 * w) ≤ 8 / 7 * (1 / w) * X := mul_le_mul_of_nonneg_left hX1 (by positivity)
    have h4 : 8 / 7 * (1 / w) * (7 / 8 * w) = 1 := by field_simp
    linarith
  have hinvw : 1 / w ≤ 2 ^ 53 := by
    rw [div_le_iff₀ hw]
    have : (2 : ℝ) ^ 53 * uu = 1 := by unfold uu; norm_num
    have h3 : (2 : ℝ) ^ 53 * uu ≤ 2 ^ 53 * w := mul_le_mul_of_nonneg_left (hum.trans hmw) (by positivity)
    linarith
  have hhi := rHi_100
  have hhi0 := rHi_pos
  -- the reciprocal
  have hXhalf : 1 / 2 ≤ 1 / (X : ℝ) := one_div_le_one_div_of_le hX0 hXle
  obtain ⟨P, hP, hPe⟩ := rd_rel ((C104_operations (F64.ofRat 1) x 1 X val_ofRat1 hx).2.2.2 hXne)
    (by rw [Rat.cast_div, Rat.cast_one]; exact rLo_le (by linarith))
    (by rw [Rat.cast_div, Rat.cast_one]; linarith)
  rw [Rat.cast_div, Rat.cast_one] at hPe
  set q := (1 - w) / w with hq
  have hq0 : 0 < q := div_pos (by linarith) hw
  have hqm : m ≤ q := by
    rw [hq, le_div_iff₀ hw]
    nlinarith
  have hqe : q = 1 / w - 1 := by rw [hq]; field_simp
  set ρ := 8 / 7 * ((e + uu) / m) with hρ
  have hρ1 : ρ ≤ 1 / 7 := by
    have : (e + uu) / m ≤ 1 / 8 := by
      rw [div_le_iff₀ hm0]
      linarith
    linarith
  have hPq : |((P : ℝ) - 1) - q| ≤ ρ * q := by
    have h2 : ((P : ℝ) - 1) - q = (P - 1 / X) + (1 / X - 1 / w) := by rw [hqe]; ring
    rw [h2]
    have h3 := abs_add_le ((P : ℝ) - 1 / X) (1 / X - 1 / w)
    have h4 : 1 / (X : ℝ) * uu ≤ 8 / 7 * (1 / w) * uu := mul_le_mul_of_nonneg_right hinvX hu.le
    have h5 : |1 / (X : ℝ) - 1 / w| ≤ e * (8 / 7 * (1 / w)) * (1 / w) := by
      rw [show 1 / (X : ℝ) - 1 / w = -((X - w) * (1 / X) * (1 / w)) by field_simp; ring, abs_neg, abs_mul, abs_mul,
        abs_of_pos (show 0 < 1 / (X : ℝ) by positivity), abs_of_pos (show 0 < 1 / w by positivity)]
      exact mul_le_mul_of_nonneg_right (mul_le_mul h hinvX (by positivity) he) (by positivity)
    have h6 : ρ * q = 8 / 7 * (e + uu) * (1 / w) * (1 / w) := by
      rw [hρ, hq, hmd]
      have : 1 - w ≠ 0 := by linarith
      field_simp
    have h7 : uu * (1 / w) * 1 ≤ uu * (1 / w) * (1 / w) := by
      refine mul_le_mul_of_nonneg_left ?_ (by positivity)
      rw [le_div_iff₀ hw]
      linarith
    rw [h6]
    linarith
  have hρq : ρ * q ≤ 1 / 7 * q := mul_le_mul_of_nonneg_right hρ1 hq0.le
  have h8 := abs_le.mp hPq
  have hP1 : 6 / 7 * q ≤ (P : ℝ) - 1 := by linarith
  have hqle : q ≤ 2 ^ 53 := by linarith
  have hrLo : rLo ≤ uu := by
    unfold rLo uu
    exact one_div_le_one_div_of_le (by positivity) (pow_le_pow_right₀ (by norm_num) (by norm_num))
  obtain ⟨Q, hQ, hQe⟩ := rd_rel ((C104_operations _ (F64.ofRat 1) P 1 hP val_ofRat1).2.1)
    (by push_cast; linarith) (by push_cast; linarith)
  push_cast at hQe
  have h9 : ((P : ℝ) - 1) * uu ≤ 8 / 7 * q * uu := mul_le_mul_of_nonneg_right (by linarith) hu.le
  have hρ2 : 8 / 7 * ρ ≤ 2 * (e + uu) / m := by
    rw [hρ, mul_div_assoc]
    have : 0 ≤ (e + uu) / m := by positivity
    linarith
  have hρ0 : 0 ≤ ρ := by positivity
  have hQq : |(Q : ℝ) - q| ≤ ρ * q + 8 / 7 * q * uu := by
    have h10 : |(Q : ℝ) - q| ≤ |(Q : ℝ) - (P - 1)| + |((P : ℝ) - 1) - q| := abs_sub_le _ _ _
    linarith
  refine ⟨Q, hQ, ?_, ?_⟩
  · have := abs_le.mp hQq
    have h10 : q * uu ≤ q * (1 / 1000000000000) := mul_le_mul_of_nonneg_left hu' hq0.le
    linarith
  · refine hQq.trans ?_
    have h10 : ρ * q ≤ 2 * (e + uu) / m * q := mul_le_mul_of_nonneg_right (by linarith) hq0.le
    have h11 : 0 ≤ q * uu := by positivity
    linarith

/-- The end of type -109: negation, division by `k`, addition of 1, halving. -/
theorem log_tail {n k : F64} {N' K : ℚ} {N κ δ : ℝ} (hN' : F64.val n = some N') (hk : F64.val k = some K)
    (hK1 : (1 / 1000 : ℝ) ≤ K) (hδ : 0 ≤ δ) (hδ' : δ ≤ 1 / 8) (hκ0 : 0 ≤ κ) (hκ1 : κ ≤ 1 / 2) (hNle : |N| ≤ 2 ^ 53)
    (hN3 : |(N' : ℝ) - N| ≤ 9 / 8 * κ + δ * |N|) :
    ∃ Z : ℚ, F64.val (F64.div (F64.add (F64.div (F64.neg n) k) (F64.ofRat 1)) (F64.ofRat 2)) = some Z ∧
      |(Z : ℝ) - (-N / K + 1) / 2| ≤ (κ + (δ + 2 * uu) * |N|) / K + 2 * uu := by
  have hu := uu_pos
  have hu' := uu_tiny
  have hK0 : (0 : ℝ) < K := by linarith
  have hKq : K ≠ 0 := by
    have : (K : ℝ) ≠ 0 := hK0.ne'
    exact_mod_cast this
  have hN0 := abs_nonneg N
  have hδN : δ * |N| ≤ 1 / 8 * |N| := mul_le_mul_of_nonneg_right hδ' hN0
  have hδN0 : 0 ≤ δ * |N| := mul_nonneg hδ hN0
  set g := 9 / 8 * κ + δ * |N| with hg
  -- the division by `k`
  set M := -N / (K : ℝ) with hM
  set μ := |N| / (K : ℝ) with hμ
  set γ := g / (K : ℝ) with hγ
  have hg0 : 0 ≤ g := (abs_nonneg _).trans hN3
  have hμ0 : 0 ≤ μ := div_nonneg hN0 hK0.le
  have hγ0 : 0 ≤ γ := div_nonneg hg0 hK0.le
  have hMμ : |M| = μ := by rw [hM, abs_div, abs_neg, abs_of_pos hK0]
  have hμle : μ ≤ 1000 * 2 ^ 53 := by
    rw [hμ, div_le_iff₀ hK0]
    nlinarith
  have hγle : γ ≤ 1000 * 2 ^ 54 := by
    rw [hγ, div_le_iff₀ hK0]
    have : g ≤ 2 ^ 54 := by rw [hg]; linarith
    nlinarith
  have hA0 : |(-(N' : ℝ)) / K - M| ≤ γ := by
    rw [hM, ← sub_div, abs_div, abs_of_pos hK0, hγ, show -(N' : ℝ) - -N = -(N' - N) by ring, abs_neg]
    exact div_le_div_of_nonneg_right hN3 hK0.le
  have hA1 : |(-(N' : ℝ)) / K| ≤ γ + μ := by
    have := abs_add_le ((-(N' : ℝ)) / K - M) M
    rw [sub_add_cancel] at this
    linarith
  obtain ⟨A, hA, hAe⟩ := rd_u ((C104_operations _ k (-N') K (F64.val_neg hN') hk).2.2.2 hKq) (by
    push_cast
    linarith)
  push_cast at hAe
  have kμ : uu * μ ≤ 1 / 1000000000000 * μ := mul_le_mul_of_nonneg_right hu' hμ0
  have kγ : uu * γ ≤ 1 / 1000000000000 * γ := mul_le_mul_of_nonneg_right hu' hγ0
  have kμ0 : 0 ≤ uu * μ := by positivity
  have hAM : |(A : ℝ) - M| ≤ 1001 / 1000 * γ + uu * μ + uu / 100000 := by
    have h1 : |(A : ℝ) - M| ≤ |(A : ℝ) - -N' / K| + |(-(N' : ℝ)) / K - M| := abs_sub_le _ _ _
    have h2 : uu * |(-(N' : ℝ)) / K| ≤ uu * (γ + μ) := mul_le_mul_of_nonneg_left hA1 hu.le
    linarith
  have hA2 : |(A : ℝ) + 1| ≤ 11 / 10 * γ + 11 / 10 * μ + 11 / 10 := by
    have h1 := abs_add_le ((A : ℝ) - M) M
    rw [sub_add_cancel] at h1
    have h2 := abs_add_le (A : ℝ) 1
    rw [abs_one] at h2
    linarith
  obtain ⟨B, hB, hBe⟩ := rd_u ((C104_operations _ (F64.ofRat 1) A 1 hA val_ofRat1).1) (by
    push_cast
    linarith)
  push_cast at hBe
  have hBM : |(B : ℝ) - (M + 1)| ≤ 1002 / 1000 * γ + 22 / 10 * (uu * μ) + 12 / 10 * uu := by
    have h1 : |(B : ℝ) - (M + 1)| ≤ |(B : ℝ) - (A + 1)| + |((A : ℝ) + 1) - (M + 1)| := abs_sub_le _ _ _
    rw [show ((A : ℝ) + 1) - (M + 1) = A - M by ring] at h1
    have h2 : uu * |(A : ℝ) + 1| ≤ uu * (11 / 10 * γ + 11 / 10 * μ + 11 / 10) := mul_le_mul_of_nonneg_left hA2 hu.le
    linarith
  have hB2 : |(B : ℝ) / 2| ≤ 6 / 10 * γ + 6 / 10 * μ + 6 / 10 := by
    have h1 := abs_add_le ((B : ℝ) - (M + 1)) (M + 1)
    rw [sub_add_cancel] at h1
    have h2 := abs_add_le M 1
    rw [abs_one] at h2
    rw [abs_div, abs_two]
    linarith
  obtain ⟨Z, hZ, hZe⟩ := rd_u ((C104_operations _ (F64.ofRat 2) B 2 hB val_ofRat2).2.2.2 (by norm_num)) (by
    push_cast
    linarith)
  push_cast at hZe
  refine ⟨Z, hZ, ?_⟩
  have h1 : |(Z : ℝ) - (M + 1) / 2| ≤ |(Z : ℝ) - B / 2| + |(B : ℝ) / 2 - (M + 1) / 2| := abs_sub_le _ _ _
  rw [← sub_div, abs_div _ (2 : ℝ), abs_two] at h1
  have h2 : uu * |(B : ℝ) / 2| ≤ uu * (6 / 10 * γ + 6 / 10 * μ + 6 / 10) := mul_le_mul_of_nonneg_left hB2 hu.le
  have h3 : (κ + (δ + 2 * uu) * |N|) / K = κ / K + δ * |N| / K + 2 * (uu * μ) := by rw [hμ]; ring
  have h4 : γ = 9 / 8 * (κ / K) + δ * |N| / K := by rw [hγ, hg]; ring
  have h5 : 0 ≤ κ / K := div_nonneg hκ0 hK0.le
  have h6 : 0 ≤ δ * |N| / K := div_nonneg hδN0 hK0.le
  rw [h3]
  rw [h4] at kγ h2 hBM
  linarith

/-- **C117**, type -109.  `w` is the number whose odds are taken, `N` the logarithm of the odds against, `κ` the
relative error of the odds. -/
theorem C117_type109_inverse (l : Libm) (ε δ : ℝ) (hl : AccurateExp l ε) (hlog : AccurateLog l δ) (hε : 0 ≤ ε)
    (hε' : ε ≤ 1 / 20000) (hδ : 0 ≤ δ) (hδ' : δ ≤ 1 / 8) (k r : F64) (K R : ℚ) (hk : F64.val k = some K)
    (hr : F64.val r = some R) (hK : 1 / 1000 ≤ K) (hK' : K ≤ 700) (hR : 0 ≤ R) (hR' : R ≤ 1) :
    let w := (1 + (2 * (R : ℝ) - 1) * tanhHalf K) / 2
    let N := Real.logb 10 ((1 - w) / w)
    let e := 6 * K * uu + 3 * ε + 17 * uu
    let κ := 2 * e / (w * (1 - w)) + 2 * uu
    8 * e ≤ w * (1 - w) →
    ∃ z Z, eval (F64.ops l) (-109) [k] r = some z ∧ F64.val z = some Z ∧
      |(Z : ℝ) - Value (-109) [(K : ℝ)] R| ≤ (κ + (δ + 2 * uu) * |N|) / K + 2 * uu := by
  intro w N e κ hm
  have hu := uu_pos
  have hu' := uu_tiny
  have hK1 : (1 / 1000 : ℝ) ≤ K := by
    have := (Rat.cast_le (K := ℝ)).mpr hK
    push_cast at this
    exact this
  have hK2 : (K : ℝ) ≤ 700 := by exact_mod_cast hK'
  have hR1 : (0 : ℝ) ≤ R := by exact_mod_cast hR
  have hR2 : (R : ℝ) ≤ 1 := by exact_mod_cast hR'
  have hK0 : (0 : ℝ) < K := by linarith
  obtain ⟨hτ0, hτ1⟩ := tanhHalf_pos hK0
  have hsτ : |(2 * (R : ℝ) - 1) * tanhHalf K| < 1 := by
    rw [abs_mul, abs_of_pos hτ0]
    have : |2 * (R : ℝ) - 1| ≤ 1 := by
      rw [abs_le]
      constructor <;> linarith
    have h1 : |2 * (R : ℝ) - 1| * tanhHalf K ≤ 1 * tanhHalf K := mul_le_mul_of_nonneg_right this hτ0.le
    linarith
  have hw0 : 0 < w := by
    have := (abs_lt.mp hsτ).1
    show 0 < (1 + (2 * (R : ℝ) - 1) * tanhHalf K) / 2
    linarith
  have hw1 : w < 1 := by
    have := (abs_lt.mp hsτ).2
    show (1 + (2 * (R : ℝ) - 1) * tanhHalf K) / 2 < 1
    linarith
  obtain ⟨W, hW, hWe⟩ := shifted_near hl hε hε' hk hr hK1 hK2 hR1 hR2
  change |(W : ℝ) - w| ≤ _ at hWe
  have he : e = 6 * (K * uu) + 3 * ε + 16 * uu + uu := by
    show 6 * K * uu + 3 * ε + 17 * uu = _
    ring
  obtain ⟨Q, hQ, hQ0, hQe⟩ := odds_near hW hw0 hw1 hWe (by rw [← he]; exact hm)
  rw [← he] at hQe
  change |(Q : ℝ) - (1 - w) / w| ≤ κ * ((1 - w) / w) at hQe
  have hm0 : 0 < w * (1 - w) := mul_pos hw0 (by linarith)
  have he0 : 0 ≤ e := by
    have h1 : 0 ≤ K * uu := by positivity
    rw [he]
    linarith
  have hκ1 : κ ≤ 1 / 2 := by
    have h1 : e / (w * (1 - w)) ≤ 1 / 8 := by
      rw [div_le_iff₀ hm0]
      linarith
    have h2 : κ = 2 * (e / (w * (1 - w))) + 2 * uu := by
      show 2 * e / (w * (1 - w)) + 2 * uu = _
      ring
    linarith
  have hκ0 : 0 ≤ κ := by
    have h1 : 0 ≤ 2 * e / (w * (1 - w)) := by positivity
    show 0 ≤ 2 * e / (w * (1 - w)) + 2 * uu
    linarith
  have hq0 : 0 < (1 - w) / w := div_pos (by linarith) hw0
  have hN1 := logb_acc hq0 hQe hκ1
  change |Real.logb 10 (Q : ℝ) - N| ≤ κ at hN1
  obtain ⟨N', hN', hNe⟩ := hlog _ Q hQ (by exact_mod_cast hQ0)
  have hQN : |Real.logb 10 (Q : ℝ)| ≤ |N| + κ := by
    have := abs_add_le (Real.logb 10 (Q : ℝ) - N) N
    rw [sub_add_cancel] at this
    linarith
  have hN3 : |(N' : ℝ) - N| ≤ 9 / 8 * κ + δ * |N| := by
    have h4 : |(N' : ℝ) - N| ≤ |(N' : ℝ) - Real.logb 10 Q| + |Real.logb 10 (Q : ℝ) - N| := abs_sub_le _ _ _
    have h5 : δ * |Real.logb 10 (Q : ℝ)| ≤ δ * (|N| + κ) := mul_le_mul_of_nonneg_left hQN hδ
    have h6 : δ * κ ≤ 1 / 8 * κ := mul_le_mul_of_nonneg_right hδ' hκ0
    linarith
  -- a crude bound of the logarithm
  have hNle : |N| ≤ 2 ^ 53 := by
    have hum : uu ≤ w * (1 - w) := by
      have h1 : 0 ≤ K * uu := by positivity
      linarith
    have h2 : (2 : ℝ) ^ 53 * uu = 1 := by unfold uu; norm_num
    have bound : ∀ x y : ℝ, 0 < x → 0 < y → x ≤ 1 → uu ≤ y → Real.log (x / y) ≤ 2 ^ 53 := by
      intro x y hx hy hx1 hy1
      have h3 := Real.log_le_sub_one_of_pos (div_pos hx hy)
      have h4 : x / y ≤ 2 ^ 53 := by
        rw [div_le_iff₀ hy]
        have h5 : (2 : ℝ) ^ 53 * uu ≤ 2 ^ 53 * y := mul_le_mul_of_nonneg_left hy1 (by positivity)
        linarith
      linarith
    have h5 := bound (1 - w) w (by linarith) hw0 (by linarith) (by nlinarith)
    have h6 := bound w (1 - w) hw0 (by linarith) (by linarith) (by nlinarith)
    rw [← inv_div, Real.log_inv] at h6
    have h7 : |Real.log ((1 - w) / w)| ≤ 2 ^ 53 := abs_le.mpr ⟨by linarith, h5⟩
    have h8 := two_lt_log_ten
    show |Real.log ((1 - w) / w) / Real.log 10| ≤ _
    rw [abs_div, abs_of_pos (by linarith : 0 < Real.log 10), div_le_iff₀ (by linarith)]
    linarith
  obtain ⟨Z, hZ, hZe⟩ := log_tail hN' hk hK1 hδ hδ' hκ0 hκ1 hNle hN3
  refine ⟨_, Z, rfl, hZ, ?_⟩
  have hval : Value (-109) [(K : ℝ)] R = (-N / K + 1) / 2 := by
    show (1 + Real.logb 10 ((1 + (2 * (R : ℝ) - 1) * tanhHalf K) / (1 - (2 * (R : ℝ) - 1) * tanhHalf K)) / K) / 2 = _
    have h1 : (1 + (2 * (R : ℝ) - 1) * tanhHalf K) / (1 - (2 * (R : ℝ) - 1) * tanhHalf K) = ((1 - w) / w)⁻¹ := by
      rw [inv_div]
      have h2 : 1 + (2 * (R : ℝ) - 1) * tanhHalf K = 2 * w := by
        show _ = 2 * ((1 + (2 * (R : ℝ) - 1) * tanhHalf K) / 2)
        ring
      have h3 : 1 - (2 * (R : ℝ) - 1) * tanhHalf K = 2 * (1 - w) := by linarith
      rw [h2, h3, mul_div_mul_left _ _ (two_ne_zero)]
    rw [h1, Real.logb_inv, add_comm]
  rw [hval]
  exact hZe

/-- A library with accurate `powf`, `log10` and `exp` exists. -/
theorem C117_accurate_exp_exists :
    ∃ l : Libm, AccuratePow l (2 * uu) ∧ AccurateLog l (2 * uu) ∧ AccurateExp l (2 * uu) := by
  obtain ⟨l, hl, hlog⟩ := C105_accurate_log_exists
  have key : ∀ x : F64, ∃ z : F64, ∀ X : ℚ, F64.val x = some X → |(X : ℝ)| ≤ 701 →
      ∃ E : ℚ, F64.val z = some E ∧ |(E : ℝ) - Real.exp X| ≤ 2 * uu * Real.exp X := by
    intro x
    by_cases h : ∃ X : ℚ, F64.val x = some X ∧ |(X : ℝ)| ≤ 701
    · obtain ⟨X, hx, hX⟩ := h
      have hu := uu_pos
      have hu' := uu_small
      have h0 := rLo_pos
      have hhi := rHi_pos
      have hX' := abs_le.mp hX
      have hE0 := Real.exp_pos (X : ℝ)
      have hE1 : Real.exp (X : ℝ) ≤ rHi / 64 := (Real.exp_le_exp.mpr hX'.2).trans exp_bound
      have hE2 : rLo ≤ Real.exp (X : ℝ) := by
        have h1 : Real.exp (-(X : ℝ)) ≤ rHi / 64 := (Real.exp_le_exp.mpr (by linarith)).trans exp_bound
        rw [Real.exp_neg] at h1
        have h2 := (inv_le_comm₀ hE0 (by linarith)).mp h1
        refine le_trans ?_ h2
        rw [show (rHi / 64)⁻¹ = 64 * rHi⁻¹ by rw [inv_div]; rfl]
        have h3 : rLo = 2 * rHi⁻¹ := by
          unfold rLo rHi
          rw [show (2 : ℝ) ^ 1022 = 2 ^ 1021 * 2 from pow_succ _ _, mul_inv, one_div]
          generalize ((2 : ℝ) ^ 1021)⁻¹ = t
          ring
        have h4 : 0 < rHi⁻¹ := inv_pos.mpr hhi
        linarith
      set Λ := Real.exp (X : ℝ) with hΛ
      obtain ⟨q, hq1, hq2⟩ := exists_rat_btwn (show Λ < Λ + uu / 2 * Λ by nlinarith)
      have hk : uu * Λ ≤ 1 / 1000000 * Λ := mul_le_mul_of_nonneg_right hu' hE0.le
      obtain ⟨E, hE, hEe⟩ := rd_rel (correct_of_rd (F64.round_cases q)) (by linarith) (by linarith)
      refine ⟨F64.round q, fun X1 hx1 _ => ⟨E, hE, ?_⟩⟩
      rw [hx] at hx1
      obtain rfl := Option.some.inj hx1
      have h4 : |(E : ℝ) - Λ| ≤ |(E : ℝ) - q| + |(q : ℝ) - Λ| := abs_sub_le _ _ _
      rw [abs_of_pos (by linarith : 0 < (q : ℝ) - Λ)] at h4
      have h5 : (q : ℝ) * uu ≤ 3 / 2 * Λ * uu := mul_le_mul_of_nonneg_right (by linarith) hu.le
      linarith
    · exact ⟨.nan, fun X hx hX => absurd ⟨X, hx, hX⟩ h⟩
  choose f hf using key
  exact ⟨⟨l.powf, f, l.log10⟩, hl, hlog, fun x X => hf x X⟩

/-- Type -109 with 2 at 1/2: within 143 half units of 1/2. -/
example (l : Libm) (hl : AccurateExp l (2 * uu)) (hlog : AccurateLog l (2 * uu)) :
    ∃ z Z, eval (F64.ops l) (-109) [F64.ofRat 2] (F64.ofRat (1 / 2)) = some z ∧ F64.val z = some Z ∧
      |(Z : ℝ) - 1 / 2| ≤ 143 * uu := by
  have hu := uu_pos
  have hu' := uu_tiny
  have e0 : 2 * ((1 / 2 : ℚ) : ℝ) - 1 = 0 := by norm_num
  have e1 : (1 - (1 / 2 : ℝ)) / (1 / 2) = 1 := by norm_num
  have hv : Value (-109) [((2 : ℚ) : ℝ)] ((1 / 2 : ℚ) : ℝ) = 1 / 2 := by
    show (1 + Real.logb 10 ((1 + (2 * ((1 / 2 : ℚ) : ℝ) - 1) * tanhHalf ((2 : ℚ) : ℝ)) /
      (1 - (2 * ((1 / 2 : ℚ) : ℝ) - 1) * tanhHalf ((2 : ℚ) : ℝ))) / ((2 : ℚ) : ℝ)) / 2 = _
    rw [e0]
    simp
  have main := C117_type109_inverse l (2 * uu) (2 * uu) hl hlog (by linarith) (by linarith) (by linarith) (by linarith)
    (F64.ofRat 2) (F64.ofRat (1 / 2)) 2 (1 / 2) (by decide +kernel) (by decide +kernel) (by norm_num) (by norm_num)
    (by norm_num) (by norm_num)
  simp only [hv] at main
  simp only [e0, zero_mul, add_zero, e1, Real.logb_one, abs_zero, mul_zero, Rat.cast_ofNat] at main
  obtain ⟨z, Z, h1, h2, h3⟩ := main (by linarith)
  refine ⟨z, Z, h1, h2, h3.trans ?_⟩
  rw [show (1 / 2 : ℝ) * (1 - 1 / 2) = 1 / 4 by norm_num]
  linarith

end Lcms.Props
