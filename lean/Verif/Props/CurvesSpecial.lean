import Verif.Props.CurvesAccuracyLog
import Verif.Props.CurvesBackMore
import Verif.Props.CurvesInverse

/-! # Property C117: the remaining curves in binary64, types 108, -108 and -7 -/

namespace Lcms.Props

open Lcms.Curves Lcms.Spec

/-- The logarithm of a number known to within a relative error. -/
theorem log_near {X S κ : ℝ} (hS : 0 < S) (hκ : κ ≤ 1 / 2) (h : |X - S| ≤ κ * S) :
    0 < X ∧ |Real.log X - Real.log S| ≤ 2 * κ := by
  have h1 := abs_le.mp h
  have hκ0 : 0 ≤ κ := by
    by_contra hn
    have := abs_nonneg (X - S)
    nlinarith
  have hX : 0 < X := by nlinarith
  refine ⟨hX, ?_⟩
  have hr : 0 < X / S := div_pos hX hS
  have hr1 : X / S ≤ 1 + κ := by rw [div_le_iff₀ hS]; linarith
  have hr2 : 1 - κ ≤ X / S := by rw [le_div_iff₀ hS]; linarith
  rw [← Real.log_div hX.ne' hS.ne', abs_le]
  constructor
  · have := Real.one_sub_inv_le_log_of_pos hr
    have h3 : (X / S)⁻¹ ≤ 1 + 2 * κ := by
      rw [inv_le_comm₀ hr (by linarith)]
      refine le_trans ?_ hr2
      rw [inv_le_iff_one_le_mul₀ (by linarith)]
      nlinarith
    linarith
  · have := Real.log_le_sub_one_of_pos hr
    linarith

/-- A computed power whose base and exponent are slightly wrong: `tau` is the error of the logarithm. -/
theorem pow_tau {l : Libm} {ε tau W : ℝ} (hl : AccuratePow l ε) (hε : 0 ≤ ε) {x y : F64} {X Y : ℚ}
    (hx : F64.val x = some X) (hy : F64.val y = some Y) (hX : (0 : ℝ) < X) (hW : InRange W)
    (hlog : |Y * Real.log X - Real.log W| ≤ tau) (ht : tau ≤ 1 / 4) :
    ∃ P : ℚ, F64.val (l.powf x y) = some P ∧ |(P : ℝ) - W| ≤ (2 * tau + 2 * ε) * W := by
  have h0 := rLo_pos
  have hhi := rHi_pos
  have hW0 : 0 < W := lt_of_lt_of_le h0 hW.1
  set s := Y * Real.log X - Real.log W with hs
  have hpow : (X : ℝ) ^ (Y : ℝ) = W * Real.exp s := by
    rw [Real.rpow_def_of_pos hX, mul_comm (Real.log _), show (Y : ℝ) * Real.log X = Real.log W + s by rw [hs]; ring,
      Real.exp_add, Real.exp_log hW0]
  have hexp := Real.abs_exp_sub_one_le (x := s) (by linarith)
  have hexp' := abs_le.mp hexp
  obtain ⟨P, hP, hPe⟩ := hl x y X Y hx hy (by exact_mod_cast hX)
    (by rw [hpow]; have := hW.1; nlinarith) (by rw [hpow]; have := hW.2; nlinarith)
  rw [hpow] at hPe
  refine ⟨P, hP, ?_⟩
  have h5 : |(P : ℝ) - W| ≤ |(P : ℝ) - W * Real.exp s| + |W * Real.exp s - W| := abs_sub_le _ _ _
  have h6 : |W * Real.exp s - W| ≤ W * (2 * tau) := by
    rw [show W * Real.exp s - W = W * (Real.exp s - 1) by ring, abs_mul, abs_of_pos hW0]
    exact mul_le_mul_of_nonneg_left (by linarith) hW0.le
  have h7 : ε * (W * Real.exp s) ≤ 2 * ε * W := by
    have : Real.exp s ≤ 2 := by linarith
    have h8 : ε * W * Real.exp s ≤ ε * W * 2 := mul_le_mul_of_nonneg_left this (by positivity)
    linarith
  linarith

/-- The power of a base known to within a relative error. -/
theorem pow_near {l : Libm} {ε κ : ℝ} (hl : AccuratePow l ε) (hε : 0 ≤ ε) {x g : F64} {X G : ℚ} {S : ℝ}
    (hx : F64.val x = some X) (hg : F64.val g = some G) (hG : (0 : ℝ) < G) (hS : 0 < S)
    (hr : InRange (S ^ (G : ℝ))) (hκ' : κ ≤ 1 / 2) (hκG : 2 * κ * G ≤ 1 / 4) (hX : |(X : ℝ) - S| ≤ κ * S) :
    ∃ P : ℚ, F64.val (l.powf x g) = some P ∧ |(P : ℝ) - S ^ (G : ℝ)| ≤ (4 * κ * G + 2 * ε) * S ^ (G : ℝ) := by
  obtain ⟨hX0, hlog⟩ := log_near hS hκ' hX
  obtain ⟨P, hP, hPe⟩ := pow_tau (tau := 2 * κ * G) hl hε hx hg hX0 hr (by
    rw [Real.log_rpow hS, ← mul_sub, abs_mul, abs_of_pos hG]
    have := mul_le_mul_of_nonneg_left hlog hG.le
    linarith) hκG
  exact ⟨P, hP, by rwa [show 4 * κ * G + 2 * ε = 2 * (2 * κ * G) + 2 * ε by ring]⟩

/-- A difference, the first number being slightly wrong. -/
theorem sub_near {x c : F64} {X C : ℚ} {W e D : ℝ} (hx : F64.val x = some X) (hc : F64.val c = some C)
    (h : |(X : ℝ) - W| ≤ e) (hD : D = W - C) (hr : InRange D) (he : e ≤ D / 4) :
    ∃ V : ℚ, F64.val (F64.sub x c) = some V ∧ |(V : ℝ) - D| ≤ (e / D + 2 * uu) * D := by
  have h0 := rLo_pos
  have hhi := rHi_pos
  have hu := uu_pos
  have h1 := hr.1
  have h2 := hr.2
  have hD0 : 0 < D := by linarith
  have h3 := abs_le.mp h
  obtain ⟨V, hV, hVe⟩ := rd_rel ((C104_operations x c X C hx hc).2.1) (by rw [Rat.cast_sub]; linarith)
    (by rw [Rat.cast_sub]; linarith)
  rw [Rat.cast_sub] at hVe
  refine ⟨V, hV, ?_⟩
  have h4 : |(V : ℝ) - D| ≤ |(V : ℝ) - (X - C)| + |((X : ℝ) - C) - D| := abs_sub_le _ _ _
  have h5 : ((X : ℝ) - C) - D = X - W := by rw [hD]; ring
  rw [h5] at h4
  have h6 : (e / D + 2 * uu) * D = e + 2 * uu * D := by field_simp
  have h7 : ((X : ℝ) - C) * uu ≤ 2 * uu * D := by nlinarith
  linarith

/-- A difference, the second number being slightly wrong. -/
theorem sub_near' {x c : F64} {X C : ℚ} {W e D : ℝ} (hx : F64.val x = some X) (hc : F64.val c = some C)
    (h : |(X : ℝ) - W| ≤ e) (hD : D = C - W) (hr : InRange D) (he : e ≤ D / 4) :
    ∃ V : ℚ, F64.val (F64.sub c x) = some V ∧ |(V : ℝ) - D| ≤ (e / D + 2 * uu) * D := by
  have h0 := rLo_pos
  have hhi := rHi_pos
  have hu := uu_pos
  have h1 := hr.1
  have h2 := hr.2
  have hD0 : 0 < D := by linarith
  have h3 := abs_le.mp h
  obtain ⟨V, hV, hVe⟩ := rd_rel ((C104_operations c x C X hc hx).2.1) (by rw [Rat.cast_sub]; linarith)
    (by rw [Rat.cast_sub]; linarith)
  rw [Rat.cast_sub] at hVe
  refine ⟨V, hV, ?_⟩
  have h4 : |(V : ℝ) - D| ≤ |(V : ℝ) - (C - X)| + |((C : ℝ) - X) - D| := abs_sub_le _ _ _
  have h5 : ((C : ℝ) - X) - D = -(X - W) := by rw [hD]; ring
  rw [h5, abs_neg] at h4
  have h6 : (e / D + 2 * uu) * D = e + 2 * uu * D := by field_simp
  have h7 : ((C : ℝ) - X) * uu ≤ 2 * uu * D := by nlinarith
  linarith

/-- A quotient by a positive number. -/
theorem div_near {v b : F64} {V B : ℚ} {D κ : ℝ} (hv : F64.val v = some V) (hb : F64.val b = some B) (hB : 0 < B)
    (hD : 0 < D) (hκ : κ ≤ 1 / 2) (h : |(V : ℝ) - D| ≤ κ * D) (hr : InRange (D / B)) :
    ∃ Z : ℚ, F64.val (F64.div v b) = some Z ∧ |(Z : ℝ) - D / B| ≤ (κ + 2 * uu) * (D / B) := by
  have h0 := rLo_pos
  have hhi := rHi_pos
  have hu := uu_pos
  have h1 := hr.1
  have h2 := hr.2
  have hB' : (0 : ℝ) < B := by exact_mod_cast hB
  have h3 := abs_le.mp h
  set q := D / B with hq
  have hq0 : 0 < q := div_pos hD hB'
  have hDq : D = q * B := by rw [hq]; field_simp
  have e1 : |(V : ℝ) / B - q| ≤ κ * q := by
    rw [hq, ← sub_div, abs_div, abs_of_pos hB', ← mul_div_assoc]
    exact div_le_div_of_nonneg_right h hB'.le
  have e2 := abs_le.mp e1
  have e3 : κ * q ≤ 1 / 2 * q := mul_le_mul_of_nonneg_right hκ hq0.le
  obtain ⟨Z, hZ, hZe⟩ := rd_rel ((C104_operations v b V B hv hb).2.2.2 hB.ne')
    (by rw [Rat.cast_div]; linarith) (by rw [Rat.cast_div]; linarith)
  rw [Rat.cast_div] at hZe
  refine ⟨Z, hZ, ?_⟩
  have h4 : |(Z : ℝ) - q| ≤ |(Z : ℝ) - V / B| + |(V : ℝ) / B - q| := abs_sub_le _ _ _
  have h7 : (V : ℝ) / B * uu ≤ 2 * uu * q := by nlinarith
  linarith

/-- **C117**, type 108: two roots and two differences from 1.  `S` is the inner root, `α` its error, `κ` the error of
`1 - S`. -/
theorem C117_type108 (l : Libm) (ε : ℝ) (hl : AccuratePow l ε) (hε : 0 ≤ ε) (g r : F64) (G R : ℚ)
    (hg : F64.val g = some G) (hr : F64.val r = some R) (hG : 1 / 1000 ≤ G) (hG' : G ≤ 1024) :
    let S := (1 - (R : ℝ)) ^ (1 / (G : ℝ))
    let Y := Value 108 [(G : ℝ)] R
    let α := rootErr uu G ε S
    let κ := α * S / (1 - S) + 2 * uu
    InRange (1 - (R : ℝ)) → InRange S → InRange (1 - S) → InRange Y → κ ≤ 1 / 4 → 3 * κ / G ≤ 1 / 5 →
    ∃ z Z, eval (F64.ops l) 108 [g] r = some z ∧ F64.val z = some Z ∧ |(Z : ℝ) - Y| ≤ rootErr κ G ε Y * Y := by
  intro S Y α κ hR hS hD hY hκ hκG
  have hu := uu_pos
  have hu' := uu_small
  have h0 := rLo_pos
  have h1 : (1 / 1000 : ℝ) ≤ G := by
    have := (Rat.cast_le (K := ℝ)).mpr hG
    push_cast at this
    exact this
  have h2 : (G : ℝ) ≤ 1024 := by exact_mod_cast hG'
  have hG0 : (0 : ℝ) < G := by linarith
  have hR0 : 0 < 1 - (R : ℝ) := lt_of_lt_of_le h0 hR.1
  have hS0 : 0 < S := lt_of_lt_of_le h0 hS.1
  have hD0 : 0 < 1 - S := lt_of_lt_of_le h0 hD.1
  have hYv : Y = (1 - S) ^ (1 / (G : ℝ)) := by
    show (if Tiny (G : ℝ) then (0 : ℝ) else _) = _
    rw [if_neg (not_tiny_real hG)]
  obtain ⟨V, hV, hVe⟩ := sub_acc val_ofRat1 hr (by rwa [Rat.cast_one])
  rw [Rat.cast_one] at hVe
  have hSG : S ^ (G : ℝ) = 1 - R := root_pow hR0.le hG0.ne'
  have hα0 : 0 ≤ α := rootErr_nonneg hu.le (by linarith) hε
  obtain ⟨P, hP, hPe⟩ := inv_pow_acc (κ := uu) hl hε hV hg h1 h2 hS hu.le (by linarith)
    (by rw [div_le_iff₀ hG0]; linarith) (by rw [hSG]; exact hVe)
  have hκ0 : 0 ≤ α * S / (1 - S) := div_nonneg (mul_nonneg hα0 hS0.le) hD0.le
  obtain ⟨V', hV', hVe'⟩ := sub_near' hP val_ofRat1 hPe (D := 1 - S) (by rw [Rat.cast_one]) hD (by
    have : α * S / (1 - S) ≤ 1 / 4 := by
      have : κ = α * S / (1 - S) + 2 * uu := rfl
      linarith
    rw [div_le_iff₀ hD0] at this
    show α * S ≤ _
    linarith)
  have hYG : Y ^ (G : ℝ) = 1 - S := by rw [hYv]; exact root_pow hD0.le hG0.ne'
  obtain ⟨Z, hZ, hZe⟩ := inv_pow_acc (κ := κ) hl hε hV' hg h1 h2 hY (by linarith) (by linarith) hκG
    (by rw [hYG]; exact hVe')
  refine ⟨_, Z, ?_, hZ, hZe⟩
  show some (f108 (F64.ops l) g r) = _
  unfold f108
  simp only [not_tiny64 l hg hG, Bool.false_eq_true, if_false]
  rfl

/-- **C117**, type -108.  `P` is the inner power and `κ` the error of `1 - P`. -/
theorem C117_type108_inverse (l : Libm) (ε : ℝ) (hl : AccuratePow l ε) (hε : 0 ≤ ε) (g r : F64) (G R : ℚ)
    (hg : F64.val g = some G) (hr : F64.val r = some R) (hG : 0 < G) (hR : 0 < R) :
    let P := (R : ℝ) ^ (G : ℝ)
    let κ := ε * P / (1 - P) + 2 * uu
    InRange P → InRange (1 - P) → InRange ((1 - P) ^ (G : ℝ)) → κ ≤ 1 / 4 → 2 * κ * G ≤ 1 / 4 → ε ≤ 1 / 8 →
    ∃ z Z, eval (F64.ops l) (-108) [g] r = some z ∧ F64.val z = some Z ∧
      |(Z : ℝ) - Value (-108) [(G : ℝ)] R| ≤ (4 * κ * G + 2 * ε) * (1 - P) ^ (G : ℝ) + 3 * uu := by
  intro P κ hP hD hW hκ hκG hε'
  have hu := uu_pos
  have hu' := uu_small
  have h0 := rLo_pos
  have hhi := rHi_pos
  have hG0 : (0 : ℝ) < G := by exact_mod_cast hG
  have hR0 : (0 : ℝ) < R := by exact_mod_cast hR
  have hP0 : 0 < P := lt_of_lt_of_le h0 hP.1
  have hD0 : 0 < 1 - P := lt_of_lt_of_le h0 hD.1
  obtain ⟨Q, hQ, hQe⟩ := hl r g R G hr hg hR (by have := hP.1; show rLo / 2 ≤ P; linarith)
    (by have := hP.2; show P ≤ _; linarith)
  have hκ0 : 0 ≤ ε * P / (1 - P) := div_nonneg (mul_nonneg hε hP0.le) hD0.le
  obtain ⟨V, hV, hVe⟩ := sub_near' hQ val_ofRat1 hQe (D := 1 - P) (by rw [Rat.cast_one]) hD (by
    have : ε * P / (1 - P) ≤ 1 / 4 := by
      have : κ = ε * P / (1 - P) + 2 * uu := rfl
      linarith
    rw [div_le_iff₀ hD0] at this
    show ε * P ≤ _
    linarith)
  obtain ⟨T, hT, hTe⟩ := pow_near (κ := κ) hl hε hV hg hG0 hD0 hW (by linarith) hκG hVe
  set W := (1 - P) ^ (G : ℝ) with hWd
  have hW0 : 0 < W := lt_of_lt_of_le h0 hW.1
  have hW1 : W ≤ 1 := Real.rpow_le_one hD0.le (by linarith) hG0.le
  have hT1 := abs_le.mp hTe
  have hb : (4 * κ * G + 2 * ε) * W ≤ 1 := by
    have : 4 * κ * G + 2 * ε ≤ 1 := by linarith
    nlinarith
  have hbig := rHi_big
  have h1T : |(1 : ℝ) - T| ≤ 2 := by rw [abs_le]; constructor <;> nlinarith
  obtain ⟨Z, hZ, hZe⟩ := rd_both ((C104_operations (F64.ofRat 1) _ 1 T val_ofRat1 hT).2.1) (by
    rw [Rat.cast_sub, Rat.cast_one]
    norm_num at hbig
    linarith)
  rw [Rat.cast_sub, Rat.cast_one] at hZe
  refine ⟨_, Z, rfl, hZ, ?_⟩
  show |(Z : ℝ) - (1 - W)| ≤ _
  have h4 : |(Z : ℝ) - (1 - W)| ≤ |(Z : ℝ) - (1 - T)| + |((1 : ℝ) - T) - (1 - W)| := abs_sub_le _ _ _
  rw [show ((1 : ℝ) - T) - (1 - W) = -(T - W) by ring, abs_neg] at h4
  have h5 : uu * |(1 : ℝ) - T| ≤ 2 * uu := by nlinarith
  have h6 : rLo * uu ≤ uu := by
    have := rLo_le_one
    nlinarith
  linarith

theorem ten_pow_300 {n : ℕ} (h : 1000 ≤ n) : (10 : ℝ) ^ 300 ≤ 2 ^ n := by
  have h1 : (10 : ℝ) ^ 300 ≤ 2 ^ 1000 := by
    rw [show (300 : ℕ) = 3 * 100 from rfl, show (1000 : ℕ) = 10 * 100 from rfl, pow_mul, pow_mul]
    exact pow_le_pow_left₀ (by norm_num) (by norm_num) _
  exact h1.trans (pow_le_pow_right₀ (by norm_num) h)

theorem ten_range {T : ℝ} (h : |T| ≤ 300) : InRange ((10 : ℝ) ^ T) := by
  have h1 := abs_le.mp h
  constructor
  · have h2 : (10 : ℝ) ^ (-300 : ℝ) ≤ (10 : ℝ) ^ T := Real.rpow_le_rpow_of_exponent_le (by norm_num) h1.1
    refine le_trans ?_ h2
    rw [Real.rpow_neg (by norm_num), show (300 : ℝ) = ((300 : ℕ) : ℝ) by norm_num, Real.rpow_natCast, ← one_div]
    unfold rLo
    exact one_div_le_one_div_of_le (by positivity) (ten_pow_300 (by norm_num))
  · have h2 : (10 : ℝ) ^ T ≤ (10 : ℝ) ^ (300 : ℝ) := Real.rpow_le_rpow_of_exponent_le (by norm_num) h1.2
    refine h2.trans ?_
    rw [show (300 : ℝ) = ((300 : ℕ) : ℝ) by norm_num, Real.rpow_natCast]
    exact ten_pow_300 (by norm_num)

theorem rLo_small : 2001 * rLo ≤ 1 / 100 := by
  have : rLo ≤ 1 / 2 ^ 20 := one_div_le_one_div_of_le (by norm_num) (pow_le_pow_right₀ (by norm_num) (by norm_num))
  linarith

/-- `(r - d) / a`, both operations rounded. -/
theorem affine_inv {r d a : F64} {R D A : ℚ} (hr : F64.val r = some R) (hd : F64.val d = some D)
    (ha : F64.val a = some A) (hA : 1 / 1000 ≤ (A : ℝ)) (hb : |(R : ℝ) - D| ≤ rHi)
    (hT : |((R : ℝ) - D) / A| ≤ rHi / 2) :
    ∃ T' : ℚ, F64.val (F64.div (F64.sub r d) a) = some T' ∧
      |(T' : ℝ) - ((R : ℝ) - D) / A| ≤ 3 * uu * |((R : ℝ) - D) / A| + uu / 100 := by
  have hu := uu_pos
  have hu' := uu_small
  have h0 := rLo_pos
  have hhi := rHi_pos
  have hA0 : (0 : ℝ) < A := by linarith
  have hA0' : A ≠ 0 := by
    rintro rfl
    norm_num at hA0
  obtain ⟨V, hV, hVe⟩ := rd_both ((C104_operations r d R D hr hd).2.1) (by rw [Rat.cast_sub]; linarith)
  rw [Rat.cast_sub] at hVe
  have hη : 0 ≤ rLo * uu := mul_nonneg h0.le hu.le
  obtain ⟨e1, e2⟩ := line_err hA (by linarith) hη hVe
  have e3 : |(R : ℝ) - D| / A = |((R : ℝ) - D) / A| := by rw [abs_div, abs_of_pos hA0]
  rw [e3] at e1 e2
  set T := ((R : ℝ) - D) / A with hTd
  have hη2 : rLo * uu ≤ 1 / 100 / 2001 * uu := by
    have := rLo_small
    exact mul_le_mul_of_nonneg_right (by linarith) hu.le
  have hbig := rHi_big
  norm_num at hbig
  obtain ⟨T', hT', hTe⟩ := rd_both ((C104_operations _ a V A hV ha).2.2.2 hA0') (by
    rw [Rat.cast_div]
    linarith)
  rw [Rat.cast_div] at hTe
  refine ⟨T', hT', ?_⟩
  have h4 : |(T' : ℝ) - T| ≤ |(T' : ℝ) - V / A| + |(V : ℝ) / A - T| := abs_sub_le _ _ _
  generalize rLo * uu = η at *
  have h5 : uu * |(V : ℝ) / A| ≤ uu * (3 / 2 * |T| + 1000 * η) := mul_le_mul_of_nonneg_left e2 hu.le
  have h6 : uu * η ≤ 1 / 1000000 * η := mul_le_mul_of_nonneg_right hu' hη
  have h7 : 0 ≤ uu * |T| := mul_nonneg hu.le (abs_nonneg _)
  linarith

theorem val_ofRat10 : F64.val (F64.ofRat 10) = some 10 := by decide +kernel

/-- **C117**, type -7.  `T` is the exponent, `β` the error of `10 ^ T`, `κ` the error after subtracting `c` and dividing
by `b`. -/
theorem C117_type7_inverse (l : Libm) (ε : ℝ) (hl : AccuratePow l ε) (hε : 0 ≤ ε) (g a b c d r : F64)
    (G A B C D R : ℚ) (hg : F64.val g = some G) (ha : F64.val a = some A) (hb : F64.val b = some B)
    (hc : F64.val c = some C) (hd : F64.val d = some D) (hr : F64.val r = some R) (hG : 1 / 1000 ≤ G)
    (hG' : G ≤ 1024) (hA : 1 / 1000 ≤ A) (hB : 1 / 1000 ≤ B) (hRD : |(R : ℝ) - D| ≤ rHi) :
    let T := ((R : ℝ) - D) / A
    let β := 18 * uu * |T| + 2 * ε + uu
    let U := (10 : ℝ) ^ T - C
    let κ := β * (10 : ℝ) ^ T / U + 4 * uu
    let Y := Value (-7) [(G : ℝ), (A : ℝ), (B : ℝ), (C : ℝ), (D : ℝ)] R
    |T| ≤ 300 → InRange U → InRange (U / B) → InRange Y → κ ≤ 1 / 4 → 3 * κ / G ≤ 1 / 5 →
    ∃ z Z, eval (F64.ops l) (-7) [g, a, b, c, d] r = some z ∧ F64.val z = some Z ∧
      |(Z : ℝ) - Y| ≤ rootErr κ G ε Y * Y := by
  intro T β U κ Y hT hU hUB hY hκ hκG
  have hu := uu_pos
  have hu' := uu_small
  have h0 := rLo_pos
  have cast : ∀ {x : ℚ}, 1 / 1000 ≤ x → (1 / 1000 : ℝ) ≤ x := by
    intro x hx
    have := (Rat.cast_le (K := ℝ)).mpr hx
    push_cast at this
    exact this
  have h1 := cast hG
  have hA1 := cast hA
  have hB1 := cast hB
  have h2 : (G : ℝ) ≤ 1024 := by exact_mod_cast hG'
  have hG0 : (0 : ℝ) < G := by linarith
  have hB0 : (0 : ℝ) < B := by linarith
  have hU0 : 0 < U := lt_of_lt_of_le h0 hU.1
  have hbig := rHi_big
  norm_num at hbig
  obtain ⟨T', hT', hTe⟩ := affine_inv hr hd ha hA1 hRD (by show |T| ≤ _; linarith)
  change |(T' : ℝ) - T| ≤ 3 * uu * |T| + uu / 100 at hTe
  have hW := ten_range hT
  have hW0 : 0 < (10 : ℝ) ^ T := lt_of_lt_of_le h0 hW.1
  have hl10 := log_ten_lt
  have hl10' := two_lt_log_ten
  have hTa : 0 ≤ uu * |T| := mul_nonneg hu.le (abs_nonneg _)
  obtain ⟨P, hP, hPe⟩ := pow_tau (tau := 9 * uu * |T| + uu / 2) hl hε val_ofRat10 hT' (by norm_num) hW (by
    rw [Real.log_rpow (by norm_num)]
    push_cast
    rw [← sub_mul, abs_mul, abs_of_pos (by linarith : (0 : ℝ) < Real.log 10)]
    have := mul_le_mul hTe hl10.le (by linarith) (by linarith)
    linarith) (by nlinarith [abs_nonneg T])
  have hβ0 : 0 ≤ β := by
    show 0 ≤ 18 * uu * |T| + 2 * ε + uu
    linarith
  have hβ : 2 * (9 * uu * |T| + uu / 2) + 2 * ε = β := by
    show _ = 18 * uu * |T| + 2 * ε + uu
    ring
  rw [hβ] at hPe
  have hκ0 : 0 ≤ β * (10 : ℝ) ^ T / U := div_nonneg (mul_nonneg hβ0 hW0.le) hU0.le
  have hκd : κ = β * (10 : ℝ) ^ T / U + 4 * uu := rfl
  obtain ⟨V, hV, hVe⟩ := sub_near hP hc hPe (D := U) rfl hU (by
    have : β * (10 : ℝ) ^ T / U ≤ 1 / 4 := by linarith
    rw [div_le_iff₀ hU0] at this
    linarith)
  obtain ⟨Q, hQ, hQe⟩ := div_near hV hb (by linarith) hU0 (by linarith) hVe hUB
  have hYv : Y = (U / B) ^ (1 / (G : ℝ)) := by
    show (if (G : ℝ) < 1 / 10000 ∨ (A : ℝ) < 1 / 10000 ∨ (B : ℝ) < 1 / 10000 then (0 : ℝ) else _) = _
    rw [if_neg]
    rintro (h | h | h) <;> linarith
  have hYG : Y ^ (G : ℝ) = U / B := by rw [hYv]; exact root_pow (div_pos hU0 hB0).le hG0.ne'
  obtain ⟨Z, hZ, hZe⟩ := inv_pow_acc (κ := κ) hl hε hQ hg h1 h2 hY (by linarith) (by linarith) hκG
    (by rw [hYG]; refine hQe.trans (le_of_eq ?_); rw [hκd]; ring)
  refine ⟨_, Z, ?_, hZ, hZe⟩
  show some (g7 (F64.ops l) g a b c d r) = _
  have nt : ∀ {x : F64} {X : ℚ}, F64.val x = some X → 1 / 1000 ≤ X →
      F64.lt x (F64.ofRat tolerance) = false := by
    intro x X hx hX
    by_contra hcon
    have h3 := (F64.lt_val hx (show F64.val (F64.ofRat tolerance) =
      some (F64.ratOf (F64.ofRat tolerance)) by decide +kernel)).mp (by simpa using hcon)
    have h4 : F64.ratOf (F64.ofRat tolerance) < 1 / 1000 := by decide +kernel
    linarith
  unfold g7
  simp only [F64.ops, nt hg hG, nt ha hA, nt hb hB, Bool.or_self, Bool.false_eq_true, if_false]

theorem mid_range {x : ℝ} (h : 1 / 2 ^ 20 ≤ x) (h' : x ≤ 2 ^ 20) : InRange x := ⟨rLo_le h, le_rHi h'⟩

theorem abs_log_half : |Real.log (1 / 2)| ≤ 7 / 10 := by
  have := Real.log_two_lt_d9
  have h2 := Real.log_two_gt_d9
  rw [one_div, Real.log_inv, abs_neg, abs_of_pos (by linarith)]
  linarith

/-- Type 108 with gamma 2 at 3/4: within 46 half units of the root of 1/2. -/
example (l : Libm) (hl : AccuratePow l (2 * uu)) :
    ∃ z Z, eval (F64.ops l) 108 [F64.ofRat 2] (F64.ofRat (3 / 4)) = some z ∧ F64.val z = some Z ∧
      |(Z : ℝ) - (1 / 2 : ℝ) ^ (1 / 2 : ℝ)| ≤ 46 * uu := by
  have hu := uu_pos
  have hu' := uu_small
  have hl2 := abs_log_half
  have e1 : (1 - ((3 / 4 : ℚ) : ℝ)) ^ (1 / ((2 : ℚ) : ℝ)) = 1 / 2 := by
    push_cast
    rw [show (1 : ℝ) - 3 / 4 = (1 / 2) ^ (2 : ℕ) by norm_num, ← Real.rpow_natCast_mul (by norm_num)]
    norm_num
  have e2 : Value 108 [((2 : ℚ) : ℝ)] ((3 / 4 : ℚ) : ℝ) = (1 / 2 : ℝ) ^ (1 / 2 : ℝ) := by
    show (if Tiny ((2 : ℚ) : ℝ) then (0 : ℝ) else _) = _
    rw [if_neg (not_tiny_real (by norm_num)), e1]
    norm_num
  have e3 : (1 / 2 : ℝ) ≤ (1 / 2 : ℝ) ^ (1 / 2 : ℝ) := by
    have := Real.rpow_le_rpow_of_exponent_ge (show (0 : ℝ) < 1 / 2 by norm_num) (by norm_num) (show (1 / 2 : ℝ) ≤ 1 by norm_num)
    rwa [Real.rpow_one] at this
  have e4 : (1 / 2 : ℝ) ^ (1 / 2 : ℝ) ≤ 1 := Real.rpow_le_one (by norm_num) (by norm_num) (by norm_num)
  have e5 : |Real.log ((1 / 2 : ℝ) ^ (1 / 2 : ℝ))| ≤ 7 / 20 := by
    rw [Real.log_rpow (by norm_num), abs_mul, abs_of_pos (by norm_num : (0 : ℝ) < 1 / 2)]
    linarith
  have k1 : 2 * uu * |Real.log (1 / 2)| ≤ 2 * uu * (7 / 10) := mul_le_mul_of_nonneg_left hl2 (by linarith)
  have k2 : 2 * uu * |Real.log ((1 / 2 : ℝ) ^ (1 / 2 : ℝ))| ≤ 2 * uu * (7 / 20) :=
    mul_le_mul_of_nonneg_left e5 (by linarith)
  have k3 : 0 ≤ 2 * uu * |Real.log ((1 / 2 : ℝ) ^ (1 / 2 : ℝ))| := by positivity
  have k4 : 0 ≤ 2 * uu * |Real.log (1 / 2)| := by positivity
  have hc : ((2 : ℚ) : ℝ) = 2 := by norm_num
  have main := C117_type108 l (2 * uu) hl (by linarith) (F64.ofRat 2) (F64.ofRat (3 / 4)) 2 (3 / 4) (by decide +kernel)
    (by decide +kernel) (by norm_num) (by norm_num)
  simp only [e1, e2] at main
  have e6 : ∀ x : ℝ, x * (1 / 2) / (1 - 1 / 2) = x := fun x => by ring
  simp only [rootErr, e6, hc] at main
  obtain ⟨z, Z, h1, h2, h3⟩ := main (mid_range (by norm_num) (by norm_num)) (mid_range (by norm_num) (by norm_num))
    (mid_range (by norm_num) (by norm_num)) (mid_range (by linarith) (by linarith)) (by linarith) (by linarith)
  refine ⟨z, Z, h1, h2, h3.trans ?_⟩
  refine (mul_le_mul_of_nonneg_left e4 (by linarith)).trans ?_
  linarith

/-- Type -108 with gamma 2 at 1/2: within 18 half units of 7/16. -/
example (l : Libm) (hl : AccuratePow l (2 * uu)) :
    ∃ z Z, eval (F64.ops l) (-108) [F64.ofRat 2] (F64.ofRat (1 / 2)) = some z ∧ F64.val z = some Z ∧
      |(Z : ℝ) - 7 / 16| ≤ 18 * uu := by
  have hu := uu_pos
  have hu' := uu_small
  have hc : ((2 : ℚ) : ℝ) = ((2 : ℕ) : ℝ) := by norm_num
  have e1 : ((1 / 2 : ℚ) : ℝ) ^ ((2 : ℚ) : ℝ) = 1 / 4 := by
    rw [hc, Real.rpow_natCast]
    norm_num
  have e2 : (1 - (1 / 4 : ℝ)) ^ ((2 : ℚ) : ℝ) = 9 / 16 := by
    rw [hc, Real.rpow_natCast]
    norm_num
  have e3 : Value (-108) [((2 : ℚ) : ℝ)] ((1 / 2 : ℚ) : ℝ) = 7 / 16 := by
    show 1 - (1 - ((1 / 2 : ℚ) : ℝ) ^ ((2 : ℚ) : ℝ)) ^ ((2 : ℚ) : ℝ) = _
    rw [e1, e2]
    norm_num
  have main := C117_type108_inverse l (2 * uu) hl (by linarith) (F64.ofRat 2) (F64.ofRat (1 / 2)) 2 (1 / 2)
    (by decide +kernel) (by decide +kernel) (by norm_num) (by norm_num)
  have e4 : ∀ x : ℝ, x * (1 / 4) / (1 - 1 / 4) = x / 3 := fun x => by ring
  simp only [e1, e2, e3, e4] at main
  obtain ⟨z, Z, h1, h2, h3⟩ := main (mid_range (by norm_num) (by norm_num)) (mid_range (by norm_num) (by norm_num))
    (mid_range (by norm_num) (by norm_num)) (by linarith) (by push_cast; linarith) (by linarith)
  refine ⟨z, Z, h1, h2, h3.trans ?_⟩
  push_cast
  linarith

/-- Type -7 with gamma 2, `a`, `b` and `c` 1 and `d` 0 at 1: within 300 half units of the root of `10 - 1`. -/
example (l : Libm) (hl : AccuratePow l (2 * uu)) :
    ∃ z Z, eval (F64.ops l) (-7) [F64.ofRat 2, F64.ofRat 1, F64.ofRat 1, F64.ofRat 1, F64.ofRat 0] (F64.ofRat 1) = some z ∧
      F64.val z = some Z ∧ |(Z : ℝ) - 3| ≤ 300 * uu := by
  have hu := uu_pos
  have hu' := uu_small
  have e0 : (((1 : ℚ) : ℝ) - ((0 : ℚ) : ℝ)) / ((1 : ℚ) : ℝ) = 1 := by norm_num
  have e1 : (9 : ℝ) ^ (1 / ((2 : ℚ) : ℝ)) = 3 := by
    rw [show (9 : ℝ) = 3 ^ (2 : ℕ) by norm_num, ← Real.rpow_natCast_mul (by norm_num)]
    norm_num
  have e2 : (10 : ℝ) ^ (1 : ℝ) = 10 := Real.rpow_one _
  have e3 : Value (-7) [((2 : ℚ) : ℝ), ((1 : ℚ) : ℝ), ((1 : ℚ) : ℝ), ((1 : ℚ) : ℝ), ((0 : ℚ) : ℝ)] ((1 : ℚ) : ℝ) = 3 := by
    simp only [Value, e0, e2]
    rw [show ((10 : ℝ) - ((1 : ℚ) : ℝ)) / ((1 : ℚ) : ℝ) = 9 by norm_num]
    simp only [e1]
    norm_num
  have h3 : |Real.log 3| ≤ 2 := by
    have := Real.log_le_sub_one_of_pos (show (0 : ℝ) < 3 by norm_num)
    rw [abs_of_nonneg (Real.log_nonneg (by norm_num))]
    linarith
  have k1 : 2 * uu * |Real.log 3| ≤ 2 * uu * 2 := mul_le_mul_of_nonneg_left h3 (by linarith)
  have hc : ((2 : ℚ) : ℝ) = 2 := by norm_num
  have main := C117_type7_inverse l (2 * uu) hl (by linarith) (F64.ofRat 2) (F64.ofRat 1) (F64.ofRat 1) (F64.ofRat 1)
    (F64.ofRat 0) (F64.ofRat 1) 2 1 1 1 0 1 (by decide +kernel) (by decide +kernel) (by decide +kernel)
    (by decide +kernel) (by decide +kernel) (by decide +kernel) (by norm_num) (by norm_num) (by norm_num) (by norm_num)
    (by push_cast; exact le_rHi (by norm_num))
  have e4 : ∀ x : ℝ, x * 10 / (10 - 1) = 10 / 9 * x := fun x => by ring
  simp only [e0, e2, e3, abs_one] at main
  simp only [rootErr, hc, Rat.cast_one, e4] at main
  obtain ⟨z, Z, h1, h2, h4⟩ := main (by norm_num) (mid_range (by norm_num) (by norm_num))
    (mid_range (by norm_num) (by norm_num)) (mid_range (by norm_num) (by norm_num)) (by linarith) (by linarith)
  refine ⟨z, Z, h1, h2, h4.trans ?_⟩
  linarith

end Lcms.Props
