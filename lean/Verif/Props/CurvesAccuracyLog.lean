import Mathlib.Analysis.Complex.ExponentialBounds
import Verif.Props.CurvesAccuracy

/-! # Property C105 continued: types 7 and 8 -/

namespace Lcms.Props

open Lcms.Curves

/-! ### Type 8: an error of the exponent -/

/-- A product of positive numbers, the second known to within a relative error. -/
theorem mul_acc {a x : F64} {A X : ℚ} {W β : ℝ} (ha : F64.val a = some A) (hx : F64.val x = some X) (hA : 0 < A)
    (hW : 0 < W) (h : |(X : ℝ) - W| ≤ β * W) (hβ : β ≤ 1 / 2) (hr : InRange (A * W)) :
    ∃ Z : ℚ, F64.val (F64.mul a x) = some Z ∧ |(Z : ℝ) - A * W| ≤ (β + 2 * uu) * (A * W) := by
  have hA' : (0 : ℝ) < A := by exact_mod_cast hA
  have hu0 := uu_pos
  have hu1 := uu_small
  have h1 := abs_le.mp h
  have hp : 0 < (A : ℝ) * W := mul_pos hA' hW
  have hlo : (A : ℝ) * W * (1 / 2) ≤ A * X := by nlinarith
  have hhi : (A : ℝ) * X ≤ A * W * (3 / 2) := by nlinarith
  have hT := rHi_pos
  obtain ⟨Z, hZ, hZe⟩ := rd_rel ((C104_operations a x A X ha hx).2.2.1)
    (by rw [Rat.cast_mul]; linarith [hr.1]) (by rw [Rat.cast_mul]; linarith [hr.2])
  refine ⟨Z, hZ, ?_⟩
  rw [Rat.cast_mul] at hZe
  have h2 : |(Z : ℝ) - A * W| ≤ |(Z : ℝ) - A * X| + |(A : ℝ) * X - A * W| := abs_sub_le _ _ _
  have h3 : |(A : ℝ) * X - A * W| ≤ β * (A * W) := by
    rw [← mul_sub, abs_mul, abs_of_pos hA']
    nlinarith
  have h4 : (A : ℝ) * X * uu ≤ 2 * uu * (A * W) := by nlinarith
  have h5 : (β + 2 * uu) * (A * W) = β * (A * W) + 2 * uu * (A * W) := by ring
  rw [h5]
  linarith

/-- A sum of a positive number known to within a relative error and a non-negative one. -/
theorem add_acc {x c : F64} {X C : ℚ} {W β : ℝ} (hx : F64.val x = some X) (hc : F64.val c = some C)
    (h : |(X : ℝ) - W| ≤ β * W) (hβ0 : 0 ≤ β) (hβ : β ≤ 1 / 2) (hW : rLo ≤ W) (hC : 0 ≤ C) (hr : W + C ≤ rHi) :
    ∃ Z : ℚ, F64.val (F64.add x c) = some Z ∧ |(Z : ℝ) - (W + C)| ≤ (β + 2 * uu) * (W + C) := by
  have hC' : (0 : ℝ) ≤ C := by exact_mod_cast hC
  have hu0 := uu_pos
  have hu1 := uu_small
  have h0 := rLo_pos
  have hT := rHi_pos
  have h1 := abs_le.mp h
  have hbW : β * W ≤ W / 2 := by nlinarith
  obtain ⟨Z, hZ, hZe⟩ := rd_rel ((C104_operations x c X C hx hc).1)
    (by rw [Rat.cast_add]; linarith) (by rw [Rat.cast_add]; linarith)
  refine ⟨Z, hZ, ?_⟩
  rw [Rat.cast_add] at hZe
  have h2 : |(Z : ℝ) - (W + C)| ≤ |(Z : ℝ) - (X + C)| + |((X : ℝ) + C) - (W + C)| := abs_sub_le _ _ _
  have h3 : |((X : ℝ) + C) - (W + C)| = |(X : ℝ) - W| := by congr 1; ring
  rw [h3] at h2
  have h4 : ((X : ℝ) + C) * uu ≤ 2 * uu * (W + C) := by nlinarith
  have h5 : β * W ≤ β * (W + C) := mul_le_mul_of_nonneg_left (by linarith) hβ0
  have h6 : (β + 2 * uu) * (W + C) = β * (W + C) + 2 * uu * (W + C) := by ring
  rw [h6]
  linarith

theorem log_rHi : Real.log rHi ≤ 1022 := by
  unfold rHi
  rw [Real.log_pow]
  have := Real.log_two_lt_d9
  push_cast
  linarith

theorem log_rLo : -1021 ≤ Real.log rLo := by
  unfold rLo
  rw [one_div, Real.log_inv, Real.log_pow]
  have := Real.log_two_lt_d9
  push_cast
  linarith

theorem log_range {x : ℝ} (h : InRange x) : |Real.log x| ≤ 1022 := by
  have h0 := rLo_pos
  have h1 := Real.log_le_log h0 h.1
  have h2 := Real.log_le_log (lt_of_lt_of_le h0 h.1) h.2
  have := log_rHi
  have := log_rLo
  rw [abs_le]
  constructor <;> linarith

/-- The power with an exponent known to within two roundings: the error grows with the logarithm of the result. -/
theorem exponent_acc {l : Libm} {ε : ℝ} (hl : AccuratePow l ε) (hε : 0 ≤ ε) {b t : F64} {B T' : ℚ} {T : ℝ}
    (hb : F64.val b = some B) (ht : F64.val t = some T') (hB : 0 < B) (hT : 0 < T) (h1 : (1 - uu) ^ 2 * T ≤ T')
    (h2 : (T' : ℝ) ≤ (1 + uu) ^ 2 * T) (hr : InRange ((B : ℝ) ^ T)) :
    ∃ P : ℚ, F64.val (l.powf b t) = some P ∧
      |(P : ℝ) - (B : ℝ) ^ T| ≤ (3 * |Real.log ((B : ℝ) ^ T)| * uu + 2 * ε) * (B : ℝ) ^ T := by
  have hu := uu_pos
  have hu' := uu_small
  have hB' : (0 : ℝ) < B := by exact_mod_cast hB
  have hW : 0 < (B : ℝ) ^ T := Real.rpow_pos_of_pos hB' _
  have hL := log_range hr
  have hlog : Real.log ((B : ℝ) ^ T) = T * Real.log B := Real.log_rpow hB' T
  set W := (B : ℝ) ^ T with hWdef
  set q := |Real.log W| * uu with hq
  have hq0 : 0 ≤ q := by positivity
  have hq1 : q ≤ 1 / 900 := by
    have : q ≤ 1022 * uu := mul_le_mul_of_nonneg_right hL hu.le
    linarith
  set x := ((T' : ℝ) - T) * Real.log B with hx
  have hd : |(T' : ℝ) - T| ≤ 21 / 10 * uu * T := by
    rw [abs_le]
    constructor <;> nlinarith
  have hxq : |x| ≤ 21 / 10 * q := by
    rw [hx, abs_mul, hq, hlog, abs_mul, abs_of_pos hT]
    have := mul_le_mul_of_nonneg_right hd (abs_nonneg (Real.log B))
    linarith
  have hpow : (B : ℝ) ^ (T' : ℝ) = W * Real.exp x := by
    rw [hWdef, Real.rpow_def_of_pos hB', Real.rpow_def_of_pos hB', ← Real.exp_add, hx]
    congr 1
    ring
  have hexp : |Real.exp x - 1| ≤ 5 / 2 * q := by
    have e1 := Real.abs_exp_sub_one_sub_id_le (x := x) (by linarith)
    have e2 : |Real.exp x - 1| ≤ |Real.exp x - 1 - x| + |x| := by
      have := abs_add_le (Real.exp x - 1 - x) x
      rwa [sub_add_cancel] at this
    have e3 : x ^ 2 ≤ (21 / 10 * q) ^ 2 := by
      rw [← sq_abs x]
      exact pow_le_pow_left₀ (abs_nonneg _) hxq 2
    nlinarith
  have he := abs_le.mp hexp
  obtain ⟨P, hP, hPe⟩ := hl b t B T' hb ht hB (by rw [hpow]; have := hr.1; nlinarith)
    (by rw [hpow]; have := hr.2; nlinarith)
  refine ⟨P, hP, ?_⟩
  rw [hpow] at hPe
  have h5 : |(P : ℝ) - W| ≤ |(P : ℝ) - W * Real.exp x| + |W * Real.exp x - W| := abs_sub_le _ _ _
  have h6 : |W * Real.exp x - W| ≤ 5 / 2 * q * W := by
    have : W * Real.exp x - W = W * (Real.exp x - 1) := by ring
    rw [this, abs_mul, abs_of_pos hW]
    nlinarith
  have h7 : ε * (W * Real.exp x) ≤ 2 * ε * W := by
    have : W * Real.exp x ≤ 2 * W := by nlinarith
    nlinarith
  have h8 : 0 ≤ q * W := by positivity
  have h9 : (3 * |Real.log W| * uu + 2 * ε) * W = 3 * (q * W) + 2 * ε * W := by rw [hq]; ring
  rw [h9]
  linarith

/-- **C105**, type 8, growing: the relative error is `3 |log P|` half units, `P` being the power, and never more than
about 3000 of them. -/
theorem C105_type8 (l : Libm) (ε : ℝ) (hl : AccuratePow l ε) (hε : 0 ≤ ε) (hε' : ε ≤ 1 / 8) (a b c d e r : F64)
    (A B C D E R : ℚ) (ha : F64.val a = some A) (hb : F64.val b = some B) (hc : F64.val c = some C)
    (hd : F64.val d = some D) (he : F64.val e = some E) (hr : F64.val r = some R)
    (hA : 0 < A) (hB : 0 < B) (hC : 0 ≤ C) (hD : 0 ≤ D) (hE : 0 ≤ E) (hR : 0 ≤ R)
    (exponent : InRange (C * R + D)) (power : InRange ((B : ℝ) ^ ((C : ℝ) * R + D)))
    (product : InRange (A * (B : ℝ) ^ ((C : ℝ) * R + D))) (sum : A * (B : ℝ) ^ ((C : ℝ) * R + D) + E ≤ rHi) :
    ∃ z Z Y, eval (F64.ops l) 8 [a, b, c, d, e] r = some z ∧ F64.val z = some Z ∧
      Maps 8 [(A : ℝ), (B : ℝ), (C : ℝ), (D : ℝ), (E : ℝ)] R Y ∧
      |(Z : ℝ) - Y| ≤ (3 * |Real.log ((B : ℝ) ^ ((C : ℝ) * R + D))| * uu + 2 * ε + 4 * uu) * Y ∧
      |(Z : ℝ) - Y| ≤ (3070 * uu + 2 * ε) * Y := by
  have hB' : (0 : ℝ) < B := by exact_mod_cast hB
  have hA' : (0 : ℝ) < A := by exact_mod_cast hA
  have hE' : (0 : ℝ) ≤ E := by exact_mod_cast hE
  have hu := uu_pos
  have hu' := uu_small
  obtain ⟨T', hT', h1, h2⟩ := affine_acc hc hd hr hC hD hR exponent
  have hT0 : (0 : ℝ) < C * R + D := lt_of_lt_of_le rLo_pos exponent.1
  obtain ⟨P, hP, hPe⟩ := exponent_acc hl hε hb hT' hB hT0 h1 h2 power
  have hL := log_range power
  set W := (B : ℝ) ^ ((C : ℝ) * R + D) with hW
  have hW0 : 0 < W := Real.rpow_pos_of_pos hB' _
  set β := 3 * |Real.log W| * uu + 2 * ε with hβ
  have hβ0 : 0 ≤ β := by positivity
  have hβ1 : β ≤ 3066 * uu + 2 * ε := by
    have : |Real.log W| * uu ≤ 1022 * uu := mul_le_mul_of_nonneg_right hL hu.le
    linarith
  obtain ⟨M, hM, hMe⟩ := mul_acc ha hP hA hW0 hPe (by linarith) product
  obtain ⟨Z, hZ, hZe⟩ := add_acc hM he hMe (by linarith) (by linarith) product.1 hE sum
  have hY0 : 0 ≤ A * W + E := by positivity
  have hfin : |(Z : ℝ) - (A * W + E)| ≤ (β + 4 * uu) * (A * W + E) := by
    refine hZe.trans (le_of_eq ?_)
    ring
  refine ⟨_, Z, A * W + E, rfl, hZ, ?_, hfin, hfin.trans (mul_le_mul_of_nonneg_right (by linarith) hY0)⟩
  show some (f8 realOps (some (A : ℝ)) (some (B : ℝ)) (some (C : ℝ)) (some (D : ℝ)) (some (E : ℝ)) (some (R : ℝ))) = _
  unfold f8
  rw [r_mul, r_add, r_pow_pos hB', r_mul, r_add]

/-! ### Type 7: the absolute error of a logarithm -/

/-- The platform's `log10` has relative error at most `ε`.  (The logarithm of a binary64 number other than 1 is never
small enough to be subnormal.) -/
def AccurateLog (l : Libm) (ε : ℝ) : Prop :=
  ∀ (x : F64) (X : ℚ), F64.val x = some X → 0 < X →
    ∃ L : ℚ, F64.val (l.log10 x) = some L ∧ |(L : ℝ) - Real.logb 10 X| ≤ ε * |Real.logb 10 X|

theorem two_lt_log_ten : 2 < Real.log 10 := by
  rw [Real.lt_log_iff_exp_lt (by norm_num)]
  have e : Real.exp 2 = Real.exp 1 * Real.exp 1 := by rw [← Real.exp_add]; norm_num
  have := Real.exp_one_lt_d9
  rw [e]
  nlinarith [Real.exp_pos 1]

/-- The largest factor and offset admitted for type 7. -/
noncomputable def big : ℝ := 2 ^ 1000

theorem one_le_big : 1 ≤ big := one_le_pow₀ (by norm_num)

theorem range_sum {x : ℝ} (h : x ≤ 2048 * big) : x ≤ rHi / 4 := by
  have e : rHi = big * 2 ^ 22 := by unfold rHi big; rw [← pow_add]
  have := one_le_big
  rw [e]
  generalize big = t at *
  linarith

theorem rLo_le_one : rLo ≤ 1 := by
  unfold rLo
  rw [div_le_one (by positivity)]
  exact one_le_pow₀ (by norm_num)

/-- `a * x + d` in terms of the errors of `x`. -/
theorem affine_abs {a x d : F64} {A L D : ℚ} {Λ η δ : ℝ} (ha : F64.val a = some A) (hx : F64.val x = some L)
    (hd : F64.val d = some D) (hA0 : (0 : ℝ) ≤ A) (hA : (A : ℝ) ≤ big) (hD : |(D : ℝ)| ≤ big) (hΛ : |Λ| ≤ 1022)
    (hη0 : 0 ≤ η) (hη : η ≤ 1 / 4) (hδ : 0 ≤ δ) (hδ' : δ ≤ 1 / 8) (hL : |(L : ℝ) - Λ| ≤ 9 / 8 * η + δ * |Λ|) :
    ∃ Z : ℚ, F64.val (F64.add (F64.mul a x) d) = some Z ∧
      |(Z : ℝ) - (A * Λ + D)| ≤ 2 * A * η + (δ + 3 * uu) * (A * |Λ| + |(D : ℝ)|) + 2 * rLo * uu := by
  have hu := uu_pos
  have hu' := uu_small
  have hlo := rLo_pos
  have hlo1 := rLo_le_one
  have hbig := one_le_big
  have hLabs : |(L : ℝ)| ≤ 9 / 8 * |Λ| + 9 / 8 * η := by
    have h1 := abs_sub_abs_le_abs_sub (L : ℝ) Λ
    have : δ * |Λ| ≤ 1 / 8 * |Λ| := mul_le_mul_of_nonneg_right hδ' (abs_nonneg _)
    linarith
  have hxb : (A : ℝ) * |Λ| ≤ big * 1022 := mul_le_mul hA hΛ (abs_nonneg _) (by linarith)
  have hyb : (A : ℝ) * η ≤ big * (1 / 4) := mul_le_mul hA hη hη0 (by linarith)
  have hAΛ : |(A : ℝ) * Λ| = A * |Λ| := by rw [abs_mul, abs_of_nonneg hA0]
  have hx0 : 0 ≤ (A : ℝ) * |Λ| := mul_nonneg hA0 (abs_nonneg _)
  have hy0 : 0 ≤ (A : ℝ) * η := mul_nonneg hA0 hη0
  have hAL : |(A : ℝ) * L| ≤ 9 / 8 * (A * |Λ|) + 9 / 8 * (A * η) := by
    rw [abs_mul, abs_of_nonneg hA0]
    have := mul_le_mul_of_nonneg_left hLabs hA0
    linarith
  have hALΛ : |(A : ℝ) * L - A * Λ| ≤ 9 / 8 * (A * η) + δ * (A * |Λ|) := by
    rw [← mul_sub, abs_mul, abs_of_nonneg hA0]
    have := mul_le_mul_of_nonneg_left hL hA0
    linarith
  have hdx : δ * (A * |Λ|) ≤ 1 / 8 * (A * |Λ|) := mul_le_mul_of_nonneg_right hδ' hx0
  have hdx0 : 0 ≤ δ * (A * |Λ|) := mul_nonneg hδ hx0
  have hd0 := abs_nonneg (D : ℝ)
  have e3 : 2 * (A : ℝ) * η = 2 * (A * η) := by ring
  rw [e3]
  generalize hX : (A : ℝ) * |Λ| = X at *
  generalize hY : (A : ℝ) * η = Y at *
  clear hL hLabs hΛ hη hη0 hA0 hA
  obtain ⟨N, hN, hNe⟩ := rd_step ((C104_operations a x A L ha hx).2.2.1) (by
    rw [Rat.cast_mul]
    have : |(A : ℝ) * L| ≤ rHi / 4 := range_sum (by linarith)
    linarith [rHi_pos])
  rw [Rat.cast_mul] at hNe
  have hru : 0 < rLo * uu := mul_pos hlo hu
  have hALu : |(A : ℝ) * L| * uu ≤ (9 / 8 * X + 9 / 8 * Y) * uu := mul_le_mul_of_nonneg_right hAL hu.le
  have hALu0 : 0 ≤ |(A : ℝ) * L| * uu := by positivity
  have hN1 : |(N : ℝ) - A * L| ≤ (9 / 8 * X + 9 / 8 * Y) * uu + rLo * (uu / 2) := by
    rcases hNe with h | h
    · linarith
    · linarith
  have hN2 : |(N : ℝ) - A * Λ| ≤ |(N : ℝ) - A * L| + |(A : ℝ) * L - A * Λ| := abs_sub_le _ _ _
  have hXu : X * uu ≤ X * (1 / 1000000) := mul_le_mul_of_nonneg_left hu' hx0
  have hYu : Y * uu ≤ Y * (1 / 1000000) := mul_le_mul_of_nonneg_left hu' hy0
  have hXu0 : 0 ≤ X * uu := by positivity
  have hYu0 : 0 ≤ Y * uu := by positivity
  have hr1 : rLo * uu ≤ 1 := mul_le_one₀ hlo1 hu.le (by linarith)
  have hNΛ : |(N : ℝ) - A * Λ| ≤ 9 / 8 * Y + δ * X + (9 / 8 * X + 9 / 8 * Y) * uu + rLo * (uu / 2) := by linarith
  clear hNe hN1 hN2 hALu hALu0 hALΛ hAL
  have hND : |(N : ℝ) + D| ≤ 5 / 4 * X + 5 / 4 * Y + |(D : ℝ)| + rLo * uu := by
    have h1 := abs_add_le (N : ℝ) D
    have h2 := abs_sub_abs_le_abs_sub (N : ℝ) (A * Λ)
    linarith
  obtain ⟨Z, hZ, hZe⟩ := rd_step ((C104_operations _ d N D hN hd).1) (by
    rw [Rat.cast_add]
    have : |(N : ℝ) + D| ≤ rHi / 4 := range_sum (by linarith)
    linarith [rHi_pos])
  rw [Rat.cast_add] at hZe
  have hNDu : |(N : ℝ) + D| * uu ≤ (5 / 4 * X + 5 / 4 * Y + |(D : ℝ)| + rLo * uu) * uu :=
    mul_le_mul_of_nonneg_right hND hu.le
  have hNDu0 : 0 ≤ |(N : ℝ) + D| * uu := by positivity
  have hZ1 : |(Z : ℝ) - (N + D)| ≤ (5 / 4 * X + 5 / 4 * Y + |(D : ℝ)| + rLo * uu) * uu + rLo * (uu / 2) := by
    rcases hZe with h | h
    · linarith
    · linarith
  refine ⟨Z, hZ, ?_⟩
  have h1 : |(Z : ℝ) - (A * Λ + D)| ≤ |(Z : ℝ) - (N + D)| + |((N : ℝ) + D) - (A * Λ + D)| := abs_sub_le _ _ _
  have h2 : |((N : ℝ) + D) - (A * Λ + D)| = |(N : ℝ) - A * Λ| := by congr 1; ring
  rw [h2] at h1
  have h3 : (δ + 3 * uu) * (X + |(D : ℝ)|) = δ * X + 3 * (X * uu) + δ * |(D : ℝ)| + 3 * (|(D : ℝ)| * uu) := by ring
  rw [h3]
  have h4 : 0 ≤ δ * |(D : ℝ)| := by positivity
  have h5 : 0 ≤ |(D : ℝ)| * uu := by positivity
  have h6 : rLo * uu * uu ≤ rLo * uu * (1 / 1000000) := mul_le_mul_of_nonneg_left hu' hru.le
  clear hND hNDu hNDu0 hZe h2 h3 hxb hyb hdx hd0 hX hY hAΛ
  linarith

theorem logb_acc {S X η : ℝ} (hS : 0 < S) (h : |X - S| ≤ η * S) (hη : η ≤ 1 / 2) :
    |Real.logb 10 X - Real.logb 10 S| ≤ η := by
  have h1 := abs_le.mp h
  have hη0 : 0 ≤ η := by
    by_contra hn
    have := abs_nonneg (X - S)
    nlinarith
  have hX : 0 < X := by nlinarith
  have h10 := two_lt_log_ten
  have e : Real.logb 10 X - Real.logb 10 S = Real.log (X / S) / Real.log 10 := by
    rw [Real.logb, Real.logb, Real.log_div hX.ne' hS.ne', sub_div]
  rw [e, abs_div, abs_of_pos (by linarith : (0 : ℝ) < Real.log 10), div_le_iff₀ (by linarith)]
  have hq : 0 < X / S := div_pos hX hS
  have up : Real.log (X / S) ≤ η := by
    have := Real.log_le_sub_one_of_pos hq
    have : X / S ≤ 1 + η := by rw [div_le_iff₀ hS]; linarith
    linarith
  have lo : -(2 * η) ≤ Real.log (X / S) := by
    have h2 := Real.log_le_sub_one_of_pos (inv_pos.mpr hq)
    rw [Real.log_inv] at h2
    have h3 : (X / S)⁻¹ ≤ 1 + 2 * η := by
      rw [inv_div, div_le_iff₀ hX]
      nlinarith
    linarith
  rw [abs_le]
  constructor <;> nlinarith

/-- **C105**, type 7: an absolute bound, in terms of `a`, `d` and the size of the logarithm. -/
theorem C105_type7 (l : Libm) (ε δ : ℝ) (hl : AccuratePow l ε) (hlog : AccurateLog l δ) (hε : 0 ≤ ε) (hε' : ε ≤ 1 / 8)
    (hδ : 0 ≤ δ) (hδ' : δ ≤ 1 / 8) (g a b c d r : F64) (G A B C D R : ℚ) (hg : F64.val g = some G)
    (ha : F64.val a = some A) (hb : F64.val b = some B) (hc : F64.val c = some C) (hd : F64.val d = some D)
    (hr : F64.val r = some R) (hA : 0 ≤ A) (hB : 0 < B) (hC : 0 ≤ C) (hR : 0 < R)
    (power : InRange ((R : ℝ) ^ (G : ℝ))) (product : InRange (B * (R : ℝ) ^ (G : ℝ)))
    (sum : B * (R : ℝ) ^ (G : ℝ) + C ≤ rHi) (hA' : (A : ℝ) ≤ big) (hD' : |(D : ℝ)| ≤ big) :
    ∃ z Z, eval (F64.ops l) 7 [g, a, b, c, d] r = some z ∧ F64.val z = some Z ∧
      let S := B * (R : ℝ) ^ (G : ℝ) + C
      Maps 7 [(G : ℝ), (A : ℝ), (B : ℝ), (C : ℝ), (D : ℝ)] R (A * Real.logb 10 S + D) ∧
      |(Z : ℝ) - (A * Real.logb 10 S + D)| ≤
        2 * A * (ε + 4 * uu) + (δ + 3 * uu) * (A * |Real.logb 10 S| + |(D : ℝ)|) + 2 * rLo * uu := by
  have hR' : (0 : ℝ) < R := by exact_mod_cast hR
  have hB' : (0 : ℝ) < B := by exact_mod_cast hB
  have hA0 : (0 : ℝ) ≤ A := by exact_mod_cast hA
  have hC0 : (0 : ℝ) ≤ C := by exact_mod_cast hC
  have hu := uu_pos
  have hu' := uu_small
  have hT := rHi_pos
  have hlo := rLo_pos
  obtain ⟨P, hP, hPe⟩ := hl r g R G hr hg hR (by linarith [power.1]) (by linarith [power.2])
  set W := (R : ℝ) ^ (G : ℝ) with hW
  have hW0 : 0 < W := Real.rpow_pos_of_pos hR' _
  obtain ⟨M, hM, hMe⟩ := mul_acc hb hP hB hW0 hPe (by linarith) product
  obtain ⟨E, hE, hEe⟩ := add_acc hM hc hMe (by linarith) (by linarith) product.1 hC sum
  set S := B * W + C with hS
  have hSlo : rLo ≤ S := by linarith [product.1]
  have hS0 : 0 < S := by linarith
  set η := ε + 4 * uu with hη
  have hEe' : |(E : ℝ) - S| ≤ η * S := by
    refine hEe.trans (le_of_eq ?_)
    rw [hη]
    ring
  have hη0 : 0 ≤ η := by positivity
  have hη1 : η ≤ 1 / 4 := by linarith
  have hE0 : (0 : ℝ) < E := by
    have := abs_le.mp hEe'
    nlinarith
  have hE0' : 0 < E := by exact_mod_cast hE0
  have hlogb := logb_acc hS0 hEe' (by linarith)
  have hΛ : |Real.logb 10 S| ≤ 1022 := by
    have h1 := log_range ⟨hSlo, sum⟩
    have h3 := two_lt_log_ten
    rw [Real.logb, abs_div, abs_of_pos (by linarith : (0 : ℝ) < Real.log 10), div_le_iff₀ (by linarith)]
    nlinarith
  obtain ⟨L, hL, hLe⟩ := hlog _ E hE hE0'
  set Λ := Real.logb 10 S with hΛd
  set Λ' := Real.logb 10 E with hΛ'd
  have hΛ' : |Λ'| ≤ |Λ| + η := by
    have := abs_sub_abs_le_abs_sub Λ' Λ
    linarith
  have hLΛ : |(L : ℝ) - Λ| ≤ 9 / 8 * η + δ * |Λ| := by
    have h1 : |(L : ℝ) - Λ| ≤ |(L : ℝ) - Λ'| + |Λ' - Λ| := abs_sub_le _ _ _
    have h2 : δ * |Λ'| ≤ δ * (|Λ| + η) := mul_le_mul_of_nonneg_left hΛ' hδ
    nlinarith
  obtain ⟨Z, hZ, hZe⟩ := affine_abs ha hL hd hA0 hA' hD' hΛ hη0 hη1 hδ hδ' hLΛ
  refine ⟨_, Z, ?_, hZ, ?_, hZe⟩
  · show some (f7 (F64.ops l) g a b c d r) = _
    unfold f7
    have : F64.le (F64.add (F64.mul b (l.powf r g)) c) (F64.ofRat 0) = false := by
      by_contra hcon
      have := (F64.le_val hE val_ofRat0).mp (by simpa using hcon)
      exact absurd hE0' (not_lt.mpr this)
    simp only [F64.ops, this, Bool.false_eq_true, if_false]
  · show some (f7 realOps (some (G : ℝ)) (some (A : ℝ)) (some (B : ℝ)) (some (C : ℝ)) (some (D : ℝ)) (some (R : ℝ))) = _
    unfold f7
    simp only [r_pow_pos hR', r_mul, r_add, r_lit0, r_le]
    rw [← hW, ← hS, if_neg (not_le.mpr hS0), r_log hS0, r_mul, r_add]

/-! ### Instances -/

theorem pow_split {k j : ℕ} (h : j ≤ k) : (2 : ℚ) ^ k = 2 ^ (k - j) * 2 ^ j := by
  rw [← pow_add, Nat.sub_add_cancel h]

/-- A binary64 number other than 1 is at least 2^-54 away from it. -/
theorem one_gap {x : F64} {X : ℚ} (hx : F64.val x = some X) (h0 : 0 < X) (h1 : X ≠ 1) : 1 / 2 ^ 54 ≤ |X - 1| := by
  obtain ⟨s, m, k, rfl, hv⟩ := F64.val_eq_some hx
  have hX : X = F64.magVal m k := by
    have := F64.magVal_nonneg m k
    cases s
    · simpa using hv
    · simp only [if_true] at hv
      linarith
  have e54 : (2 : ℚ) ^ F64.bias = 2 ^ 54 * 2 ^ 1020 := by
    rw [← pow_add]
    rfl
  have p1020 : (0 : ℚ) < 2 ^ 1020 := by positivity
  have hX' : X * 2 ^ 54 * 2 ^ 1020 = m.val * 2 ^ k.val := by
    rw [hX, F64.magVal, e54]
    have : (2 : ℚ) ^ 1020 ≠ 0 := p1020.ne'
    field_simp
  rcases Nat.lt_or_ge k.val 1020 with hk | hk
  · have hm : (m.val : ℚ) ≤ 2 ^ 53 := by exact_mod_cast m.isLt.le
    have hk' : (2 : ℚ) ^ k.val ≤ 2 ^ 1020 := pow_le_pow_right₀ (by norm_num) hk.le
    have hmk : (m.val : ℚ) * 2 ^ k.val ≤ 2 ^ 53 * 2 ^ 1020 :=
      mul_le_mul hm hk' (by positivity) (by positivity)
    rw [← hX'] at hmk
    have h2 := le_of_mul_le_mul_right hmk p1020
    clear hmk hk' hX' e54 hX hv hx p1020
    have h3 : X ≤ 1 / 2 := by linarith
    rw [abs_of_neg (by linarith)]
    have h4 : (1 : ℚ) / 2 ^ 54 ≤ 1 / 2 := by norm_num
    linarith
  · rw [pow_split hk, ← mul_assoc] at hX'
    have h2 : X * 2 ^ 54 = ((m.val * 2 ^ (k.val - 1020) : ℕ) : ℚ) := by
      push_cast
      exact mul_right_cancel₀ p1020.ne' hX'
    generalize m.val * 2 ^ (k.val - 1020) = n at h2
    have hn : n ≠ 2 ^ 54 := by
      rintro rfl
      refine h1 ?_
      push_cast at h2
      linarith
    have h3 : (1 : ℚ) ≤ |(n : ℚ) - 2 ^ 54| := by
      have h4 : (1 : ℤ) ≤ |(n : ℤ) - 2 ^ 54| := Int.one_le_abs (by omega)
      exact_mod_cast h4
    rw [div_le_iff₀ (by positivity), ← abs_of_pos (show (0 : ℚ) < 2 ^ 54 by positivity), ← abs_mul, sub_mul, h2, one_mul]
    exact h3

theorem log_ten_lt : Real.log 10 < 3 := by
  rw [Real.log_lt_iff_lt_exp (by norm_num)]
  have e : Real.exp 3 = Real.exp 1 * Real.exp 1 * Real.exp 1 := by rw [← Real.exp_add, ← Real.exp_add]; norm_num
  have h := Real.exp_one_gt_d9
  rw [e]
  have h2 : (7 : ℝ) < Real.exp 1 * Real.exp 1 := by nlinarith
  nlinarith

/-- The logarithm of a binary64 number other than 1 is far from subnormal. -/
theorem log_gap {x : F64} {X : ℚ} (hx : F64.val x = some X) (h0 : 0 < X) (h1 : X ≠ 1) :
    rLo ≤ |Real.logb 10 X| := by
  have hX : (0 : ℝ) < X := by exact_mod_cast h0
  have hg : (1 : ℝ) / 2 ^ 54 ≤ |(X : ℝ) - 1| := by
    have := (Rat.cast_le (K := ℝ)).mpr (one_gap hx h0 h1)
    push_cast at this
    exact this
  have h10 := two_lt_log_ten
  have h11 := log_ten_lt
  have hlog : (1 : ℝ) / 2 ^ 55 ≤ |Real.log X| := by
    rcases le_total (X : ℝ) 1 with h | h
    · have h2 := Real.log_le_sub_one_of_pos hX
      rw [abs_of_nonpos (by linarith)] at hg
      rw [abs_of_nonpos (by linarith)]
      refine le_trans ?_ (show 1 - (X : ℝ) ≤ _ by linarith)
      refine le_trans ?_ (show (1 : ℝ) / 2 ^ 54 ≤ _ by linarith)
      norm_num
    · rw [abs_of_nonneg (by linarith)] at hg
      have h2 := Real.one_sub_inv_le_log_of_pos hX
      rw [abs_of_nonneg (Real.log_nonneg h)]
      refine le_trans ?_ h2
      have h3 : (X : ℝ)⁻¹ ≤ 1 - 1 / 2 ^ 55 := by
        rw [inv_le_comm₀ hX (by norm_num)]
        refine le_trans ?_ (show 1 + (1 : ℝ) / 2 ^ 54 ≤ X by linarith)
        norm_num
      linarith
  rw [Real.logb, abs_div, abs_of_pos (by linarith : (0 : ℝ) < Real.log 10), le_div_iff₀ (by linarith)]
  have h3 : rLo ≤ 1 / 2 ^ 57 := by
    unfold rLo
    exact one_div_le_one_div_of_le (by positivity) (pow_le_pow_right₀ (by norm_num) (by norm_num))
  have h4 : rLo * Real.log 10 ≤ 1 / 2 ^ 57 * 3 := mul_le_mul h3 h11.le (by linarith) (by positivity)
  refine h4.trans (le_trans ?_ hlog)
  norm_num

theorem logb_le {x : F64} {X : ℚ} (hx : F64.val x = some X) (h0 : 0 < X) : |Real.logb 10 X| ≤ 1074 := by
  have hX : (0 : ℝ) < X := by exact_mod_cast h0
  obtain ⟨s, m, k, rfl, hv⟩ := F64.val_eq_some hx
  have hm0 : X = F64.magVal m k := by
    have := F64.magVal_nonneg m k
    cases s
    · simpa using hv
    · simp only [if_true] at hv
      linarith
  have hm : 0 < m.val := by
    rcases Nat.eq_zero_or_pos m.val with h | h
    · rw [hm0, F64.magVal, h] at h0
      simp at h0
    · exact h
  have hval : (X : ℝ) = m.val * 2 ^ k.val / 2 ^ 1074 := by
    rw [hm0, F64.magVal]
    push_cast
    rfl
  have hm' : (0 : ℝ) < m.val := by exact_mod_cast hm
  have hm1 : (1 : ℝ) ≤ m.val := by exact_mod_cast hm
  have hm2 : (m.val : ℝ) ≤ 2 ^ 53 := by exact_mod_cast m.isLt.le
  have hlog : Real.log X = Real.log m.val + k.val * Real.log 2 - 1074 * Real.log 2 := by
    rw [hval, Real.log_div (by positivity) (by positivity), Real.log_mul (by positivity) (by positivity),
      Real.log_pow, Real.log_pow]
    norm_num
  have l2 := Real.log_two_lt_d9
  have l2' := Real.log_two_gt_d9
  have h1 : 0 ≤ Real.log m.val := Real.log_nonneg hm1
  have h2 : Real.log m.val ≤ 53 * Real.log 2 := by
    have := Real.log_le_log hm' hm2
    rw [Real.log_pow] at this
    exact_mod_cast this
  have hk : (k.val : ℝ) ≤ 2046 := by exact_mod_cast k.isLt.le
  have hk0 : (0 : ℝ) ≤ k.val := by positivity
  have h10 := two_lt_log_ten
  rw [Real.logb, abs_div, abs_of_pos (by linarith : (0 : ℝ) < Real.log 10), div_le_iff₀ (by linarith), hlog, abs_le]
  constructor <;> nlinarith

/-- There are such platforms, with relative errors of 2^-52. -/
theorem C105_accurate_log_exists : ∃ l : Libm, AccuratePow l (2 * uu) ∧ AccurateLog l (2 * uu) := by
  obtain ⟨l, hl⟩ := C105_accurate_pow_exists
  have key : ∀ x : F64, ∃ z : F64, ∀ X : ℚ, F64.val x = some X → 0 < X →
      ∃ L : ℚ, F64.val z = some L ∧ |(L : ℝ) - Real.logb 10 X| ≤ 2 * uu * |Real.logb 10 X| := by
    intro x
    by_cases h : ∃ X : ℚ, F64.val x = some X ∧ 0 < X
    · obtain ⟨X, hx, hX⟩ := h
      by_cases hX1 : X = 1
      · refine ⟨F64.ofRat 0, fun X1 hx1 _ => ⟨0, val_ofRat0, ?_⟩⟩
        rw [hx] at hx1
        obtain rfl := Option.some.inj hx1
        rw [hX1]
        simp
      · have hgap := log_gap hx hX hX1
        have hle := logb_le hx hX
        have hu := uu_pos
        have hu' := uu_small
        have h0 := rLo_pos
        set Λ := Real.logb 10 (X : ℝ) with hΛ
        have hpos : 0 < uu / 2 * |Λ| := by
          have : 0 < |Λ| := lt_of_lt_of_le h0 hgap
          positivity
        obtain ⟨q, hq1, hq2⟩ := exists_rat_btwn (show Λ < Λ + uu / 2 * |Λ| by linarith)
        have hqΛ : |(q : ℝ) - Λ| ≤ uu / 2 * |Λ| := by
          rw [abs_le]
          constructor <;> linarith
        have hq3 : |(q : ℝ)| ≤ 3 / 2 * |Λ| := by
          have := abs_sub_abs_le_abs_sub (q : ℝ) Λ
          nlinarith [abs_nonneg Λ]
        have hq4 : |Λ| / 2 ≤ |(q : ℝ)| := by
          have := abs_sub_abs_le_abs_sub Λ (q : ℝ)
          rw [abs_sub_comm] at this
          nlinarith [abs_nonneg Λ]
        obtain ⟨L, hL, hLe⟩ := rd_step (correct_of_rd (F64.round_cases q)) (by
          have : |(q : ℝ)| ≤ rHi / 4 := range_sum (by linarith [one_le_big])
          linarith [rHi_pos])
        refine ⟨F64.round q, fun X1 hx1 _ => ⟨L, hL, ?_⟩⟩
        rw [hx] at hx1
        obtain rfl := Option.some.inj hx1
        have h3 : |(L : ℝ) - q| ≤ 3 / 2 * |Λ| * uu := by
          rcases hLe with h | h
          · exact h.trans (mul_le_mul_of_nonneg_right hq3 hu.le)
          · refine h.trans ?_
            nlinarith
        have h4 : |(L : ℝ) - Λ| ≤ |(L : ℝ) - q| + |(q : ℝ) - Λ| := abs_sub_le _ _ _
        linarith
    · exact ⟨.nan, fun X hx hX => absurd ⟨X, hx, hX⟩ h⟩
  choose f hf using key
  exact ⟨⟨l.powf, l.exp, f⟩, hl, fun x X => hf x X⟩

/-- `1 * 2 ^ (2 * 0.5 + 1) + 3` is within 100 half units of 7. -/
example (l : Libm) (hl : AccuratePow l (2 * uu)) :
    ∃ z Z, eval (F64.ops l) 8 [F64.ofRat 1, F64.ofRat 2, F64.ofRat 2, F64.ofRat 1, F64.ofRat 3] (F64.ofRat (1 / 2)) =
      some z ∧ F64.val z = some Z ∧ |(Z : ℝ) - 7| ≤ 100 * uu := by
  have hu := uu_pos
  have hu' := uu_small
  have e0 : ((2 : ℚ) : ℝ) * ((1 / 2 : ℚ) : ℝ) + ((1 : ℚ) : ℝ) = 2 := by norm_num
  have e1 : ((2 : ℚ) : ℝ) ^ (2 : ℝ) = 4 := by
    rw [Rat.cast_ofNat]
    exact_mod_cast (by norm_num : (2 : ℝ) ^ 2 = 4)
  obtain ⟨z, Z, Y, hz, hZ, hY, he, -⟩ := C105_type8 l (2 * uu) hl (by linarith) (by linarith) (F64.ofRat 1) (F64.ofRat 2)
    (F64.ofRat 2) (F64.ofRat 1) (F64.ofRat 3) (F64.ofRat (1 / 2)) 1 2 2 1 3 (1 / 2)
    (by decide +kernel) (by decide +kernel) (by decide +kernel) (by decide +kernel) (by decide +kernel)
    (by decide +kernel) (by norm_num) (by norm_num) (by norm_num) (by norm_num) (by norm_num) (by norm_num)
    (by rw [e0]; exact ⟨rLo_le (by norm_num), le_rHi (by norm_num)⟩)
    (by rw [e0, e1]; exact ⟨rLo_le (by norm_num), le_rHi (by norm_num)⟩)
    (by rw [e0, e1]; exact ⟨rLo_le (by norm_num), le_rHi (by norm_num)⟩)
    (by rw [e0, e1]; exact le_rHi (by norm_num))
  have hY7 : Y = 7 := by
    have hm : Maps 8 [((1 : ℚ) : ℝ), ((2 : ℚ) : ℝ), ((2 : ℚ) : ℝ), ((1 : ℚ) : ℝ), ((3 : ℚ) : ℝ)] ((1 / 2 : ℚ) : ℝ) 7 := by
      show some (f8 realOps (some ((1 : ℚ) : ℝ)) (some ((2 : ℚ) : ℝ)) (some ((2 : ℚ) : ℝ)) (some ((1 : ℚ) : ℝ))
        (some ((3 : ℚ) : ℝ)) (some ((1 / 2 : ℚ) : ℝ))) = _
      unfold f8
      rw [r_mul, r_add, e0, r_pow_pos (by norm_num), e1, r_mul, r_add]
      norm_num
    exact hY.unique hm
  rw [e0, e1, hY7] at he
  refine ⟨z, Z, hz, hZ, he.trans ?_⟩
  have h4 : |Real.log 4| ≤ 7 / 5 := by
    have := Real.log_two_lt_d9
    rw [abs_of_nonneg (Real.log_nonneg (by norm_num)), show (4 : ℝ) = 2 ^ 2 by norm_num, Real.log_pow]
    push_cast
    linarith
  have : |Real.log 4| * uu ≤ 7 / 5 * uu := mul_le_mul_of_nonneg_right h4 hu.le
  linarith

/-- `2 * log10 (9 * 1 ^ 2 + 1) + 3` is within 51 half units of 5. -/
example (l : Libm) (hl : AccuratePow l (2 * uu)) (hlog : AccurateLog l (2 * uu)) :
    ∃ z Z, eval (F64.ops l) 7 [F64.ofRat 2, F64.ofRat 2, F64.ofRat 9, F64.ofRat 1, F64.ofRat 3] (F64.ofRat 1) =
      some z ∧ F64.val z = some Z ∧ |(Z : ℝ) - 5| ≤ 51 * uu := by
  have hu := uu_pos
  have hu' := uu_small
  have e1 : ((1 : ℚ) : ℝ) ^ ((2 : ℚ) : ℝ) = 1 := by rw [Rat.cast_one, Real.one_rpow]
  have hb := one_le_big
  have hb2 : (8 : ℝ) ≤ big := by
    unfold big
    exact le_trans (by norm_num : (8 : ℝ) ≤ 2 ^ 3) (pow_le_pow_right₀ (by norm_num) (by norm_num))
  obtain ⟨z, Z, hz, hZ, -, he⟩ := C105_type7 l (2 * uu) (2 * uu) hl hlog (by linarith) (by linarith) (by linarith)
    (by linarith) (F64.ofRat 2) (F64.ofRat 2) (F64.ofRat 9) (F64.ofRat 1) (F64.ofRat 3) (F64.ofRat 1) 2 2 9 1 3 1
    (by decide +kernel) (by decide +kernel) (by decide +kernel) (by decide +kernel) (by decide +kernel)
    (by decide +kernel) (by norm_num) (by norm_num) (by norm_num) (by norm_num)
    (by rw [e1]; exact ⟨rLo_le (by norm_num), le_rHi (by norm_num)⟩)
    (by rw [e1]; exact ⟨rLo_le (by norm_num), le_rHi (by norm_num)⟩)
    (by rw [e1]; exact le_rHi (by norm_num)) (by push_cast; linarith)
    (by push_cast; rw [abs_of_pos (by norm_num)]; linarith)
  refine ⟨z, Z, hz, hZ, ?_⟩
  have e2 : ((9 : ℚ) : ℝ) * ((1 : ℚ) : ℝ) ^ ((2 : ℚ) : ℝ) + ((1 : ℚ) : ℝ) = 10 := by rw [e1]; norm_num
  simp only [e2, Real.logb_self_eq_one (by norm_num : (1 : ℝ) < 10)] at he
  have h3 := rLo_le_one
  norm_num at he
  have : rLo * uu ≤ 1 * uu := mul_le_mul_of_nonneg_right h3 hu.le
  linarith

end Lcms.Props
