import Verif.Props.CurvesSigned
import Verif.Props.CurvesBackSpecial

/-! # Property C118, types 7, 8 and 108 -/

namespace Lcms.Props

open Lcms.Curves Lcms.Spec

/-- **C118**, type 108.  `P` is the inner power and `V` the outer, `e` the error of the inverse curve, `κ₁` and `α` those
of `V` and of its root as recovered, and `κ₂` that of `P` as recovered. -/
theorem C118_type108 (l : Libm) (ε : ℝ) (hl : AccuratePow l ε) (hε : 0 ≤ ε) (hε' : ε ≤ 1 / 8) (g y : F64) (G Y : ℚ)
    (hg : F64.val g = some G) (hy : F64.val y = some Y) (hG : 1 / 1000 ≤ G) (hG' : G ≤ 1024) :
    let P := (Y : ℝ) ^ (G : ℝ)
    let V := (1 - P) ^ (G : ℝ)
    let κ := ε * P / (1 - P) + 2 * uu
    let e := (4 * κ * G + 2 * ε) * V + 3 * uu
    let κ₁ := e / V + 2 * uu
    let α := rootErr κ₁ G ε (1 - P)
    let κ₂ := α * (1 - P) / P + 2 * uu
    InRange Y → InRange P → InRange (1 - P) → InRange V → κ ≤ 1 / 4 → 2 * κ * G ≤ 1 / 4 → κ₁ ≤ 1 / 4 →
    3 * κ₁ / G ≤ 1 / 5 → κ₂ ≤ 1 / 4 → 3 * κ₂ / G ≤ 1 / 5 →
    ∃ z w W, eval (F64.ops l) (-108) [g] y = some z ∧ eval (F64.ops l) 108 [g] z = some w ∧ F64.val w = some W ∧
      |(W : ℝ) - Y| ≤ rootErr κ₂ G ε Y * Y := by
  intro P V κ e κ₁ α κ₂ hY hP hD hV hκ hκG hκ₁ hκ₁G hκ₂ hκ₂G
  have hu := uu_pos
  have h0 := rLo_pos
  have h1 : (1 / 1000 : ℝ) ≤ G := by
    have := (Rat.cast_le (K := ℝ)).mpr hG
    push_cast at this
    exact this
  have h2 : (G : ℝ) ≤ 1024 := by exact_mod_cast hG'
  have hY0 : (0 : ℝ) < Y := lt_of_lt_of_le h0 hY.1
  have hP0 : 0 < P := lt_of_lt_of_le h0 hP.1
  have hV0 : 0 < V := lt_of_lt_of_le h0 hV.1
  obtain ⟨z, Z, hz, hZ, hZe⟩ := C117_type108_inverse l ε hl hε g y G Y hg hy (by linarith) (by exact_mod_cast hY0)
    hP hD hV hκ hκG hε'
  change |(Z : ℝ) - (1 - V)| ≤ e at hZe
  have he0 : 0 ≤ e := (abs_nonneg _).trans hZe
  have hκ₁d : κ₁ = e / V + 2 * uu := rfl
  have hκ₂d : κ₂ = α * (1 - P) / P + 2 * uu := rfl
  have hκ₁0 : 0 ≤ κ₁ := by
    have := div_nonneg he0 hV0.le
    linarith
  obtain ⟨M, hM, hMe⟩ := sub_near' hZ val_ofRat1 hZe (D := V) (by rw [Rat.cast_one]; ring) hV (by
    have : e / V ≤ 1 / 4 := by linarith
    rw [div_le_iff₀ hV0] at this
    linarith)
  rw [← hκ₁d] at hMe
  obtain ⟨Q, hQ, hQe⟩ := inv_pow_acc (κ := κ₁) hl hε hM hg h1 h2 hD hκ₁0 (by linarith) hκ₁G hMe
  change |(Q : ℝ) - (1 - P)| ≤ α * (1 - P) at hQe
  have hα0 : 0 ≤ α * (1 - P) := (abs_nonneg _).trans hQe
  have hκ₂0 : 0 ≤ κ₂ := by
    have := div_nonneg hα0 hP0.le
    linarith
  obtain ⟨N, hN, hNe⟩ := sub_near' hQ val_ofRat1 hQe (D := P) (by rw [Rat.cast_one]; ring) hP (by
    have : α * (1 - P) / P ≤ 1 / 4 := by linarith
    rw [div_le_iff₀ hP0] at this
    linarith)
  rw [← hκ₂d] at hNe
  obtain ⟨W, hW, hWe⟩ := inv_pow_acc (κ := κ₂) hl hε hN hg h1 h2 hY hκ₂0 (by linarith) hκ₂G hNe
  refine ⟨z, _, W, hz, ?_, hW, hWe⟩
  show some (f108 (F64.ops l) g z) = _
  unfold f108
  have : tiny (F64.ops l) g = false := not_tiny64 l hg hG
  rw [this]
  rfl

/-- **C118**, type 8.  `q` is the power to be recovered, `H` its exponent, of either sign, `err` the error of the inverse
curve and `ψ` the error of the exponent as recovered. -/
theorem C118_type8 (l : Libm) (ε δ : ℝ) (hl : AccuratePow l ε) (hlog : AccurateLog l δ) (hε : 0 ≤ ε) (hε' : ε ≤ 1 / 8)
    (hδ : 0 ≤ δ) (hδ' : δ ≤ 1 / 8) (a b c d e y : F64) (A B C D E Y : ℚ) (ha : F64.val a = some A)
    (hb : F64.val b = some B) (hc : F64.val c = some C) (hd : F64.val d = some D) (he : F64.val e = some E)
    (hy : F64.val y = some Y) (hA : 1 / 1000 ≤ A) (hB : 0 < B) (hB1 : B ≠ 1) (hC : 1 / 1000 ≤ C)
    (hD : |(D : ℝ)| ≤ big) :
    let q := ((Y : ℝ) - E) / A
    let H := Real.logb B q
    let err := (8 * (uu / |Real.logb 10 B|) + (3 * δ + 6 * uu) * (|H| + |(D : ℝ)|)) / C + rLo * uu
    let ψ := 2 * (C * err) + 2 * uu * |H - D| + uu * |H| + 3 * (rLo * uu)
    let N := 2 * (ψ * |Real.log B|) + 2 * ε
    InRange ((Y : ℝ) - E) → (Y : ℝ) - E ≤ rHi / 2 → InRange q → |(Y : ℝ)| ≤ rHi / 2 → |H| ≤ big → C * err ≤ rHi / 2 →
    ψ * |Real.log B| ≤ 1 / 4 →
    ∃ z w W, eval (F64.ops l) (-8) [a, b, c, d, e] y = some z ∧ eval (F64.ops l) 8 [a, b, c, d, e] z = some w ∧
      F64.val w = some W ∧ |(W : ℝ) - Y| ≤ 2 * (N + uu) * (Y - E) + uu * |(Y : ℝ)| + 3 * (rLo * uu) := by
  intro q H err ψ N hdisc hdisc' hq hY hHb hCe hψ
  have h0 := rLo_pos
  have cast : ∀ {x : ℚ}, 1 / 1000 ≤ x → (1 / 1000 : ℝ) ≤ x := by
    intro x hx
    have := (Rat.cast_le (K := ℝ)).mpr hx
    push_cast at this
    exact this
  have hA0 : (0 : ℝ) < A := by linarith [cast hA]
  have hC0 : (0 : ℝ) < C := by linarith [cast hC]
  have hB' : (0 : ℝ) < B := by exact_mod_cast hB
  have hq0 : 0 < q := lt_of_lt_of_le h0 hq.1
  have hLne : Real.log (B : ℝ) ≠ 0 := by
    refine Real.log_ne_zero_of_pos_of_ne_one hB' ?_
    exact_mod_cast hB1
  have hHlog : H * Real.log B = Real.log q := by
    show Real.log q / Real.log B * Real.log B = _
    rw [div_mul_cancel₀ _ hLne]
  obtain ⟨z, Z, hz, hZ, hZe⟩ := C117_type8_inverse l δ hlog hδ hδ' a b c d e y A B C D E Y ha hb hc hd he hy hA hB hB1
    hC hD hdisc hq hHb
  have hv : Value (-8) [(A : ℝ), (B : ℝ), (C : ℝ), (D : ℝ), (E : ℝ)] Y = (H - D) / C := by
    show (if (Y : ℝ) < E ∨ Tiny (A : ℝ) ∨ Tiny (C : ℝ) then (0 : ℝ) else _) = _
    rw [if_neg]
    rintro (h | h | h)
    · linarith [hdisc.1]
    · exact not_tiny_real hA h
    · exact not_tiny_real hC h
  rw [hv] at hZe
  change |(Z : ℝ) - (H - D) / C| ≤ err at hZe
  have hCW : (C : ℝ) * ((H - D) / C) = H - D := mul_div_cancel₀ _ hC0.ne'
  have hCW' : |(C : ℝ)| * |(H - D) / C| = |H - D| := by rw [← abs_mul, hCW]
  have hHD := abs_sub H (D : ℝ)
  have hbig := range_sum (x := big + big) (by linarith [one_le_big])
  obtain ⟨T, hT, hTe⟩ := line_near hc hZ hd hZe
    (by rw [mul_add, hCW', abs_of_pos hC0]; linarith [rHi_pos])
    (by rw [hCW, sub_add_cancel]; linarith [rHi_pos, one_le_big])
  rw [hCW, hCW', sub_add_cancel, abs_of_pos hC0] at hTe
  change |(T : ℝ) - H| ≤ ψ at hTe
  obtain ⟨P, hP, hPe⟩ := pow_tau (tau := ψ * |Real.log B|) hl hε hb hT hB' hq (by
    rw [← hHlog, ← sub_mul, abs_mul]
    exact mul_le_mul_of_nonneg_right hTe (abs_nonneg _)) hψ
  change |(P : ℝ) - q| ≤ N * q at hPe
  have hprod : (A : ℝ) * q = Y - E := by
    show (A : ℝ) * ((Y - E) / A) = _
    rw [mul_div_cancel₀ _ hA0.ne']
  have hN1 : N ≤ 1 := by
    show 2 * (ψ * |Real.log B|) + 2 * ε ≤ 1
    linarith
  have hNq : N * q ≤ 1 * q := mul_le_mul_of_nonneg_right hN1 hq0.le
  obtain ⟨W, hW, hWe⟩ := line_near ha hP he hPe (by
    rw [abs_of_pos hq0, abs_of_pos hA0]
    have := mul_le_mul_of_nonneg_left (show q + N * q ≤ 2 * q by linarith) hA0.le
    linarith) (by rw [hprod, sub_add_cancel]; exact hY)
  rw [abs_of_pos hq0, abs_of_pos hA0, hprod, sub_add_cancel] at hWe
  refine ⟨z, _, W, hz, rfl, hW, hWe.trans (le_of_eq ?_)⟩
  rw [← hprod]
  ring

/-- **C118**, type 7.  `T` is the logarithm to be recovered, `X` the value of the inverse curve and `ρ` its error, and
`η` the error of the number whose logarithm is taken. -/
theorem C118_type7 (l : Libm) (ε δ : ℝ) (hl : AccuratePow l ε) (hlog : AccurateLog l δ) (hε : 0 ≤ ε)
    (hδ : 0 ≤ δ) (hδ' : δ ≤ 1 / 8) (g a b c d y : F64) (G A B C D Y : ℚ) (hg : F64.val g = some G)
    (ha : F64.val a = some A) (hb : F64.val b = some B) (hc : F64.val c = some C) (hd : F64.val d = some D)
    (hy : F64.val y = some Y) (hG : 1 / 1000 ≤ G) (hG' : G ≤ 1024) (hA : 1 / 1000 ≤ A) (hB : 1 / 1000 ≤ B)
    (hC : 0 ≤ C) (hA' : (A : ℝ) ≤ big) (hD' : |(D : ℝ)| ≤ big) (hYD : |(Y : ℝ) - D| ≤ rHi) :
    let T := ((Y : ℝ) - D) / A
    let β := 18 * uu * |T| + 2 * ε + uu
    let U := (10 : ℝ) ^ T - C
    let κ := β * (10 : ℝ) ^ T / U + 4 * uu
    let X := (U / B) ^ (1 / (G : ℝ))
    let ρ := rootErr κ G ε X
    let η := 4 * ρ * G + 2 * ε + 4 * uu
    |T| ≤ 300 → InRange U → InRange (U / B) → InRange X → κ ≤ 1 / 4 → 3 * κ / G ≤ 1 / 5 → ρ ≤ 1 / 2 → η ≤ 1 / 4 →
    ∃ z w W, eval (F64.ops l) (-7) [g, a, b, c, d] y = some z ∧ eval (F64.ops l) 7 [g, a, b, c, d] z = some w ∧
      F64.val w = some W ∧
      |(W : ℝ) - Y| ≤ 2 * A * η + (δ + 3 * uu) * (A * |T| + |(D : ℝ)|) + 2 * rLo * uu := by
  intro T β U κ X ρ η hT hU hUB hX hκ hκG hρ hη
  have hu := uu_pos
  have hu' := uu_small
  have h0 := rLo_pos
  have cast : ∀ {x : ℚ}, 1 / 1000 ≤ x → (1 / 1000 : ℝ) ≤ x := by
    intro x hx
    have := (Rat.cast_le (K := ℝ)).mpr hx
    push_cast at this
    exact this
  have h1 := cast hG
  have hA1 := cast hA
  have hB1 := cast hB
  have hG0 : (0 : ℝ) < G := by linarith
  have hA0 : (0 : ℝ) < A := by linarith
  have hB0 : (0 : ℝ) < B := by linarith
  have hU0 : 0 < U := lt_of_lt_of_le h0 hU.1
  have hX0 : 0 < X := lt_of_lt_of_le h0 hX.1
  have hv : Value (-7) [(G : ℝ), (A : ℝ), (B : ℝ), (C : ℝ), (D : ℝ)] Y = X := by
    show (if (G : ℝ) < 1 / 10000 ∨ (A : ℝ) < 1 / 10000 ∨ (B : ℝ) < 1 / 10000 then (0 : ℝ) else _) = _
    rw [if_neg]
    rintro (h | h | h) <;> linarith
  have main := C117_type7_inverse l ε hl hε g a b c d y G A B C D Y hg ha hb hc hd hy hG hG' hA hB hYD
  simp only [hv] at main
  obtain ⟨z, Z, hz, hZ, hZe⟩ := main hT hU hUB hX hκ hκG
  change |(Z : ℝ) - X| ≤ ρ * X at hZe
  have hρ0 : 0 ≤ ρ := by
    by_contra hn
    have := mul_neg_of_neg_of_pos (not_le.mp hn) hX0
    linarith [abs_nonneg ((Z : ℝ) - X)]
  have hρG : 0 ≤ ρ * G := mul_nonneg hρ0 hG0.le
  have hηd : η = 4 * ρ * G + 2 * ε + 4 * uu := rfl
  have hXG : X ^ (G : ℝ) = U / B := root_pow (div_pos hU0 hB0).le hG0.ne'
  have hprod : (B : ℝ) * (U / B) = U := mul_div_cancel₀ _ hB0.ne'
  have hS : U + C = (10 : ℝ) ^ T := by show (10 : ℝ) ^ T - C + C = _; ring
  have hSr := ten_range hT
  have hS0 : 0 < (10 : ℝ) ^ T := lt_of_lt_of_le h0 hSr.1
  obtain ⟨P, hP, hPe⟩ := pow_near hl hε hZ hg hG0 hX0 (by rw [hXG]; exact hUB) hρ (by linarith) hZe
  rw [hXG] at hPe
  obtain ⟨M, hM, hMe⟩ := mul_acc hb hP (by linarith) (div_pos hU0 hB0) hPe (by linarith) (by rw [hprod]; exact hU)
  rw [hprod] at hMe
  obtain ⟨E, hE, hEe⟩ := add_acc hM hc hMe (by linarith) (by linarith) hU.1 hC (by rw [hS]; exact hSr.2)
  rw [hS, show 4 * ρ * G + 2 * ε + 2 * uu + 2 * uu = η by rw [hηd]; ring] at hEe
  have hη0 : 0 ≤ η := by linarith
  have hE0 : (0 : ℝ) < E := by
    have := abs_le.mp hEe
    nlinarith
  have hE0' : 0 < E := by exact_mod_cast hE0
  have hlogb := logb_acc hS0 hEe (by linarith)
  rw [Real.logb_rpow (by norm_num) (by norm_num)] at hlogb
  obtain ⟨L, hL, hLe⟩ := hlog _ E hE hE0'
  have hΛ' : |Real.logb 10 E| ≤ |T| + η := by
    have := abs_sub_abs_le_abs_sub (Real.logb 10 E) T
    linarith
  have hLT : |(L : ℝ) - T| ≤ 9 / 8 * η + δ * |T| := by
    have h1 : |(L : ℝ) - T| ≤ |(L : ℝ) - Real.logb 10 E| + |Real.logb 10 E - T| := abs_sub_le _ _ _
    have h2 : δ * |Real.logb 10 E| ≤ δ * (|T| + η) := mul_le_mul_of_nonneg_left hΛ' hδ
    nlinarith
  obtain ⟨W, hW, hWe⟩ := affine_abs ha hL hd hA0.le hA' hD' (by linarith) hη0 hη hδ hδ' hLT
  have hY : (A : ℝ) * T + D = Y := by
    show (A : ℝ) * ((Y - D) / A) + D = _
    rw [mul_div_cancel₀ _ hA0.ne']
    ring
  rw [hY] at hWe
  refine ⟨z, _, W, hz, ?_, hW, hWe⟩
  show some (f7 (F64.ops l) g a b c d z) = _
  unfold f7
  have : F64.le (F64.add (F64.mul b (l.powf z g)) c) (F64.ofRat 0) = false := by
    by_contra hcon
    have := (F64.le_val hE val_ofRat0).mp (by simpa using hcon)
    exact absurd hE0' (not_lt.mpr this)
  simp only [F64.ops, this, Bool.false_eq_true, if_false]

/-! ### Instances -/

/-- Type 108 with gamma 2: the inverse at 1/2 and then the curve, within 480 half units. -/
example (l : Libm) (hl : AccuratePow l (2 * uu)) :
    ∃ z w W, eval (F64.ops l) (-108) [F64.ofRat 2] (F64.ofRat (1 / 2)) = some z ∧
      eval (F64.ops l) 108 [F64.ofRat 2] z = some w ∧ F64.val w = some W ∧ |(W : ℝ) - 1 / 2| ≤ 480 * uu := by
  have hu := uu_pos
  have hu' := uu_le_tiny
  have hl2 := abs_log_half
  have hl3 : |Real.log (3 / 4)| ≤ 1 / 3 := by
    rw [show (3 / 4 : ℝ) = (4 / 3)⁻¹ by norm_num, Real.log_inv, abs_neg,
      abs_of_nonneg (Real.log_nonneg (by norm_num))]
    have := Real.log_le_sub_one_of_pos (show (0 : ℝ) < 4 / 3 by norm_num)
    linarith
  have hc : ((2 : ℚ) : ℝ) = ((2 : ℕ) : ℝ) := by norm_num
  have e1 : ((1 / 2 : ℚ) : ℝ) ^ ((2 : ℚ) : ℝ) = 1 / 4 := by
    rw [hc, Real.rpow_natCast]
    norm_num
  have e2 : (1 - 1 / 4 : ℝ) ^ ((2 : ℚ) : ℝ) = 9 / 16 := by
    rw [hc, Real.rpow_natCast]
    norm_num
  have e3 : (1 - 1 / 4 : ℝ) = 3 / 4 := by norm_num
  have k1 : 2 * uu * |Real.log (1 / 2)| ≤ 2 * uu * (7 / 10) := mul_le_mul_of_nonneg_left hl2 (by linarith)
  have k2 : 2 * uu * |Real.log (3 / 4)| ≤ 2 * uu * (1 / 3) := mul_le_mul_of_nonneg_left hl3 (by linarith)
  have k3 : 0 ≤ 2 * uu * |Real.log (1 / 2)| := by positivity
  have k4 : 0 ≤ 2 * uu * |Real.log (3 / 4)| := by positivity
  have main := C118_type108 l (2 * uu) hl (by linarith) (by linarith) (F64.ofRat 2) (F64.ofRat (1 / 2)) 2 (1 / 2)
    (by decide +kernel) (by decide +kernel) (by norm_num) (by norm_num)
  have c2 : ((2 : ℚ) : ℝ) = 2 := by norm_num
  have c3 : ((1 / 2 : ℚ) : ℝ) = 1 / 2 := by norm_num
  simp only [e1, e2] at main
  simp only [e3, rootErr, c2, c3] at main
  obtain ⟨z, w, W, h1, h2, h3, h4⟩ := main (mid_range (by norm_num) (by norm_num)) (mid_range (by norm_num) (by norm_num))
    (mid_range (by norm_num) (by norm_num)) (mid_range (by norm_num) (by norm_num)) (by linarith) (by linarith)
    (by linarith) (by linarith) (by linarith) (by linarith)
  exact ⟨z, w, W, h1, h2, h3, h4.trans (by linarith)⟩

/-- Type 7 with gamma 2, `a`, `b` and `c` 1 and `d` 0: the inverse at 1, where the power is 9, and then the curve, within
1610 half units. -/
example (l : Libm) (hl : AccuratePow l (2 * uu)) (hlog : AccurateLog l (2 * uu)) :
    ∃ z w W, eval (F64.ops l) (-7) [F64.ofRat 2, F64.ofRat 1, F64.ofRat 1, F64.ofRat 1, F64.ofRat 0] (F64.ofRat 1) = some z ∧
      eval (F64.ops l) 7 [F64.ofRat 2, F64.ofRat 1, F64.ofRat 1, F64.ofRat 1, F64.ofRat 0] z = some w ∧
      F64.val w = some W ∧ |(W : ℝ) - 1| ≤ 1610 * uu := by
  have hu := uu_pos
  have hu' := uu_le_tiny
  have hb := one_le_big
  have hlo : rLo * uu ≤ 1 * uu := mul_le_mul_of_nonneg_right rLo_le_one hu.le
  have hl3 : |Real.log 3| ≤ 2 := by
    rw [abs_of_nonneg (Real.log_nonneg (by norm_num))]
    have := Real.log_le_sub_one_of_pos (show (0 : ℝ) < 3 by norm_num)
    linarith
  have k1 : 2 * uu * |Real.log 3| ≤ 2 * uu * 2 := mul_le_mul_of_nonneg_left hl3 (by linarith)
  have k2 : 0 ≤ 2 * uu * |Real.log 3| := by positivity
  have e1 : (9 : ℝ) ^ (1 / ((2 : ℚ) : ℝ)) = 3 := by
    push_cast
    rw [show (9 : ℝ) = 3 ^ (2 : ℕ) by norm_num, ← Real.rpow_natCast_mul (by norm_num)]
    norm_num
  have hr1 : (1 : ℝ) ≤ rHi := le_rHi (by norm_num)
  have main := C118_type7 l (2 * uu) (2 * uu) hl hlog (by linarith) (by linarith) (by linarith)
    (F64.ofRat 2) (F64.ofRat 1) (F64.ofRat 1) (F64.ofRat 1) (F64.ofRat 0) (F64.ofRat 1) 2 1 1 1 0 1 (by decide +kernel)
    (by decide +kernel) (by decide +kernel) (by decide +kernel) (by decide +kernel) (by decide +kernel) (by norm_num)
    (by norm_num) (by norm_num) (by norm_num) (by norm_num) (by rw [Rat.cast_one]; exact hb)
    (by rw [Rat.cast_zero, abs_zero]; linarith) (by rw [Rat.cast_zero, Rat.cast_one, sub_zero, abs_one]; exact hr1)
  have e2 : (10 : ℝ) - 1 = 9 := by norm_num
  have c2 : ((2 : ℚ) : ℝ) = 2 := by norm_num
  simp only [Rat.cast_one, Rat.cast_zero, sub_zero, div_one, Real.rpow_one, e2, e1] at main
  simp only [rootErr, abs_one, abs_zero,
    mul_one, add_zero, c2] at main
  obtain ⟨z, w, W, h1, h2, h3, h4⟩ := main (by norm_num) (mid_range (by norm_num) (by norm_num))
    (mid_range (by norm_num) (by norm_num)) (mid_range (by norm_num) (by norm_num)) (by linarith) (by linarith)
    (by linarith) (by linarith)
  exact ⟨z, w, W, h1, h2, h3, h4.trans (by linarith)⟩

/-- Type 8, `2^(x + 1) - 1`: the inverse at -3/4, where the exponent is -2, and then the curve, within 110 half units. -/
example (l : Libm) (hl : AccuratePow l (2 * uu)) (hlog : AccurateLog l (2 * uu)) :
    ∃ z w W, eval (F64.ops l) (-8) [F64.ofRat 1, F64.ofRat 2, F64.ofRat 1, F64.ofRat 1, F64.ofRat (-1)] (F64.ofRat (-3 / 4))
        = some z ∧
      eval (F64.ops l) 8 [F64.ofRat 1, F64.ofRat 2, F64.ofRat 1, F64.ofRat 1, F64.ofRat (-1)] z = some w ∧
      F64.val w = some W ∧ |(W : ℝ) - ((-3 / 4 : ℚ) : ℝ)| ≤ 110 * uu := by
  have hu := uu_pos
  have hu' := uu_le_tiny
  have hlo : rLo * uu ≤ 1 / 2 ^ 20 * uu := mul_le_mul_of_nonneg_right (rLo_le (le_refl _)) hu.le
  have hlo0 : 0 < rLo * uu := mul_pos rLo_pos hu
  have hl2 := Real.log_two_gt_d9
  have hl2' := Real.log_two_lt_d9
  have e1 : Real.logb 2 (1 / 4) = -2 := by
    rw [Real.logb, show (1 / 4 : ℝ) = (2 ^ 2)⁻¹ by norm_num, Real.log_inv, Real.log_pow, neg_div,
      mul_div_cancel_right₀ _ (by linarith)]
    norm_num
  have h4 : 1 / 4 ≤ Real.logb 10 2 := by
    rw [Real.le_logb_iff_rpow_le (by norm_num) (by norm_num)]
    calc (10 : ℝ) ^ (1 / 4 : ℝ) ≤ 16 ^ (1 / 4 : ℝ) := Real.rpow_le_rpow (by norm_num) (by norm_num) (by norm_num)
      _ = 2 := by
        rw [show (16 : ℝ) = 2 ^ (4 : ℕ) by norm_num, ← Real.rpow_natCast_mul (by norm_num)]
        norm_num
  have hb4 : (2 : ℝ) ≤ big := le_trans (by norm_num : (2 : ℝ) ≤ 2 ^ 2) (pow_le_pow_right₀ (by norm_num) (by norm_num))
  have main := C118_type8 l (2 * uu) (2 * uu) hl hlog (by linarith) (by linarith) (by linarith) (by linarith)
    (F64.ofRat 1) (F64.ofRat 2) (F64.ofRat 1) (F64.ofRat 1) (F64.ofRat (-1)) (F64.ofRat (-3 / 4)) 1 2 1 1 (-1) (-3 / 4)
    val_one1 val_two' val_one1 val_one1 val_neg1 (by decide +kernel) (by norm_num)
    (by norm_num) (by norm_num) (by norm_num) (by rw [Rat.cast_one, abs_one]; linarith)
  have c1 : ((-1 : ℚ) : ℝ) = -1 := by norm_num
  have c2 : ((2 : ℚ) : ℝ) = 2 := by norm_num
  have c3 : ((-3 / 4 : ℚ) : ℝ) = -3 / 4 := by norm_num
  have e2 : (-3 / 4 : ℝ) - -1 = 1 / 4 := by norm_num
  have e3 : |(-2 : ℝ)| = 2 := by rw [abs_neg, abs_of_pos (by norm_num)]
  have e4 : |(-2 : ℝ) - 1| = 3 := by rw [abs_of_neg (by norm_num)]; norm_num
  have e5 : |(-3 / 4 : ℝ)| = 3 / 4 := by rw [abs_of_neg (by norm_num)]; norm_num
  simp only [c1, c2, c3, e2, Rat.cast_one, div_one, e1, e3, e4, e5, abs_one, one_mul] at main
  rw [abs_of_pos (by linarith : (0 : ℝ) < Real.logb 10 2), abs_of_pos (by linarith : (0 : ℝ) < Real.log 2)] at main
  have k1 : uu / Real.logb 10 2 ≤ 4 * uu := by
    rw [div_le_iff₀ (by linarith)]
    nlinarith
  have k0 : 0 ≤ uu / Real.logb 10 2 := div_nonneg hu.le (by linarith)
  set err := 8 * (uu / Real.logb 10 2) + (3 * (2 * uu) + 6 * uu) * (2 + 1) + rLo * uu with herr
  have k5 : err ≤ 69 * uu := by rw [herr]; linarith
  have k6 : 0 ≤ err := by rw [herr]; linarith
  set ψ := 2 * err + 2 * uu * 3 + uu * 2 + 3 * (rLo * uu) with hψ
  have k2 : ψ ≤ 147 * uu := by rw [hψ]; linarith
  have k3 : 0 ≤ ψ := by rw [hψ]; linarith
  have k4 : ψ * Real.log 2 ≤ 147 * uu * (7 / 10) := mul_le_mul k2 (by linarith) (by linarith) (by linarith)
  obtain ⟨z, w, W, h1, h2, h3, h5⟩ := main (mid_range (by norm_num) (by norm_num)) (le_half_rHi (by norm_num))
    (mid_range (by norm_num) (by norm_num)) (le_half_rHi (by norm_num)) hb4 (le_half_rHi (by linarith)) (by linarith)
  rw [c3]
  exact ⟨z, w, W, h1, h2, h3, h5.trans (by linarith)⟩

end Lcms.Props
