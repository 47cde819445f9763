import Verif.Props.CurvesSigmoid
import Verif.Props.CurvesSpecialLog

/-! # Property C106, types 7, 8 and 108 -/

namespace Lcms.Props

open Lcms.Curves Lcms.Spec

/-- **C106**, type 108.  `S` is the inner root, `κ` the error of `1 - S`, `ρ` the error of the value, and `lam` the
error of `S` as recovered from the value. -/
theorem C106_type108 (l : Libm) (ε : ℝ) (hl : AccuratePow l ε) (hε : 0 ≤ ε) (hε' : ε ≤ 1 / 8) (g r : F64) (G R : ℚ)
    (hg : F64.val g = some G) (hr : F64.val r = some R) (hG : 1 / 1000 ≤ G) (hG' : G ≤ 1024) :
    let S := (1 - (R : ℝ)) ^ (1 / (G : ℝ))
    let Y := (1 - S) ^ (1 / (G : ℝ))
    let κ := rootErr uu G ε S * S / (1 - S) + 2 * uu
    let ρ := rootErr κ G ε Y
    let lam := (4 * ρ * G + 2 * ε) * (1 - S) / S + 2 * uu
    InRange (1 - (R : ℝ)) → InRange S → InRange (1 - S) → InRange Y → κ ≤ 1 / 4 → 3 * κ / G ≤ 1 / 5 → ρ ≤ 1 / 2 →
    2 * ρ * G ≤ 1 / 4 → lam ≤ 1 / 4 → 2 * lam * G ≤ 1 / 4 →
    ∃ y z Z, eval (F64.ops l) 108 [g] r = some y ∧ eval (F64.ops l) (-108) [g] y = some z ∧ F64.val z = some Z ∧
      |(Z : ℝ) - R| ≤ (4 * lam * G + 2 * ε) * (1 - R) + 3 * uu := by
  intro S Y κ ρ lam hR hS hD hY hκ hκG hρ hρG hlam hlamG
  have hu := uu_pos
  have hu' := uu_small
  have h0 := rLo_pos
  have hhi := rHi_pos
  have h1 : (1 / 1000 : ℝ) ≤ G := by
    have := (Rat.cast_le (K := ℝ)).mpr hG
    push_cast at this
    exact this
  have hG0 : (0 : ℝ) < G := by linarith
  have hR0 : 0 < 1 - (R : ℝ) := lt_of_lt_of_le h0 hR.1
  have hS0 : 0 < S := lt_of_lt_of_le h0 hS.1
  have hD0 : 0 < 1 - S := lt_of_lt_of_le h0 hD.1
  have hY0 : 0 < Y := lt_of_lt_of_le h0 hY.1
  have hYv : Value 108 [(G : ℝ)] R = Y := by
    show (if Tiny (G : ℝ) then (0 : ℝ) else _) = _
    rw [if_neg (not_tiny_real hG)]
  obtain ⟨y, V, hy, hV, hVe⟩ := C117_type108 l ε hl hε g r G R hg hr hG hG' hR hS hD (by rw [hYv]; exact hY) hκ hκG
  rw [hYv] at hVe
  change |(V : ℝ) - Y| ≤ ρ * Y at hVe
  have hSG : S ^ (G : ℝ) = 1 - R := root_pow hR0.le hG0.ne'
  have hYG : Y ^ (G : ℝ) = 1 - S := root_pow hD0.le hG0.ne'
  -- the inner power
  obtain ⟨Q, hQ, hQe⟩ := pow_near hl hε hV hg hG0 hY0 (by rw [hYG]; exact hD) hρ hρG hVe
  rw [hYG] at hQe
  have hlamd : lam = (4 * ρ * G + 2 * ε) * (1 - S) / S + 2 * uu := rfl
  obtain ⟨X, hX, hXe⟩ := sub_near' hQ val_ofRat1 hQe (D := S) (by rw [Rat.cast_one]; ring) hS (by
    have : (4 * ρ * G + 2 * ε) * (1 - S) / S ≤ 1 / 4 := by linarith
    rw [div_le_iff₀ hS0] at this
    linarith)
  rw [← hlamd] at hXe
  -- the outer power
  obtain ⟨T, hT, hTe⟩ := pow_near (κ := lam) hl hε hX hg hG0 hS0 (by rw [hSG]; exact hR) (by linarith) hlamG hXe
  rw [hSG] at hTe
  have hR1 : (1 : ℝ) - R ≤ 1 := by
    rw [← hSG]
    exact Real.rpow_le_one hS0.le (by linarith) hG0.le
  set W := (1 : ℝ) - R with hW
  have hT1 := abs_le.mp hTe
  have hb : (4 * lam * G + 2 * ε) * W ≤ 1 := by
    have : 4 * lam * G + 2 * ε ≤ 1 := by linarith
    nlinarith
  have hbig := rHi_big
  have h1T : |(1 : ℝ) - T| ≤ 2 := by rw [abs_le]; constructor <;> linarith
  obtain ⟨Z, hZ, hZe⟩ := rd_both ((C104_operations (F64.ofRat 1) _ 1 T val_ofRat1 hT).2.1) (by
    rw [Rat.cast_sub, Rat.cast_one]
    norm_num at hbig
    linarith)
  rw [Rat.cast_sub, Rat.cast_one] at hZe
  refine ⟨y, _, Z, hy, rfl, hZ, ?_⟩
  have h4 : |(Z : ℝ) - R| ≤ |(Z : ℝ) - (1 - T)| + |((1 : ℝ) - T) - R| := abs_sub_le _ _ _
  rw [show ((1 : ℝ) - T) - R = -(T - W) by rw [hW]; ring, abs_neg] at h4
  have h5 : uu * |(1 : ℝ) - T| ≤ uu * 2 := mul_le_mul_of_nonneg_left h1T hu.le
  have h6 : rLo * uu ≤ 1 * uu := mul_le_mul_of_nonneg_right rLo_le_one hu.le
  linarith

/-- **C106**, type 7.  `S` is the number whose logarithm is taken, `β` its relative error as recovered from the value,
`κ` the error of `r ^ g` as recovered. -/
theorem C106_type7 (l : Libm) (ε δ : ℝ) (hl : AccuratePow l ε) (hlog : AccurateLog l δ) (hε : 0 ≤ ε) (hε' : ε ≤ 1 / 8)
    (hδ : 0 ≤ δ) (hδ' : δ ≤ 1 / 8) (g a b c d r : F64) (G A B C D R : ℚ) (hg : F64.val g = some G)
    (ha : F64.val a = some A) (hb : F64.val b = some B) (hc : F64.val c = some C) (hd : F64.val d = some D)
    (hr : F64.val r = some R) (hG : 1 / 1000 ≤ G) (hG' : G ≤ 1024) (hA : 1 / 1000 ≤ A) (hB : 1 / 1000 ≤ B)
    (hC : 0 ≤ C) (hR : 0 < R) (hA' : (A : ℝ) ≤ big) (hD' : |(D : ℝ)| ≤ big) :
    let W := B * (R : ℝ) ^ (G : ℝ)
    let S := W + C
    let T := Real.logb 10 S
    let β := 14 * ε + 60 * uu + (6 * δ + 36 * uu) * (|T| + |(D : ℝ)| / A)
    let κ := β * S / W + 4 * uu
    InRange R → InRange ((R : ℝ) ^ (G : ℝ)) → InRange W → S ≤ rHi → |T| ≤ 300 → κ ≤ 1 / 4 → 3 * κ / G ≤ 1 / 5 →
    ∃ y z Z, eval (F64.ops l) 7 [g, a, b, c, d] r = some y ∧ eval (F64.ops l) (-7) [g, a, b, c, d] y = some z ∧
      F64.val z = some Z ∧ |(Z : ℝ) - R| ≤ rootErr κ G ε R * R := by
  intro W S T β κ hRr hp hW hS hT hκ hκG
  have hu := uu_pos
  have hu' := uu_small
  have h0 := rLo_pos
  have cast : ∀ {x : ℚ}, 1 / 1000 ≤ x → (1 / 1000 : ℝ) ≤ x := by
    intro x hx
    have := (Rat.cast_le (K := ℝ)).mpr hx
    push_cast at this
    exact this
  have h1 := cast hG
  have hA1 := cast hA
  have hB1 := cast hB
  have h2 : (G : ℝ) ≤ 1024 := by exact_mod_cast hG'
  have hG0 : (0 : ℝ) < G := by linarith
  have hA0 : (0 : ℝ) < A := by linarith
  have hB0 : (0 : ℝ) < B := by linarith
  have hC0 : (0 : ℝ) ≤ C := by exact_mod_cast hC
  have hR0 : (0 : ℝ) < R := by exact_mod_cast hR
  have hW0 : 0 < W := lt_of_lt_of_le h0 hW.1
  have hS0 : 0 < S := by show 0 < W + (C : ℝ); linarith
  have hSW : W ≤ S := by show W ≤ W + (C : ℝ); linarith
  obtain ⟨y, Y, hy, hY, -, hYe⟩ := C105_type7 l ε δ hl hlog hε hε' hδ hδ' g a b c d r G A B C D R hg ha hb hc hd hr
    (by linarith) (by linarith) hC hR hp hW hS hA' hD'
  change |(Y : ℝ) - (A * T + D)| ≤ 2 * A * (ε + 4 * uu) + (δ + 3 * uu) * (A * |T| + |(D : ℝ)|) + 2 * rLo * uu at hYe
  -- the exponent
  set τ := |T| with hτ
  have hτ0 : 0 ≤ τ := abs_nonneg _
  set m := |(D : ℝ)| / A with hm
  have hm0 : 0 ≤ m := div_nonneg (abs_nonneg _) hA0.le
  set Δ := 2 * (ε + 4 * uu) + (δ + 3 * uu) * (τ + m) + uu / 100 with hΔ
  have hβd : β = 14 * ε + 60 * uu + (6 * δ + 36 * uu) * (τ + m) := rfl
  have hκd : κ = β * S / W + 4 * uu := rfl
  have k0 : 0 ≤ δ * (τ + m) := mul_nonneg hδ (by linarith)
  have k1 : 0 ≤ uu * (τ + m) := mul_nonneg hu.le (by linarith)
  have k2 : 0 ≤ uu * m := mul_nonneg hu.le hm0
  have k3 : 0 ≤ uu * τ := mul_nonneg hu.le hτ0
  have hβ0 : 0 ≤ β := by linarith
  have hβκ : β ≤ 1 / 4 := by
    have : β ≤ β * S / W := by
      rw [le_div_iff₀ hW0]
      exact mul_le_mul_of_nonneg_left hSW hβ0
    linarith
  have hΔ0 : 0 ≤ Δ := by linarith
  have hΔ1 : Δ ≤ 1 / 16 := by linarith
  have hT1 : |((Y : ℝ) - D) / A - T| ≤ Δ := by
    rw [show ((Y : ℝ) - D) / A - T = (Y - (A * T + D)) / A by field_simp; ring, abs_div, abs_of_pos hA0,
      div_le_iff₀ hA0]
    refine hYe.trans ?_
    have e1 : m * A = |(D : ℝ)| := by rw [hm]; field_simp
    have e2 : Δ * A = 2 * A * (ε + 4 * uu) + (δ + 3 * uu) * (A * τ + m * A) + uu / 100 * A := by rw [hΔ]; ring
    rw [e2, e1]
    have e3 := rLo_small
    have e4 : 2 * rLo * uu ≤ 1 / 100000 * uu := mul_le_mul_of_nonneg_right (by linarith) hu.le
    have e5 : uu / 100 * (1 / 1000) ≤ uu / 100 * A := mul_le_mul_of_nonneg_left hA1 (by linarith)
    linarith
  have hT2 : |((Y : ℝ) - D) / A| ≤ τ + Δ := by
    have := abs_add_le (((Y : ℝ) - D) / A - T) T
    rw [sub_add_cancel] at this
    linarith
  have hbig := one_le_big
  have hYD : |(Y : ℝ) - D| ≤ rHi := by
    have e1 : |(Y : ℝ) - D| = |((Y : ℝ) - D) / A| * A := by
      rw [abs_div, abs_of_pos hA0, div_mul_cancel₀ _ hA0.ne']
    rw [e1]
    have e2 : |((Y : ℝ) - D) / A| * A ≤ 301 * big := mul_le_mul (by linarith) hA' hA0.le (by norm_num)
    refine e2.trans ?_
    unfold big rHi
    rw [show (1022 : ℕ) = 22 + 1000 from rfl, pow_add]
    exact mul_le_mul_of_nonneg_right (by norm_num) (by positivity)
  have hrb := rHi_big
  norm_num at hrb
  obtain ⟨T', hT', hTe⟩ := affine_inv hY hd ha hA1 hYD (by linarith)
  have hTT : |(T' : ℝ) - T| ≤ 3 * uu * (τ + Δ) + uu / 100 + Δ := by
    have e1 : |(T' : ℝ) - T| ≤ |(T' : ℝ) - (Y - D) / A| + |((Y : ℝ) - D) / A - T| := abs_sub_le _ _ _
    have e2 : 3 * uu * |((Y : ℝ) - D) / A| ≤ 3 * uu * (τ + Δ) := mul_le_mul_of_nonneg_left hT2 (by linarith)
    linarith
  -- the power of ten
  have hl10 := log_ten_lt
  have hl10' := two_lt_log_ten
  have h10 : (10 : ℝ) ^ T = S := Real.rpow_logb (by norm_num) (by norm_num) hS0
  have hSr : InRange S := ⟨hW.1.trans hSW, hS⟩
  have kΔ : uu * Δ ≤ uu * (1 / 16) := mul_le_mul_of_nonneg_left hΔ1 hu.le
  have kΔ0 : 0 ≤ uu * Δ := mul_nonneg hu.le hΔ0
  obtain ⟨P, hP, hPe⟩ := pow_tau (tau := (β - 2 * ε) / 2) hl hε val_ofRat10 hT' (by norm_num) hSr (by
    rw [show Real.log S = T * Real.log 10 by
      show _ = Real.logb 10 S * _
      rw [Real.logb, div_mul_cancel₀ _ (by linarith)]]
    push_cast
    rw [← sub_mul, abs_mul, abs_of_pos (by linarith : (0 : ℝ) < Real.log 10)]
    have := mul_le_mul hTT hl10.le (by linarith) (by linarith)
    refine this.trans ?_
    have e1 : (3 * uu * (τ + Δ) + uu / 100 + Δ) * 3 = 9 * (uu * τ) + 9 * (uu * Δ) + 3 / 100 * uu + 3 * Δ := by ring
    rw [hβd, e1]
    linarith) (by linarith)
  rw [show 2 * ((β - 2 * ε) / 2) + 2 * ε = β by ring] at hPe
  obtain ⟨V, hV, hVe⟩ := sub_near hP hc hPe (D := W) (by show W = W + (C : ℝ) - C; ring) hW (by
    have : β * S / W ≤ 1 / 4 := by linarith
    rw [div_le_iff₀ hW0] at this
    linarith)
  have hWB : W / B = (R : ℝ) ^ (G : ℝ) := by
    show B * (R : ℝ) ^ (G : ℝ) / B = _
    field_simp
  have hκ0 : 0 ≤ β * S / W := div_nonneg (mul_nonneg hβ0 hS0.le) hW0.le
  obtain ⟨Q, hQ, hQe⟩ := div_near hV hb (by linarith) hW0 (by linarith) hVe (by rw [hWB]; exact hp)
  obtain ⟨Z, hZ, hZe⟩ := inv_pow_acc (κ := κ) hl hε hQ hg h1 h2 hRr (by linarith) (by linarith) hκG
    (by rw [← hWB]; refine hQe.trans (le_of_eq ?_); rw [hκd]; ring)
  refine ⟨y, _, Z, hy, ?_, hZ, hZe⟩
  show some (g7 (F64.ops l) g a b c d y) = _
  have nt : ∀ {x : F64} {X : ℚ}, F64.val x = some X → 1 / 1000 ≤ X →
      F64.lt x (F64.ofRat tolerance) = false := by
    intro x X hx hX
    by_contra hcon
    have h3 := (F64.lt_val hx (show F64.val (F64.ofRat tolerance) =
      some (F64.ratOf (F64.ofRat tolerance)) by decide +kernel)).mp (by simpa using hcon)
    have h4 : F64.ratOf (F64.ofRat tolerance) < 1 / 1000 := by decide +kernel
    linarith
  unfold g7
  simp only [F64.ops, nt hg hG, nt ha hA, nt hb hB, Bool.or_self, Bool.false_eq_true, if_false]

/-- **C106**, type 8.  `h` is the exponent, `lam` the relative error of the power as recovered from the value. -/
theorem C106_type8 (l : Libm) (ε δ : ℝ) (hl : AccuratePow l ε) (hlog : AccurateLog l δ) (hε : 0 ≤ ε) (hε' : ε ≤ 1 / 8)
    (hδ : 0 ≤ δ) (hδ' : δ ≤ 1 / 8) (a b c d e r : F64)
    (A B C D E R : ℚ) (ha : F64.val a = some A) (hb : F64.val b = some B) (hc : F64.val c = some C)
    (hd : F64.val d = some D) (he : F64.val e = some E) (hr : F64.val r = some R)
    (hA : 1 / 1000 ≤ A) (hB : 0 < B) (hB1 : B ≠ 1) (hC : 1 / 1000 ≤ C) (hD : 0 ≤ D) (hE : 0 ≤ E) (hR : 0 ≤ R) :
    let h := (C : ℝ) * R + D
    let W := (B : ℝ) ^ h
    let lam := (3 * |Real.log W| * uu + 2 * ε + 4 * uu) * (A * W + E) / (A * W)
    InRange h → 2 * rLo ≤ W → W ≤ rHi / 2 → 2 * rLo ≤ A * W → A * W ≤ rHi / 2 → A * W + E ≤ rHi →
    h + 2 * lam / |Real.log B| ≤ big → lam ≤ 1 / 4 →
    ∃ y z Z, eval (F64.ops l) 8 [a, b, c, d, e] r = some y ∧ eval (F64.ops l) (-8) [a, b, c, d, e] y = some z ∧
      F64.val z = some Z ∧
      |(Z : ℝ) - R| ≤
        (8 * (uu / |Real.logb 10 B|) + (3 * δ + 6 * uu) * (h + D) + 3 * lam / |Real.log B|) / C + rLo * uu := by
  intro h W lam hh hW1 hW2 hAW1 hAW2 hsum hbig hlam
  have hu := uu_pos
  have hu' := uu_small
  have h0 := rLo_pos
  have hhi := rHi_pos
  have cast : ∀ {x : ℚ}, 1 / 1000 ≤ x → (1 / 1000 : ℝ) ≤ x := by
    intro x hx
    have := (Rat.cast_le (K := ℝ)).mpr hx
    push_cast at this
    exact this
  have hA1 := cast hA
  have hC1 := cast hC
  have hA0 : (0 : ℝ) < A := by linarith
  have hC0 : (0 : ℝ) < C := by linarith
  have hB' : (0 : ℝ) < B := by exact_mod_cast hB
  have hD0 : (0 : ℝ) ≤ D := by exact_mod_cast hD
  have hE0 : (0 : ℝ) ≤ E := by exact_mod_cast hE
  have hR0 : (0 : ℝ) ≤ R := by exact_mod_cast hR
  have hW0 : 0 < W := by linarith
  have hAW : 0 < A * W := mul_pos hA0 hW0
  have hLne : Real.log (B : ℝ) ≠ 0 := by
    refine Real.log_ne_zero_of_pos_of_ne_one hB' ?_
    exact_mod_cast hB1
  have hL0 : 0 < |Real.log (B : ℝ)| := abs_pos.mpr hLne
  obtain ⟨y, Y, X, hy, hY, hX, hYe, -⟩ := C105_type8 l ε hl hε hε' a b c d e r A B C D E R ha hb hc hd he hr
    (by linarith) hB (by linarith) hD hE hR hh ⟨by show rLo ≤ W; linarith, by show W ≤ _; linarith⟩
    ⟨by show rLo ≤ A * W; linarith, by show A * W ≤ _; linarith⟩ hsum
  have hXv : X = A * W + E := hX.unique (type8 hB' _ _ _ _ _)
  rw [hXv] at hYe
  change |(Y : ℝ) - (A * W + E)| ≤ (3 * |Real.log W| * uu + 2 * ε + 4 * uu) * (A * W + E) at hYe
  have hlam1 : lam * (A * W) = (3 * |Real.log W| * uu + 2 * ε + 4 * uu) * (A * W + E) := by
    show (3 * |Real.log W| * uu + 2 * ε + 4 * uu) * (A * W + E) / (A * W) * (A * W) = _
    rw [div_mul_cancel₀ _ hAW.ne']
  rw [← hlam1] at hYe
  have hlam0 : 0 ≤ lam := by
    by_contra hn
    have := abs_nonneg ((Y : ℝ) - (A * W + E))
    have := mul_neg_of_neg_of_pos (not_le.mp hn) hAW
    linarith
  have hlq : lam * (A * W) ≤ 1 / 4 * (A * W) := mul_le_mul_of_nonneg_right hlam hAW.le
  have h1 := abs_le.mp hYe
  set q := ((Y : ℝ) - E) / A with hq
  have hqA : q * A = Y - E := by rw [hq]; field_simp
  have hqe : |q - W| ≤ lam * W := by
    have e1 : q - W = (Y - (A * W + E)) / A := by rw [hq]; field_simp; ring
    rw [e1, abs_div, abs_of_pos hA0, div_le_iff₀ hA0]
    refine hYe.trans (le_of_eq (by ring))
  have h2 := abs_le.mp hqe
  have hlW : lam * W ≤ 1 / 4 * W := mul_le_mul_of_nonneg_right hlam hW0.le
  obtain ⟨hq0, hqlog⟩ := log_near hW0 (by linarith) hqe
  set η := 2 * lam / |Real.log (B : ℝ)| with hη
  have hη0 : 0 ≤ η := by positivity
  have hH : |Real.logb B q - h| ≤ η := by
    have e1 : h = Real.log W / Real.log B := by
      show h = Real.log ((B : ℝ) ^ h) / _
      rw [Real.log_rpow hB', mul_div_cancel_right₀ _ hLne]
    rw [Real.logb, e1, ← sub_div, abs_div, hη]
    exact div_le_div_of_nonneg_right hqlog hL0.le
  have hh0 : 0 < h := lt_of_lt_of_le h0 hh.1
  have hHa : |Real.logb B q| ≤ h + η := by
    have := abs_add_le (Real.logb B q - h) h
    rw [sub_add_cancel, abs_of_pos hh0] at this
    linarith
  have hDbig : |(D : ℝ)| ≤ big := by
    rw [abs_of_nonneg hD0]
    have : (D : ℝ) ≤ h := by
      show (D : ℝ) ≤ C * R + D
      have := mul_nonneg hC0.le hR0
      linarith
    linarith
  obtain ⟨z, Z, hz, hZ, hZe⟩ := C117_type8_inverse l δ hlog hδ hδ' a b c d e y A B C D E Y ha hb hc hd he hY hA hB hB1
    hC hDbig ⟨by linarith, by linarith⟩ ⟨by show rLo ≤ q; linarith, by show q ≤ rHi; linarith⟩ (by
      show |Real.logb B q| ≤ big
      linarith)
  refine ⟨y, z, Z, hy, hz, hZ, ?_⟩
  have hv : Value (-8) [(A : ℝ), (B : ℝ), (C : ℝ), (D : ℝ), (E : ℝ)] Y = (Real.logb B q - D) / C := by
    show (if (Y : ℝ) < E ∨ Tiny (A : ℝ) ∨ Tiny (C : ℝ) then (0 : ℝ) else _) = _
    rw [if_neg]
    rintro (h | h | h)
    · linarith
    · exact not_tiny_real hA h
    · exact not_tiny_real hC h
  rw [hv] at hZe
  change |(Z : ℝ) - (Real.logb B q - D) / C| ≤
    (8 * (uu / |Real.logb 10 B|) + (3 * δ + 6 * uu) * (|Real.logb B q| + |(D : ℝ)|)) / C + rLo * uu at hZe
  rw [abs_of_nonneg hD0] at hZe
  have e1 : |(Z : ℝ) - R| ≤ |(Z : ℝ) - (Real.logb B q - D) / C| + |(Real.logb B q - D) / C - R| := abs_sub_le _ _ _
  have e2 : |(Real.logb B q - D) / C - R| ≤ η / C := by
    have : (Real.logb B q - D) / C - R = (Real.logb B q - h) / C := by
      show _ = (Real.logb B q - (C * R + D)) / C
      field_simp
      ring
    rw [this, abs_div, abs_of_pos hC0]
    exact div_le_div_of_nonneg_right hH hC0.le
  have e3 : (8 * (uu / |Real.logb 10 B|) + (3 * δ + 6 * uu) * (|Real.logb B q| + D)) / C + η / C ≤
      (8 * (uu / |Real.logb 10 B|) + (3 * δ + 6 * uu) * (h + D) + 3 * lam / |Real.log (B : ℝ)|) / C := by
    rw [← add_div]
    refine div_le_div_of_nonneg_right ?_ hC0.le
    have e4 : (3 * δ + 6 * uu) * (|Real.logb B q| + D) ≤ (3 * δ + 6 * uu) * (h + η + D) :=
      mul_le_mul_of_nonneg_left (by linarith) (by linarith)
    have e5 : (3 * δ + 6 * uu) * η ≤ 1 / 2 * η := mul_le_mul_of_nonneg_right (by linarith) hη0
    have e6 : 3 * lam / |Real.log (B : ℝ)| = 3 / 2 * η := by rw [hη]; ring
    rw [e6]
    linarith
  linarith

/-- Type 108 with gamma 2 at 3/4 and back: within 720 half units. -/
example (l : Libm) (hl : AccuratePow l (2 * uu)) :
    ∃ y z Z, eval (F64.ops l) 108 [F64.ofRat 2] (F64.ofRat (3 / 4)) = some y ∧
      eval (F64.ops l) (-108) [F64.ofRat 2] y = some z ∧ F64.val z = some Z ∧ |(Z : ℝ) - 3 / 4| ≤ 720 * uu := by
  have hu := uu_pos
  have hu' := uu_tiny
  have hl2 := abs_log_half
  have e1 : (1 - ((3 / 4 : ℚ) : ℝ)) ^ (1 / ((2 : ℚ) : ℝ)) = 1 / 2 := by
    push_cast
    rw [show (1 : ℝ) - 3 / 4 = (1 / 2) ^ (2 : ℕ) by norm_num, ← Real.rpow_natCast_mul (by norm_num)]
    norm_num
  have e2 : (1 - 1 / 2 : ℝ) ^ (1 / ((2 : ℚ) : ℝ)) = (1 / 2 : ℝ) ^ (1 / 2 : ℝ) := by norm_num
  have e3 : (1 / 2 : ℝ) ≤ (1 / 2 : ℝ) ^ (1 / 2 : ℝ) := by
    have := Real.rpow_le_rpow_of_exponent_ge (show (0 : ℝ) < 1 / 2 by norm_num) (by norm_num) (show (1 / 2 : ℝ) ≤ 1 by norm_num)
    rwa [Real.rpow_one] at this
  have e4 : (1 / 2 : ℝ) ^ (1 / 2 : ℝ) ≤ 1 := Real.rpow_le_one (by norm_num) (by norm_num) (by norm_num)
  have e5 : |Real.log ((1 / 2 : ℝ) ^ (1 / 2 : ℝ))| ≤ 7 / 20 := by
    rw [Real.log_rpow (by norm_num), abs_mul, abs_of_pos (by norm_num : (0 : ℝ) < 1 / 2)]
    linarith
  have k1 : 2 * uu * |Real.log (1 / 2)| ≤ 2 * uu * (7 / 10) := mul_le_mul_of_nonneg_left hl2 (by linarith)
  have k2 : 2 * uu * |Real.log ((1 / 2 : ℝ) ^ (1 / 2 : ℝ))| ≤ 2 * uu * (7 / 20) :=
    mul_le_mul_of_nonneg_left e5 (by linarith)
  have k3 : 0 ≤ 2 * uu * |Real.log ((1 / 2 : ℝ) ^ (1 / 2 : ℝ))| := by positivity
  have k4 : 0 ≤ 2 * uu * |Real.log (1 / 2)| := by positivity
  have hc : ((2 : ℚ) : ℝ) = 2 := by norm_num
  have hc' : ((3 / 4 : ℚ) : ℝ) = 3 / 4 := by norm_num
  have main := C106_type108 l (2 * uu) hl (by linarith) (by linarith) (F64.ofRat 2) (F64.ofRat (3 / 4)) 2 (3 / 4)
    (by decide +kernel) (by decide +kernel) (by norm_num) (by norm_num)
  simp only [e1, e2] at main
  have e6 : ∀ x : ℝ, x * (1 / 2) / (1 - 1 / 2) = x := fun x => by ring
  have e7 : ∀ x : ℝ, x * (1 - 1 / 2) / (1 / 2) = x := fun x => by ring
  simp only [rootErr, e6, e7, hc, hc'] at main
  obtain ⟨y, z, Z, h1, h2, h3, h4⟩ := main (mid_range (by norm_num) (by norm_num)) (mid_range (by norm_num) (by norm_num))
    (mid_range (by norm_num) (by norm_num)) (mid_range (by linarith) (by linarith)) (by linarith) (by linarith)
    (by linarith) (by linarith) (by linarith) (by linarith)
  exact ⟨y, z, Z, h1, h2, h3, h4.trans (by linarith)⟩

/-- Type 7 with gamma 2, `a`, `b` and `c` 1 and `d` 0 at 3, where the logarithm is that of 10, and back: within 1500
half units. -/
example (l : Libm) (hl : AccuratePow l (2 * uu)) (hlog : AccurateLog l (2 * uu)) :
    ∃ y z Z, eval (F64.ops l) 7 [F64.ofRat 2, F64.ofRat 1, F64.ofRat 1, F64.ofRat 1, F64.ofRat 0] (F64.ofRat 3) = some y ∧
      eval (F64.ops l) (-7) [F64.ofRat 2, F64.ofRat 1, F64.ofRat 1, F64.ofRat 1, F64.ofRat 0] y = some z ∧
      F64.val z = some Z ∧ |(Z : ℝ) - 3| ≤ 1500 * uu := by
  have hu := uu_pos
  have hu' := uu_tiny
  have hb := one_le_big
  have hc : ((2 : ℚ) : ℝ) = ((2 : ℕ) : ℝ) := by norm_num
  have e0 : ((3 : ℚ) : ℝ) ^ ((2 : ℚ) : ℝ) = 9 := by
    rw [hc, Real.rpow_natCast]
    norm_num
  have e1 : (1 : ℝ) * 9 + 1 = 10 := by norm_num
  have e2 : Real.logb 10 10 = 1 := Real.logb_self_eq_one (by norm_num)
  have hl3 : |Real.log 3| ≤ 2 := by
    rw [abs_of_nonneg (Real.log_nonneg (by norm_num))]
    have := Real.log_le_sub_one_of_pos (show (0 : ℝ) < 3 by norm_num)
    linarith
  have k1 : 2 * uu * |Real.log 3| ≤ 2 * uu * 2 := mul_le_mul_of_nonneg_left hl3 (by linarith)
  have k2 : 0 ≤ 2 * uu * |Real.log 3| := by positivity
  have main := C106_type7 l (2 * uu) (2 * uu) hl hlog (by linarith) (by linarith) (by linarith) (by linarith)
    (F64.ofRat 2) (F64.ofRat 1) (F64.ofRat 1) (F64.ofRat 1) (F64.ofRat 0) (F64.ofRat 3) 2 1 1 1 0 3 (by decide +kernel)
    (by decide +kernel) (by decide +kernel) (by decide +kernel) (by decide +kernel) (by decide +kernel) (by norm_num)
    (by norm_num) (by norm_num) (by norm_num) (by norm_num) (by norm_num) (by rw [Rat.cast_one]; exact hb)
    (by rw [Rat.cast_zero, abs_zero]; linarith)
  simp only [e0, Rat.cast_one, e1, e2] at main
  have c3 : ((3 : ℚ) : ℝ) = 3 := by norm_num
  have c2 : ((2 : ℚ) : ℝ) = 2 := by norm_num
  simp only [rootErr, c3, c2, Rat.cast_zero, abs_zero, zero_div, add_zero, abs_one, mul_one] at main
  obtain ⟨y, z, Z, h1, h2, h3, h4⟩ := main (mid_range (by norm_num) (by norm_num))
    (mid_range (by norm_num) (by norm_num)) (mid_range (by norm_num) (by norm_num)) (le_rHi (by norm_num)) (by norm_num)
    (by linarith) (by linarith)
  exact ⟨y, z, Z, h1, h2, h3, h4.trans (by linarith)⟩

/-- Type 8 with `a` and `c` 1, base 2, `d` 1 and `e` 0 at 1, and back: within 130 half units. -/
example (l : Libm) (hl : AccuratePow l (2 * uu)) (hlog : AccurateLog l (2 * uu)) :
    ∃ y z Z, eval (F64.ops l) 8 [F64.ofRat 1, F64.ofRat 2, F64.ofRat 1, F64.ofRat 1, F64.ofRat 0] (F64.ofRat 1) = some y ∧
      eval (F64.ops l) (-8) [F64.ofRat 1, F64.ofRat 2, F64.ofRat 1, F64.ofRat 1, F64.ofRat 0] y = some z ∧
      F64.val z = some Z ∧ |(Z : ℝ) - 1| ≤ 130 * uu := by
  have hu := uu_pos
  have hu' := uu_tiny
  have hl2 := Real.log_two_gt_d9
  have hl2' := Real.log_two_lt_d9
  have e0 : ((1 : ℚ) : ℝ) * ((1 : ℚ) : ℝ) + ((1 : ℚ) : ℝ) = 2 := by norm_num
  have e1 : ((2 : ℚ) : ℝ) ^ (2 : ℝ) = 4 := by
    rw [show (2 : ℝ) = ((2 : ℕ) : ℝ) by norm_num, Real.rpow_natCast]
    norm_num
  have e2 : Real.log 4 = 2 * Real.log 2 := by
    rw [show (4 : ℝ) = 2 ^ 2 by norm_num, Real.log_pow]
    norm_num
  have h4 : 1 / 4 ≤ Real.logb 10 2 := by
    rw [Real.le_logb_iff_rpow_le (by norm_num) (by norm_num)]
    calc (10 : ℝ) ^ (1 / 4 : ℝ) ≤ 16 ^ (1 / 4 : ℝ) := Real.rpow_le_rpow (by norm_num) (by norm_num) (by norm_num)
      _ = 2 := by
        rw [show (16 : ℝ) = 2 ^ (4 : ℕ) by norm_num, ← Real.rpow_natCast_mul (by norm_num)]
        norm_num
  have hb4 : (4 : ℝ) ≤ big := le_trans (by norm_num : (4 : ℝ) ≤ 2 ^ 2) (pow_le_pow_right₀ (by norm_num) (by norm_num))
  have main := C106_type8 l (2 * uu) (2 * uu) hl hlog (by linarith) (by linarith) (by linarith) (by linarith)
    (F64.ofRat 1) (F64.ofRat 2) (F64.ofRat 1) (F64.ofRat 1) (F64.ofRat 0) (F64.ofRat 1) 1 2 1 1 0 1 (by decide +kernel)
    (by decide +kernel) (by decide +kernel) (by decide +kernel) (by decide +kernel) (by decide +kernel) (by norm_num)
    (by norm_num) (by norm_num) (by norm_num) (by norm_num) (by norm_num) (by norm_num)
  simp only [e0, e1] at main
  have c2 : ((2 : ℚ) : ℝ) = 2 := by norm_num
  have e3 : ∀ x : ℝ, x * 4 / 4 = x := fun x => by ring
  simp only [c2, Rat.cast_one, Rat.cast_zero, one_mul, add_zero, e3, div_one] at main
  rw [abs_of_pos (by linarith : (0 : ℝ) < Real.logb 10 2), e2, abs_of_pos (by linarith : (0 : ℝ) < Real.log 2),
    abs_of_pos (by linarith : (0 : ℝ) < 2 * Real.log 2)] at main
  set lam := 3 * (2 * Real.log 2) * uu + 2 * (2 * uu) + 4 * uu with hlam
  have k0 : Real.log 2 * uu ≤ 7 / 10 * uu := mul_le_mul_of_nonneg_right (by linarith) hu.le
  have k1 : lam ≤ 13 * uu := by rw [hlam]; linarith
  have k2 : 3 * lam / Real.log 2 ≤ 58 * uu := by
    rw [div_le_iff₀ (by linarith)]
    nlinarith
  have k3 : 2 * lam / Real.log 2 ≤ 58 * uu := by
    rw [div_le_iff₀ (by linarith)]
    nlinarith
  have k4 : uu / Real.logb 10 2 ≤ 4 * uu := by
    rw [div_le_iff₀ (by linarith)]
    nlinarith
  have k5 : 2 * rLo ≤ 1 := by have := rLo_small; linarith [rLo_pos]
  have k6 : 8 ≤ rHi := le_rHi (by norm_num)
  obtain ⟨y, z, Z, h1, h2, h3, h5⟩ := main (mid_range (by norm_num) (by norm_num)) (by linarith) (by linarith)
    (by linarith) (by linarith) (by linarith) (by linarith) (by linarith)
  refine ⟨y, z, Z, h1, h2, h3, h5.trans ?_⟩
  have k7 : rLo * uu ≤ 1 * uu := mul_le_mul_of_nonneg_right rLo_le_one hu.le
  nlinarith

end Lcms.Props
