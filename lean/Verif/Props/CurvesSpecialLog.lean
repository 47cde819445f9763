import Verif.Props.CurvesSpecial

/-! # Property C117 continued: type -8 -/

namespace Lcms.Props

open Lcms.Curves Lcms.Spec

theorem big_rLo : big * rLo = 1 / 2 ^ 21 := by
  unfold big rLo
  rw [show (1021 : ℕ) = 1000 + 21 from rfl, pow_add, mul_one_div, div_mul_cancel_left₀ (by positivity), one_div]

/-- The rounding error of a difference and a quotient, in terms of the error of the first number. -/
theorem affine_tail {v d c : F64} {V D C : ℚ} {H x δ : ℝ} (hv : F64.val v = some V) (hd : F64.val d = some D)
    (hc : F64.val c = some C) (hC : 1 / 1000 ≤ (C : ℝ)) (hH : |H| ≤ big) (hD : |(D : ℝ)| ≤ big) (hx : x ≤ big / 10)
    (hη : 100 * (rLo * uu) ≤ x) (hδ : 0 ≤ δ) (hδ' : δ ≤ 1 / 8) (h : |(V : ℝ) - H| ≤ 6 * x + (3 * δ + 2 * uu) * |H|) :
    ∃ Z : ℚ, F64.val (F64.div (F64.sub v d) c) = some Z ∧
      |(Z : ℝ) - (H - D) / C| ≤ (8 * x + (3 * δ + 6 * uu) * (|H| + |(D : ℝ)|)) / C + rLo * uu := by
  have hu := uu_pos
  have hu' := uu_small
  have h0 := rLo_pos
  have hC0 : (0 : ℝ) < C := by linarith
  have hC0' : C ≠ 0 := by
    rintro rfl
    norm_num at hC0
  have hη0 : 0 ≤ rLo * uu := mul_nonneg h0.le hu.le
  generalize hηd : rLo * uu = η at *
  have hbig := one_le_big
  set a := |H| with had
  set b := |(D : ℝ)| with hbd
  have ha0 : 0 ≤ a := abs_nonneg _
  have hb0 : 0 ≤ b := abs_nonneg _
  have hx0 : 0 ≤ x := by linarith
  have hV1 : |(V : ℝ)| ≤ |(V : ℝ) - H| + a := by
    have := abs_add_le ((V : ℝ) - H) H
    rwa [sub_add_cancel] at this
  have hVD : |(V : ℝ) - D| ≤ |(V : ℝ)| + b := abs_sub _ _
  have k1 : δ * a ≤ 1 / 8 * a := mul_le_mul_of_nonneg_right hδ' ha0
  have k2 : uu * a ≤ 1 / 1000000 * a := mul_le_mul_of_nonneg_right hu' ha0
  have top : ∀ {y : ℝ}, y ≤ 8 * big → y ≤ 2 * rHi := by
    intro y hy
    have := range_sum (x := y) (by linarith)
    have := rHi_pos
    linarith
  obtain ⟨S, hS, hSe⟩ := rd_both ((C104_operations v d V D hv hd).2.1) (top (by rw [Rat.cast_sub]; linarith))
  rw [Rat.cast_sub, hηd] at hSe
  set f := 13 / 2 * x + (3 * δ + 4 * uu) * (a + b) with hf
  have m1 : uu * |(V : ℝ) - D| ≤ uu * (6 * x + (3 * δ + 2 * uu) * a + a + b) :=
    mul_le_mul_of_nonneg_left (by linarith) hu.le
  have m2 : uu * x ≤ 1 / 1000000 * x := mul_le_mul_of_nonneg_right hu' hx0
  have m3 : uu * (δ * a) ≤ uu * (1 / 8 * a) := mul_le_mul_of_nonneg_left k1 hu.le
  have m4 : uu * (uu * a) ≤ uu * (1 / 1000000 * a) := mul_le_mul_of_nonneg_left k2 hu.le
  have m5 : 0 ≤ uu * a := mul_nonneg hu.le ha0
  have m6 : 0 ≤ uu * b := mul_nonneg hu.le hb0
  have m7 : 0 ≤ δ * b := mul_nonneg hδ hb0
  have m8 : 0 ≤ δ * a := mul_nonneg hδ ha0
  have hS2 : |(S : ℝ) - (H - D)| ≤ f := by
    have h4 : |(S : ℝ) - (H - D)| ≤ |(S : ℝ) - (V - D)| + |((V : ℝ) - D) - (H - D)| := abs_sub_le _ _ _
    rw [show ((V : ℝ) - D) - (H - D) = V - H by ring] at h4
    rw [hf]
    linarith
  have hab : |H - D| ≤ a + b := abs_sub _ _
  have hf0 : 0 ≤ f := le_trans (abs_nonneg _) hS2
  have k3 : δ * b ≤ 1 / 8 * b := mul_le_mul_of_nonneg_right hδ' hb0
  have k4 : uu * b ≤ 1 / 1000000 * b := mul_le_mul_of_nonneg_right hu' hb0
  have hf1 : f ≤ 13 / 2 * x + (a + b) / 2 := by rw [hf]; linarith
  have hS3 : |(S : ℝ)| ≤ f + (a + b) := by
    have := abs_add_le ((S : ℝ) - (H - D)) (H - D)
    rw [sub_add_cancel] at this
    linarith
  have inv : ∀ {y z : ℝ}, y ≤ z → y / C ≤ z / C := fun h => div_le_div_of_nonneg_right h hC0.le
  have hSC : |(S : ℝ) / C| ≤ (f + (a + b)) / C := by
    rw [abs_div, abs_of_pos hC0]
    exact inv hS3
  have hbound : (f + (a + b)) / C ≤ 2000 * (2 * big) := by
    rw [div_le_iff₀ hC0]
    have : f + (a + b) ≤ 4 * big := by linarith
    nlinarith
  obtain ⟨Z, hZ, hZe⟩ := rd_both ((C104_operations _ c S C hS hc).2.2.2 hC0') (by
    rw [Rat.cast_div]
    have := range_sum (x := |(S : ℝ) / C| / 2) (by linarith)
    have := rHi_pos
    linarith)
  rw [Rat.cast_div, hηd] at hZe
  refine ⟨Z, hZ, ?_⟩
  have h4 : |(Z : ℝ) - (H - D) / C| ≤ |(Z : ℝ) - S / C| + |(S : ℝ) / C - (H - D) / C| := abs_sub_le _ _ _
  have h5 : |(S : ℝ) / C - (H - D) / C| ≤ f / C := by
    rw [← sub_div, abs_div, abs_of_pos hC0]
    exact inv hS2
  have h6 : uu * |(S : ℝ) / C| ≤ uu * ((f + (a + b)) / C) := mul_le_mul_of_nonneg_left hSC hu.le
  have h7 : f / C + uu * ((f + (a + b)) / C) = (f + uu * (f + (a + b))) / C := by ring
  have h8 : f + uu * (f + (a + b)) ≤ 8 * x + (3 * δ + 6 * uu) * (a + b) := by
    have m9 : uu * f ≤ uu * (13 / 2 * x + (a + b) / 2) := mul_le_mul_of_nonneg_left hf1 hu.le
    rw [hf] at *
    linarith
  have h9 := inv h8
  linarith

/-- **C117**, type -8: an absolute bound, in terms of the logarithm of the base, of `H`, the logarithm to that base, and
of `d` and `c`. -/
theorem C117_type8_inverse (l : Libm) (δ : ℝ) (hlog : AccurateLog l δ) (hδ : 0 ≤ δ) (hδ' : δ ≤ 1 / 8)
    (a b c d e r : F64) (A B C D E R : ℚ) (ha : F64.val a = some A) (hb : F64.val b = some B)
    (hc : F64.val c = some C) (hd : F64.val d = some D) (he : F64.val e = some E) (hr : F64.val r = some R)
    (hA : 1 / 1000 ≤ A) (hB : 0 < B) (hB1 : B ≠ 1) (hC : 1 / 1000 ≤ C) (hD : |(D : ℝ)| ≤ big)
    (hdisc : InRange ((R : ℝ) - E)) (hquot : InRange (((R : ℝ) - E) / A)) :
    let H := Real.logb B (((R : ℝ) - E) / A)
    |H| ≤ big →
    ∃ z Z, eval (F64.ops l) (-8) [a, b, c, d, e] r = some z ∧ F64.val z = some Z ∧
      |(Z : ℝ) - Value (-8) [(A : ℝ), (B : ℝ), (C : ℝ), (D : ℝ), (E : ℝ)] R| ≤
        (8 * (uu / |Real.logb 10 B|) + (3 * δ + 6 * uu) * (|H| + |(D : ℝ)|)) / C + rLo * uu := by
  intro H hH
  have hu := uu_pos
  have hu' := uu_small
  have h0 := rLo_pos
  have cast : ∀ {x : ℚ}, 1 / 1000 ≤ x → (1 / 1000 : ℝ) ≤ x := by
    intro x hx
    have := (Rat.cast_le (K := ℝ)).mpr hx
    push_cast at this
    exact this
  have hA1 := cast hA
  have hC1 := cast hC
  have hB' : (0 : ℝ) < B := by exact_mod_cast hB
  have hd0 : 0 < (R : ℝ) - E := lt_of_lt_of_le h0 hdisc.1
  have hbig := one_le_big
  -- the base's logarithm
  set L := Real.logb 10 B with hL
  have hLgap : rLo ≤ |L| := log_gap hb hB hB1
  have hLle : |L| ≤ 1074 := logb_le hb hB
  have hL0 : 0 < |L| := lt_of_lt_of_le h0 hLgap
  have hLne : L ≠ 0 := abs_pos.mp hL0
  obtain ⟨L', hL', hLe⟩ := hlog b B hb hB
  change |(L' : ℝ) - L| ≤ δ * |L| at hLe
  -- the argument's logarithm
  obtain ⟨V, hV, hVe⟩ := sub_acc hr he hdisc
  obtain ⟨Q, hQ, hQe⟩ := div_near hV ha (by linarith) hd0 (by linarith) hVe hquot
  set q := ((R : ℝ) - E) / A with hq
  have hq0 : 0 < q := lt_of_lt_of_le h0 hquot.1
  obtain ⟨hQ0, -⟩ := log_near hq0 (κ := uu + 2 * uu) (by linarith) hQe
  have hN1 := logb_acc (η := uu + 2 * uu) hq0 hQe (by linarith)
  obtain ⟨N', hN', hNe⟩ := hlog _ Q hQ (by exact_mod_cast hQ0)
  set N := Real.logb 10 q with hN
  have hNH : N = H * L := by
    rw [hN, hL]
    show _ = Real.logb B q * _
    rw [Real.logb, Real.logb, Real.logb]
    have : Real.log B ≠ 0 := by
      intro hz
      apply hLne
      rw [hL, Real.logb, hz, zero_div]
    field_simp
  have hN2 : |Real.logb 10 Q| ≤ |N| + 3 * uu := by
    have := abs_add_le (Real.logb 10 Q - N) N
    rw [sub_add_cancel] at this
    linarith
  have hN3 : |(N' : ℝ) - N| ≤ 4 * uu + δ * |N| := by
    have h4 : |(N' : ℝ) - N| ≤ |(N' : ℝ) - Real.logb 10 Q| + |Real.logb 10 Q - N| := abs_sub_le _ _ _
    have h5 : δ * |Real.logb 10 Q| ≤ δ * (|N| + 3 * uu) := mul_le_mul_of_nonneg_left hN2 hδ
    have h6 : δ * uu ≤ 1 / 8 * uu := mul_le_mul_of_nonneg_right hδ' hu.le
    linarith
  -- the quotient of the logarithms
  have hL1 : 7 / 8 * |L| ≤ |(L' : ℝ)| := by
    have h4 := abs_sub_abs_le_abs_sub L (L' : ℝ)
    rw [abs_sub_comm] at h4
    have h5 : δ * |L| ≤ 1 / 8 * |L| := mul_le_mul_of_nonneg_right hδ' hL0.le
    linarith
  have hL'0 : 0 < |(L' : ℝ)| := by linarith
  have hL'ne : (L' : ℝ) ≠ 0 := abs_pos.mp hL'0
  have hL'q : L' ≠ 0 := by exact_mod_cast hL'ne
  set x := uu / |L| with hx
  have hx0 : 0 < x := div_pos hu hL0
  have hxL : x * |L| = uu := by rw [hx]; field_simp
  have hHa : |N| = |H| * |L| := by rw [hNH, abs_mul]
  have hquo : |(N' : ℝ) / L' - H| ≤ 5 * x + 3 * δ * |H| := by
    have h4 : (N' : ℝ) / L' - H = (((N' : ℝ) - N) + H * (L - L')) / L' := by
      rw [hNH]
      field_simp
      ring
    rw [h4, abs_div, div_le_iff₀ hL'0]
    have h5 := abs_add_le ((N' : ℝ) - N) (H * (L - L'))
    rw [abs_mul, abs_sub_comm L] at h5
    have h6 : |H| * |(L' : ℝ) - L| ≤ |H| * (δ * |L|) := mul_le_mul_of_nonneg_left hLe (abs_nonneg _)
    have h7 : 0 ≤ δ * |H| := mul_nonneg hδ (abs_nonneg _)
    have h8 : (5 * x + 3 * δ * |H|) * (7 / 8 * |L|) ≤ (5 * x + 3 * δ * |H|) * |(L' : ℝ)| :=
      mul_le_mul_of_nonneg_left hL1 (by linarith)
    have h9 : (5 * x + 3 * δ * |H|) * (7 / 8 * |L|) = 35 / 8 * (x * |L|) + 21 / 8 * (δ * |H| * |L|) := by ring
    have h10 : 0 ≤ δ * |H| * |L| := mul_nonneg h7 hL0.le
    rw [hxL] at h9
    rw [hHa] at hN3
    linarith
  have hxbig : x ≤ big / 10 := by
    rw [hx, div_le_iff₀ hL0]
    have h4 : big / 10 * rLo ≤ big / 10 * |L| := mul_le_mul_of_nonneg_left hLgap (by linarith)
    have h5 : big / 10 * rLo = 1 / 2 ^ 21 / 10 := by rw [← big_rLo]; ring
    have h6 : uu ≤ 1 / 2 ^ 21 / 10 := by unfold uu; norm_num
    linarith
  have hη : 100 * (rLo * uu) ≤ x := by
    rw [hx, le_div_iff₀ hL0]
    have h4 : rLo * |L| ≤ rLo * 1074 := mul_le_mul_of_nonneg_left hLle h0.le
    have h5 : rLo * 1074 * 100 ≤ 1 := by
      have : rLo ≤ 1 / 2 ^ 20 :=
        one_div_le_one_div_of_le (by norm_num) (pow_le_pow_right₀ (by norm_num) (by norm_num))
      linarith
    have h6 : uu * (rLo * |L| * 100) ≤ uu * 1 := mul_le_mul_of_nonneg_left (by linarith) hu.le
    linarith
  have hH0 := abs_nonneg H
  have k1 : δ * |H| ≤ 1 / 8 * |H| := mul_le_mul_of_nonneg_right hδ' hH0
  have hquo2 : |(N' : ℝ) / L'| ≤ 5 * x + 3 * δ * |H| + |H| := by
    have := abs_add_le ((N' : ℝ) / L' - H) H
    rw [sub_add_cancel] at this
    linarith
  obtain ⟨W, hW, hWe⟩ := rd_both ((C104_operations _ _ N' L' hN' hL').2.2.2 hL'q) (by
    rw [Rat.cast_div]
    have := range_sum (x := |(N' : ℝ) / L'|) (by linarith)
    have := rHi_pos
    linarith)
  rw [Rat.cast_div] at hWe
  have hWH : |(W : ℝ) - H| ≤ 6 * x + (3 * δ + 2 * uu) * |H| := by
    have h4 : |(W : ℝ) - H| ≤ |(W : ℝ) - N' / L'| + |(N' : ℝ) / L' - H| := abs_sub_le _ _ _
    have h5 : uu * |(N' : ℝ) / L'| ≤ uu * (5 * x + 3 * δ * |H| + |H|) := mul_le_mul_of_nonneg_left hquo2 hu.le
    have h6 : uu * x ≤ 1 / 1000000 * x := mul_le_mul_of_nonneg_right hu' hx0.le
    have h7 : uu * (δ * |H|) ≤ uu * (1 / 8 * |H|) := mul_le_mul_of_nonneg_left k1 hu.le
    have h8 : 0 ≤ uu * |H| := mul_nonneg hu.le hH0
    linarith
  obtain ⟨Z, hZ, hZe⟩ := affine_tail hW hd hc hC1 hH hD hxbig hη hδ hδ' hWH
  refine ⟨_, Z, ?_, hZ, ?_⟩
  · show some (g8 (F64.ops l) a b c d e r) = _
    have hV0 : (0 : ℝ) ≤ V := by
      have := abs_le.mp hVe
      nlinarith
    unfold g8
    simp only [not_tiny64 l ha hA, not_tiny64 l hc hC, Bool.or_self, Bool.false_eq_true, if_false]
    simp only [F64.ops, not_lt_zero hV hV0, Bool.false_eq_true, if_false]
  · have hv : Value (-8) [(A : ℝ), (B : ℝ), (C : ℝ), (D : ℝ), (E : ℝ)] R = (H - D) / C := by
      show (if (R : ℝ) < E ∨ Tiny (A : ℝ) ∨ Tiny (C : ℝ) then (0 : ℝ) else _) = _
      rw [if_neg]
      rintro (h | h | h)
      · linarith
      · exact not_tiny_real hA h
      · exact not_tiny_real hC h
    rw [hv]
    exact hZe

/-- Type -8 with `a` and `c` 1, base 2, `d` 1 and `e` 0 at 4: within 70 half units of `log2 4 - 1`. -/
example (l : Libm) (hl : AccurateLog l (2 * uu)) :
    ∃ z Z, eval (F64.ops l) (-8) [F64.ofRat 1, F64.ofRat 2, F64.ofRat 1, F64.ofRat 1, F64.ofRat 0] (F64.ofRat 4) = some z ∧
      F64.val z = some Z ∧ |(Z : ℝ) - 1| ≤ 70 * uu := by
  have hu := uu_pos
  have hu' := uu_small
  have e0 : (((4 : ℚ) : ℝ) - ((0 : ℚ) : ℝ)) / ((1 : ℚ) : ℝ) = 4 := by norm_num
  have e1 : Real.logb ((2 : ℚ) : ℝ) 4 = 2 := by
    rw [Rat.cast_ofNat, show (4 : ℝ) = 2 ^ (2 : ℝ) by norm_num, Real.logb_rpow (by norm_num) (by norm_num)]
  have e2 : Value (-8) [((1 : ℚ) : ℝ), ((2 : ℚ) : ℝ), ((1 : ℚ) : ℝ), ((1 : ℚ) : ℝ), ((0 : ℚ) : ℝ)] ((4 : ℚ) : ℝ) = 1 := by
    show (if ((4 : ℚ) : ℝ) < ((0 : ℚ) : ℝ) ∨ Tiny ((1 : ℚ) : ℝ) ∨ Tiny ((1 : ℚ) : ℝ) then (0 : ℝ) else _) = _
    have t1 : ¬ Tiny ((1 : ℚ) : ℝ) := not_tiny_real (by norm_num)
    rw [if_neg (by simp only [t1, or_self, or_false]; norm_num), e0, e1]
    norm_num
  have h4 : 1 / 4 ≤ Real.logb 10 2 := by
    rw [Real.le_logb_iff_rpow_le (by norm_num) (by norm_num)]
    calc (10 : ℝ) ^ (1 / 4 : ℝ) ≤ 16 ^ (1 / 4 : ℝ) := Real.rpow_le_rpow (by norm_num) (by norm_num) (by norm_num)
      _ = 2 := by
        rw [show (16 : ℝ) = 2 ^ (4 : ℕ) by norm_num, ← Real.rpow_natCast_mul (by norm_num)]
        norm_num
  have hb := one_le_big
  have hb2 : (2 : ℝ) ≤ big := le_trans (by norm_num : (2 : ℝ) ≤ 2 ^ 1) (pow_le_pow_right₀ (by norm_num) (by norm_num))
  have main := C117_type8_inverse l (2 * uu) hl (by linarith) (by linarith) (F64.ofRat 1) (F64.ofRat 2) (F64.ofRat 1)
    (F64.ofRat 1) (F64.ofRat 0) (F64.ofRat 4) 1 2 1 1 0 4 (by decide +kernel) (by decide +kernel) (by decide +kernel)
    (by decide +kernel) (by decide +kernel) (by decide +kernel) (by norm_num) (by norm_num) (by norm_num) (by norm_num)
    (by push_cast; rw [abs_one]; exact hb) (mid_range (by norm_num) (by norm_num))
    (mid_range (by norm_num) (by norm_num))
  simp only [e0, e1, e2] at main
  simp only [Rat.cast_one, abs_one, abs_two, Rat.cast_ofNat, div_one] at main
  obtain ⟨z, Z, h1, h2, h3⟩ := main hb2
  refine ⟨z, Z, h1, h2, h3.trans ?_⟩
  rw [abs_of_pos (by linarith)]
  have h5 : uu / Real.logb 10 2 ≤ 4 * uu := by
    rw [div_le_iff₀ (by linarith)]
    nlinarith
  have h6 : rLo * uu ≤ 1 * uu := mul_le_mul_of_nonneg_right rLo_le_one hu.le
  linarith

end Lcms.Props
