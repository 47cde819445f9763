import Mathlib.Analysis.SpecialFunctions.Log.Deriv
import Mathlib.Analysis.Complex.ExponentialBounds
import Verif.Props.CurvesAccuracy

/-! # Property C106: there and back in binary64 -/

namespace Lcms.Props

open Lcms.Curves

theorem val_ofRat1 : F64.val (F64.ofRat 1) = some 1 := by decide +kernel

theorem abs_log_le {S : ℝ} (h : InRange S) : |Real.log S| ≤ 1022 := by
  have h0 := rLo_pos
  have hS : 0 < S := lt_of_lt_of_le h0 h.1
  have hl : Real.log 2 ≤ 1 := by
    have := Real.log_le_sub_one_of_pos (show (0 : ℝ) < 2 by norm_num)
    linarith
  have hl0 : 0 ≤ Real.log 2 := Real.log_nonneg (by norm_num)
  rw [abs_le]
  constructor
  · have h1 := Real.log_le_log h0 h.1
    have h2 : Real.log rLo = -(1021 * Real.log 2) := by
      unfold rLo
      rw [one_div, Real.log_inv, Real.log_pow]
      norm_num
    linarith
  · have h1 := Real.log_le_log hS h.2
    have h2 : Real.log rHi = 1022 * Real.log 2 := by
      unfold rHi
      rw [Real.log_pow]
      norm_num
    linarith

/-- The reciprocal of the exponent. -/
theorem recip_acc {g : F64} {G : ℚ} (hg : F64.val g = some G) (h1 : 1 / 1000 ≤ (G : ℝ)) (h2 : (G : ℝ) ≤ 1024) :
    ∃ Q : ℚ, F64.val (F64.div (F64.ofRat 1) g) = some Q ∧ |(Q : ℝ) - 1 / G| ≤ 1 / G * uu := by
  have hG : (0 : ℝ) < G := by linarith
  have hG0 : G ≠ 0 := by
    rintro rfl
    norm_num at hG
  have e : ((1 / G : ℚ) : ℝ) = 1 / (G : ℝ) := by push_cast; rfl
  have h3 : 1 / (G : ℝ) ≤ 1000 := by
    rw [div_le_iff₀ hG]; linarith
  have h4 : 1 / 1024 ≤ 1 / (G : ℝ) := one_div_le_one_div_of_le hG h2
  obtain ⟨Q, hQ, he⟩ := rd_rel ((C104_operations _ g 1 G val_ofRat1 hg).2.2.2 hG0)
    (by rw [e]; exact rLo_le (le_trans (by norm_num) (show (1 / 1024 : ℝ) ≤ _ by linarith)))
    (by rw [e]; have := le_rHi (show 1 / (G : ℝ) ≤ 2 ^ 20 by linarith); have := rHi_pos; linarith)
  rw [e] at he
  exact ⟨Q, hQ, he⟩

/-- The root of a number known to be near `S ^ G`. -/
theorem inv_pow_acc {l : Libm} {ε κ : ℝ} (hl : AccuratePow l ε) (hε : 0 ≤ ε) {y g : F64} {Y G : ℚ} {S : ℝ}
    (hy : F64.val y = some Y) (hg : F64.val g = some G) (h1 : 1 / 1000 ≤ (G : ℝ)) (h2 : (G : ℝ) ≤ 1024)
    (hS : InRange S) (hκ : 0 ≤ κ) (hκ' : κ ≤ 1 / 2) (hκG : 3 * κ / G ≤ 1 / 5)
    (hY : |(Y : ℝ) - S ^ (G : ℝ)| ≤ κ * S ^ (G : ℝ)) :
    ∃ P : ℚ, F64.val (l.powf y (F64.div (F64.ofRat 1) g)) = some P ∧
      |(P : ℝ) - S| ≤ (2 * uu * |Real.log S| + 6 * κ / G + 3 * ε) * S := by
  obtain ⟨Q, hQ, hQe⟩ := recip_acc hg h1 h2
  have hu := uu_pos
  have hu' := uu_small
  have h0 := rLo_pos
  have hhi := rHi_pos
  have hS0 : 0 < S := lt_of_lt_of_le h0 hS.1
  have hG : (0 : ℝ) < G := by linarith
  have hW : 0 < S ^ (G : ℝ) := Real.rpow_pos_of_pos hS0 _
  set W := S ^ (G : ℝ) with hWd
  have hY1 := abs_le.mp hY
  have hY0 : (0 : ℝ) < Y := by nlinarith
  -- the error of the argument, as a logarithm
  set lam := Real.log (Y / W) with hlam
  have hr : 0 < (Y : ℝ) / W := div_pos hY0 hW
  have hr1 : (Y : ℝ) / W ≤ 1 + κ := by
    rw [div_le_iff₀ hW]; linarith
  have hr2 : 1 - κ ≤ (Y : ℝ) / W := by
    rw [le_div_iff₀ hW]; linarith
  have hlam' : |lam| ≤ 2 * κ := by
    rw [abs_le]
    constructor
    · have := Real.one_sub_inv_le_log_of_pos hr
      have h3 : ((Y : ℝ) / W)⁻¹ ≤ 1 + 2 * κ := by
        rw [inv_le_comm₀ hr (by linarith)]
        refine le_trans ?_ hr2
        rw [inv_le_iff_one_le_mul₀ (by linarith)]
        nlinarith
      linarith
    · have := Real.log_le_sub_one_of_pos hr
      linarith
  -- the computed power, as an exponential
  set th := (Q : ℝ) * G - 1 with hth
  have hth' : |th| ≤ uu := by
    have e : th = ((Q : ℝ) - 1 / G) * G := by
      rw [hth, sub_mul, one_div_mul_cancel hG.ne']
    rw [e, abs_mul, abs_of_pos hG]
    calc |(Q : ℝ) - 1 / G| * G ≤ 1 / G * uu * G := mul_le_mul_of_nonneg_right hQe hG.le
      _ = uu := by field_simp
  set tau := th * Real.log S + Q * lam with htau
  have hQ1 := abs_le.mp hQe
  have hGi : 0 < 1 / (G : ℝ) := by positivity
  have hQ0 : 0 < (Q : ℝ) := by nlinarith
  have hQ2 : (Q : ℝ) ≤ 3 / 2 * (1 / G) := by nlinarith
  have htau' : |tau| ≤ uu * |Real.log S| + 3 * κ / G := by
    have e1 : |tau| ≤ |th * Real.log S| + |(Q : ℝ) * lam| := abs_add_le _ _
    rw [abs_mul, abs_mul, abs_of_pos hQ0] at e1
    have e2 : |th| * |Real.log S| ≤ uu * |Real.log S| := mul_le_mul_of_nonneg_right hth' (abs_nonneg _)
    have e3 : (Q : ℝ) * |lam| ≤ 3 / 2 * (1 / G) * (2 * κ) :=
      mul_le_mul hQ2 hlam' (abs_nonneg _) (by positivity)
    have e4 : 3 / 2 * (1 / (G : ℝ)) * (2 * κ) = 3 * κ / G := by ring
    linarith
  have hlog := abs_log_le hS
  have ht : |tau| ≤ 1 / 4 := by nlinarith [abs_nonneg (Real.log S)]
  have hpow : (Y : ℝ) ^ (Q : ℝ) = S * Real.exp tau := by
    rw [Real.rpow_def_of_pos hY0]
    have e1 : Real.log Y = G * Real.log S + lam := by
      rw [hlam, Real.log_div hY0.ne' hW.ne', hWd, Real.log_rpow hS0]
      ring
    have e2 : Real.log Y * Q = Real.log S + tau := by
      rw [e1, htau, hth]
      ring
    rw [e2, Real.exp_add, Real.exp_log hS0]
  have hexp := Real.abs_exp_sub_one_le (x := tau) (by linarith)
  have hexp' := abs_le.mp hexp
  obtain ⟨P, hP, hPe⟩ := hl y _ Y Q hy hQ (by exact_mod_cast hY0)
    (by rw [hpow]; have := hS.1; nlinarith) (by rw [hpow]; have := hS.2; nlinarith)
  rw [hpow] at hPe
  refine ⟨P, hP, ?_⟩
  have h5 : |(P : ℝ) - S| ≤ |(P : ℝ) - S * Real.exp tau| + |S * Real.exp tau - S| := abs_sub_le _ _ _
  have h6 : |S * Real.exp tau - S| ≤ S * (2 * |tau|) := by
    rw [show S * Real.exp tau - S = S * (Real.exp tau - 1) by ring, abs_mul, abs_of_pos hS0]
    exact mul_le_mul_of_nonneg_left hexp hS0.le
  have h7 : ε * (S * Real.exp tau) ≤ 3 * ε * S := by
    have : Real.exp tau ≤ 3 := by linarith
    have h8 : ε * S * Real.exp tau ≤ ε * S * 3 := mul_le_mul_of_nonneg_left this (by positivity)
    linarith
  have h8 : S * (2 * |tau|) ≤ S * (2 * (uu * |Real.log S| + 3 * κ / G)) :=
    mul_le_mul_of_nonneg_left (by linarith) hS0.le
  have h9 : S * (2 * (uu * |Real.log S| + 3 * κ / G)) = (2 * uu * |Real.log S| + 6 * κ / G) * S := by ring
  linarith

/-- **C106**, type 1: the gamma curve and back. -/
theorem C106_type1 (l : Libm) (ε : ℝ) (hl : AccuratePow l ε) (hε : 0 ≤ ε) (hε' : ε ≤ 1 / 8) (g r : F64) (G R : ℚ)
    (hg : F64.val g = some G) (hr : F64.val r = some R) (h1 : 1 / 1000 ≤ G) (h2 : G ≤ 1024)
    (hεG : 3 * ε / G ≤ 1 / 5) (hR : InRange R) (hp : InRange ((R : ℝ) ^ (G : ℝ))) :
    ∃ y z Z, eval (F64.ops l) 1 [g] r = some y ∧ eval (F64.ops l) (-1) [g] y = some z ∧ F64.val z = some Z ∧
      |(Z : ℝ) - R| ≤ (2 * uu * |Real.log R| + 6 * ε / G + 3 * ε) * R := by
  have hR0' : (0 : ℝ) < R := lt_of_lt_of_le rLo_pos hR.1
  have hR0 : 0 < R := by exact_mod_cast hR0'
  have h1' : (1 / 1000 : ℝ) ≤ G := by
    have := (Rat.cast_le (K := ℝ)).mpr h1
    push_cast at this
    exact this
  have h2' : (G : ℝ) ≤ 1024 := by exact_mod_cast h2
  obtain ⟨y, Y, W, hy, hY, hW, hYe⟩ := C105_type1 l ε hl g r G R hg hr hR0 (by linarith) hp
  obtain rfl := hW.unique (maps1 (by linarith) hR0'.le)
  have hWp : (0 : ℝ) < (R : ℝ) ^ (G : ℝ) := Real.rpow_pos_of_pos hR0' _
  have hY0 : (0 : ℝ) < Y := by
    have := abs_le.mp hYe
    nlinarith
  obtain ⟨P, hP, hPe⟩ := inv_pow_acc hl hε hY hg h1' h2' hR hε (by linarith) hεG hYe
  refine ⟨y, _, P, hy, ?_, hP, hPe⟩
  show some (g1 (F64.ops l) g y) = _
  have hn : F64.lt y (F64.ofRat 0) = false := by
    by_contra hc
    have h3 := (F64.lt_val hY val_ofRat0).mp (by simpa using hc)
    have h4 : (Y : ℝ) < 0 := by exact_mod_cast h3
    linarith
  unfold g1
  simp only [not_tiny64 l hg h1, Bool.false_eq_true, if_false]
  simp only [F64.ops, hn, Bool.false_eq_true, if_false]

/-- On the unit interval the error is at most `2 * 2^-53 + (6 / G + 3) ε`, however small the number. -/
theorem C106_type1_unit (l : Libm) (ε : ℝ) (hl : AccuratePow l ε) (hε : 0 ≤ ε) (hε' : ε ≤ 1 / 8) (g r : F64)
    (G R : ℚ) (hg : F64.val g = some G) (hr : F64.val r = some R) (h1 : 1 / 1000 ≤ G) (h2 : G ≤ 1024)
    (hεG : 3 * ε / G ≤ 1 / 5) (hR : InRange R) (hR1 : R ≤ 1) (hp : InRange ((R : ℝ) ^ (G : ℝ))) :
    ∃ y z Z, eval (F64.ops l) 1 [g] r = some y ∧ eval (F64.ops l) (-1) [g] y = some z ∧ F64.val z = some Z ∧
      |(Z : ℝ) - R| ≤ 2 * uu + (6 / G + 3) * ε := by
  obtain ⟨y, z, Z, hy, hz, hZ, he⟩ := C106_type1 l ε hl hε hε' g r G R hg hr h1 h2 hεG hR hp
  refine ⟨y, z, Z, hy, hz, hZ, he.trans ?_⟩
  have hR0 : (0 : ℝ) < R := lt_of_lt_of_le rLo_pos hR.1
  have hR1' : (R : ℝ) ≤ 1 := by exact_mod_cast hR1
  have hG : (0 : ℝ) < G := by
    have h3 : 0 < G := by linarith
    exact_mod_cast h3
  have hl0 : |Real.log R| * R ≤ 1 := by
    rw [abs_of_nonpos (Real.log_nonpos hR0.le hR1')]
    have := Real.one_sub_inv_le_log_of_pos hR0
    have h3 : (R : ℝ) * (R : ℝ)⁻¹ = 1 := mul_inv_cancel₀ hR0.ne'
    nlinarith
  have hu := uu_pos
  have e : (2 * uu * |Real.log R| + 6 * ε / G + 3 * ε) * R =
      2 * uu * (|Real.log R| * R) + (6 / G + 3) * ε * R := by ring
  rw [e]
  have h4 : 0 ≤ (6 / (G : ℝ) + 3) * ε := by positivity
  nlinarith

/-! ### Type 4 -/

/-- `powf` is monotone in a positive base for non-negative exponents. -/
def MonoPow (l : Libm) : Prop :=
  ∀ u v g, F64.lt (F64.ofRat 0) u = true → F64.le u v = true → F64.le (F64.ofRat 0) g = true →
    F64.le (l.powf u g) (l.powf v g) = true

theorem MonoLibm.pow {l : Libm} (h : MonoLibm l) : MonoPow l :=
  fun u v g hu huv hg => h.pow_base u v g (F64.le_of_lt hu) huv hg

/-- Subtracting `b` and dividing by `a` again. -/
theorem affine_back {p a b : F64} {P A B : ℚ} {S X ρ : ℝ} (hp : F64.val p = some P) (ha : F64.val a = some A)
    (hb : F64.val b = some B) (hA : 0 < A) (hB : 0 ≤ B) (hX : 0 ≤ X) (hS : S = A * X + B)
    (hSr : InRange S) (hSA : InRange (S / A)) (hρ : 0 ≤ ρ) (hρ' : ρ ≤ 1 / 2) (he : |(P : ℝ) - S| ≤ ρ * S) :
    ∃ Z : ℚ, F64.val (F64.div (F64.sub p b) a) = some Z ∧ |(Z : ℝ) - X| ≤ (2 * ρ + 4 * uu) * (S / A) := by
  have hu := uu_pos
  have hu' := uu_small
  have h0 := rLo_pos
  have hA' : (0 : ℝ) < A := by exact_mod_cast hA
  have hB' : (0 : ℝ) ≤ B := by exact_mod_cast hB
  have hS0 : 0 < S := lt_of_lt_of_le h0 hSr.1
  have hAX : 0 ≤ (A : ℝ) * X := mul_nonneg hA'.le hX
  have hP := abs_le.mp he
  have hd : (((P - B : ℚ)) : ℝ) = P - B := Rat.cast_sub _ _
  have hdabs : |(P : ℝ) - B| ≤ (1 + ρ) * S := by
    rw [abs_le]
    constructor <;> nlinarith
  obtain ⟨V, hV, hVe⟩ := rd_step ((C104_operations p b P B hp hb).2.1) (by
    rw [hd]
    refine hdabs.trans ?_
    have := hSr.2
    nlinarith)
  rw [hd] at hVe
  have hV1 : |(V : ℝ) - (P - B)| ≤ 3 / 2 * S * uu := by
    rcases hVe with h | h
    · refine h.trans (mul_le_mul_of_nonneg_right (hdabs.trans ?_) hu.le)
      nlinarith
    · refine h.trans ?_
      have := hSr.1
      nlinarith
  have hV2 : |(V : ℝ) - A * X| ≤ (ρ + 3 / 2 * uu) * S := by
    have e1 : |(V : ℝ) - A * X| ≤ |(V : ℝ) - (P - B)| + |((P : ℝ) - B) - A * X| := abs_sub_le _ _ _
    have e2 : ((P : ℝ) - B) - A * X = P - S := by rw [hS]; ring
    rw [e2] at e1
    linarith
  have hV3 := abs_le.mp hV2
  have hVabs : |(V : ℝ)| ≤ 2 * S := by
    have : (ρ + 3 / 2 * uu) * S ≤ S * (3 / 4) := by nlinarith
    rw [abs_le]
    constructor <;> linarith
  have hq : (((V / A : ℚ)) : ℝ) = V / A := Rat.cast_div _ _
  have hqabs : |(V : ℝ) / A| ≤ 2 * (S / A) := by
    rw [abs_div, abs_of_pos hA', div_le_iff₀ hA', mul_assoc, div_mul_cancel₀ _ hA'.ne']
    exact hVabs
  obtain ⟨Z, hZ, hZe⟩ := rd_step ((C104_operations (F64.sub p b) a V A hV ha).2.2.2 hA.ne') (by
    rw [hq]
    refine hqabs.trans ?_
    have := hSA.2
    linarith)
  rw [hq] at hZe
  have hSA0 : 0 < S / A := div_pos hS0 hA'
  have hZ1 : |(Z : ℝ) - V / A| ≤ 2 * uu * (S / A) := by
    rcases hZe with h | h
    · refine h.trans ((mul_le_mul_of_nonneg_right hqabs hu.le).trans ?_)
      linarith
    · refine h.trans ?_
      have := hSA.1
      nlinarith
  have hZ2 : |(V : ℝ) / A - X| ≤ (ρ + 3 / 2 * uu) * (S / A) := by
    have e1 : (V : ℝ) / A - X = (V - A * X) / A := by field_simp
    rw [e1, abs_div, abs_of_pos hA', ← mul_div_assoc]
    exact div_le_div_of_nonneg_right hV2 hA'.le
  refine ⟨Z, hZ, ?_⟩
  have e1 : |(Z : ℝ) - X| ≤ |(Z : ℝ) - V / A| + |(V : ℝ) / A - X| := abs_sub_le _ _ _
  nlinarith

/-- The error of the root of the power of `S`. -/
noncomputable def rootBound (G : ℚ) (ε S : ℝ) : ℝ := 2 * uu * |Real.log S| + 6 * bound G ε / G + 3 * ε

/-- **C106**, type 4: from the joint on. -/
theorem C106_type4_power (l : Libm) (ε : ℝ) (hl : AccuratePow l ε) (hm : MonoPow l) (hε : 0 ≤ ε) (hε' : ε ≤ 1 / 8)
    (g a b c d r : F64) (G A B D R : ℚ) (h : PowerPiece g a b r G A B R) (hd : F64.val d = some D)
    (hDR : D ≤ R) (hpos : F64.lt (F64.ofRat 0) (F64.add (F64.mul a d) b) = true) (hG : 1 / 1000 ≤ G)
    (hA : 1 / 1000 ≤ A) (hSA : InRange (((A : ℝ) * R + B) / A)) (hbG : 3 * bound G ε / G ≤ 1 / 5)
    (hρ : rootBound G ε ((A : ℝ) * R + B) ≤ 1 / 2) :
    ∃ y z Z, eval (F64.ops l) 4 [g, a, b, c, d] r = some y ∧ eval (F64.ops l) (-4) [g, a, b, c, d] y = some z ∧
      F64.val z = some Z ∧
      |(Z : ℝ) - R| ≤ (2 * rootBound G ε ((A : ℝ) * R + B) + 4 * uu) * (((A : ℝ) * R + B) / A) := by
  obtain ⟨h1, -, Y, hY, hYe⟩ := h.value hl hε
  have hA0 : 0 < A := by linarith
  have hG' : (1 / 1000 : ℝ) ≤ G := by
    have := (Rat.cast_le (K := ℝ)).mpr hG
    push_cast at this
    exact this
  have hG'' : (G : ℝ) ≤ 1024 := by exact_mod_cast h.hG'
  have hG0 : (0 : ℝ) < G := by linarith
  have hb0 := bound_nonneg (G := G) hε
  obtain ⟨P, hP, hPe⟩ := inv_pow_acc hl hε hY h.hg hG' hG'' h.base hb0 (bound_small h.hG' hε') hbG hYe
  have hρ0 : 0 ≤ rootBound G ε ((A : ℝ) * R + B) := by
    unfold rootBound
    have := uu_pos
    positivity
  obtain ⟨Z, hZ, hZe⟩ := affine_back hP h.ha h.hb hA0 h.hB (show (0 : ℝ) ≤ R by exact_mod_cast h.hR) rfl h.base hSA
    hρ0 hρ hPe
  refine ⟨l.powf (F64.add (F64.mul a r) b) g, _, Z, ?_, ?_, hZ, hZe⟩
  · show some (f4 (F64.ops l) g a b c d r) = _
    unfold f4
    simp only [F64.ops, (F64.le_val hd h.hr).mpr hDR, h1, if_true]
  · show some (g4 (F64.ops l) g a b c d (l.powf (F64.add (F64.mul a r) b) g)) = _
    have hn : F64.lt (F64.add (F64.mul a d) b) (F64.ofRat 0) = false := by
      by_contra hc
      exact F64.lt_irrefl' (F64.lt_of_lt_of_le hpos (F64.le_of_lt (by simpa using hc)))
    have hle : F64.le (F64.add (F64.mul a d) b) (F64.add (F64.mul a r) b) = true := by
      refine F64.add_mono ?_ h.hb
      rw [F64.mul_comm a d, F64.mul_comm a r]
      exact F64.mul_mono_pos ((F64.le_val hd h.hr).mpr hDR) h.ha hA0
    have hdisc := hm _ _ g hpos hle ((F64.le_val val_ofRat0 h.hg).mpr h.hG.le)
    unfold g4
    simp only [not_tiny64 l h.ha hA, not_tiny64 l h.hg hG, Bool.or_false, Bool.false_eq_true, if_false]
    simp only [F64.ops, hn, hdisc, Bool.false_eq_true, if_false, if_true]

/-- **C106**, type 4: below the joint. -/
theorem C106_type4_line (l : Libm) (g a b c d r : F64) (C D R : ℚ) (hc : F64.val c = some C)
    (hd : F64.val d = some D) (hr : F64.val r = some R) (hRD : R < D) (hC : 1 / 1000 ≤ C)
    (hpos : F64.lt (F64.ofRat 0) (F64.add (F64.mul a d) b) = true)
    (hj : ∀ y j, eval (F64.ops l) 4 [g, a, b, c, d] r = some y → eval (F64.ops l) 4 [g, a, b, c, d] d = some j →
      F64.lt y j = true)
    (hin : R = 0 ∨ InRange R ∧ InRange (R * C)) :
    ∃ y z Z, eval (F64.ops l) 4 [g, a, b, c, d] r = some y ∧ eval (F64.ops l) (-4) [g, a, b, c, d] y = some z ∧
      F64.val z = some Z ∧ |(Z : ℝ) - R| ≤ 3 * uu * R := by
  have hu := uu_pos
  have hu' := uu_small
  have h0 := rLo_pos
  have hhi := rHi_pos
  obtain ⟨y, hy, hyc⟩ := C104_line4 l g a b c d r C R hc hr ((F64.lt_val hr hd).mpr hRD)
  have hC' : (1 / 1000 : ℝ) ≤ C := by
    have := (Rat.cast_le (K := ℝ)).mpr hC
    push_cast at this
    exact this
  have hC0 : (0 : ℝ) < C := by linarith
  have hRC : (((R * C : ℚ)) : ℝ) = R * C := Rat.cast_mul _ _
  have hzero : F64.rq 0 = 0 := le_antisymm (F64.rq_nonpos (le_refl _)) (F64.rq_nonneg (le_refl _))
  obtain ⟨Y, hY, hYe⟩ := rd_step hyc (by
    rw [hRC]
    rcases hin with rfl | ⟨-, hin⟩
    · rw [Rat.cast_zero, zero_mul, abs_zero]
      linarith
    · rw [abs_of_pos (lt_of_lt_of_le h0 hin.1)]
      linarith [hin.2])
  obtain ⟨z, hz, hzc⟩ := C104_line4_inverse l g a b c d y C Y hc hY (hC.trans (le_abs_self C)) hpos
    (fun j hjd => hj y j hy hjd)
  have hq : (((Y / C : ℚ)) : ℝ) = Y / C := Rat.cast_div _ _
  rcases hin with rfl | ⟨hR, hin⟩
  · have hY0 : Y = 0 := by rw [correct_val hyc hY, zero_mul, hzero]
    subst hY0
    obtain ⟨Z, hZ, -⟩ := rd_step hzc (by rw [hq, Rat.cast_zero, zero_div, abs_zero]; linarith)
    refine ⟨y, z, Z, hy, hz, hZ, ?_⟩
    rw [correct_val hzc hZ, zero_div, hzero]
    norm_num
  · have hR0 : (0 : ℝ) < R := lt_of_lt_of_le h0 hR.1
    have hYe' : |(Y : ℝ) - R * C| ≤ R * C * uu := by
      rw [hRC, abs_of_pos (lt_of_lt_of_le h0 hin.1)] at hYe
      rcases hYe with h | h
      · exact h
      · refine h.trans ?_
        have := hin.1
        nlinarith
    have h1 := abs_le.mp hYe'
    have hq1 : |(Y : ℝ) / C - R| ≤ R * uu := by
      have e1 : (Y : ℝ) / C - R = (Y - R * C) / C := by field_simp
      rw [e1, abs_div, abs_of_pos hC0, div_le_iff₀ hC0]
      linarith
    have h2 := abs_le.mp hq1
    have h3 := hR.1
    have h4 := hR.2
    obtain ⟨Z, hZ, hZe⟩ := rd_rel hzc (by rw [hq]; nlinarith) (by rw [hq]; nlinarith)
    rw [hq] at hZe
    refine ⟨y, z, Z, hy, hz, hZ, ?_⟩
    have e1 : |(Z : ℝ) - R| ≤ |(Z : ℝ) - Y / C| + |(Y : ℝ) / C - R| := abs_sub_le _ _ _
    have e2 : (Y : ℝ) / C * uu ≤ 2 * R * uu := mul_le_mul_of_nonneg_right (by nlinarith) hu.le
    linarith

/-! ### Instances -/

/-- A platform whose powers are the exact ones, cut after 2000 binary digits and rounded. -/
noncomputable def cutLibm : Libm where
  powf := fun x y =>
    match x, F64.val y with
    | .fin s m k, some Y =>
      if 0 < F64.ratOf (.fin s m k) then
        F64.round (⌊((F64.ratOf (.fin s m k) : ℚ) : ℝ) ^ (Y : ℝ) * 2 ^ 2000⌋ / 2 ^ 2000)
      else F64.ofRat 0
    | _, some _ => .inf false
    | _, none => F64.ofRat 1
  exp := id
  log10 := id

theorem cut_finite {x y : F64} {X Y : ℚ} (hx : F64.val x = some X) (hy : F64.val y = some Y) (h : 0 < X) :
    cutLibm.powf x y = F64.round (⌊(X : ℝ) ^ (Y : ℝ) * 2 ^ 2000⌋ / 2 ^ 2000) := by
  obtain ⟨s, m, k, rfl, -⟩ := F64.val_eq_some hx
  have e : F64.ratOf (.fin s m k) = X := by unfold F64.ratOf; rw [hx]; rfl
  unfold cutLibm
  simp only [hy, e, if_pos h]

/-- The hypotheses on the platform can be met together. -/
theorem C106_platform_exists : AccuratePow cutLibm (2 * uu) ∧ MonoPow cutLibm := by
  have hT : (0 : ℝ) < 2 ^ 2000 := by positivity
  constructor
  · intro x y X Y hx hy hX hlo hhi
    rw [cut_finite hx hy hX]
    have hu := uu_pos
    have hu' := uu_small
    have h0 := rLo_pos
    have h1 := rHi_pos
    set W := (X : ℝ) ^ (Y : ℝ) with hW
    set q : ℚ := ⌊W * 2 ^ 2000⌋ / 2 ^ 2000 with hq
    have hqc : (q : ℝ) = ⌊W * 2 ^ 2000⌋ / 2 ^ 2000 := by
      rw [hq, Rat.cast_div, Rat.cast_intCast, Rat.cast_pow, Rat.cast_ofNat]
    have hq1 : (q : ℝ) ≤ W := by
      rw [hqc, div_le_iff₀ hT]
      exact Int.floor_le _
    have hq2 : W - 1 / 2 ^ 2000 ≤ q := by
      rw [hqc, le_div_iff₀ hT, sub_mul, one_div_mul_cancel hT.ne']
      have := Int.lt_floor_add_one (W * 2 ^ 2000)
      generalize W * 2 ^ 2000 = t at this ⊢
      linarith
    have hsm : (1 : ℝ) / 2 ^ 2000 ≤ rLo * (uu / 2) := by
      rw [← tiny_le]
      exact one_div_le_one_div_of_le (by positivity) (pow_le_pow_right₀ (by norm_num) (by norm_num))
    generalize (1 : ℝ) / 2 ^ 2000 = t at hsm hq2
    have hq0 : 0 ≤ (q : ℝ) := by nlinarith
    obtain ⟨P, hP, hPe⟩ := rd_step (correct_of_rd (F64.round_cases q)) (by
      rw [abs_of_nonneg hq0]
      linarith)
    refine ⟨P, hP, ?_⟩
    have hPe' : |(P : ℝ) - q| ≤ W * uu := by
      rcases hPe with h | h
      · rw [abs_of_nonneg hq0] at h
        exact h.trans (mul_le_mul_of_nonneg_right hq1 hu.le)
      · nlinarith
    have h2 := abs_le.mp hPe'
    have h3 : t ≤ W * uu := by nlinarith
    rw [abs_le]
    constructor <;> linarith
  · intro u v g hu huv hg
    have hun : ∀ {w : F64}, F64.lt (F64.ofRat 0) w = true → w = .inf false ∨ ∃ W, F64.val w = some W ∧ 0 < W := by
      intro w hw
      cases w with
      | nan => rw [ofRat0] at hw; cases hw
      | inf s =>
        cases s with
        | false => exact .inl rfl
        | true => rw [ofRat0] at hw; cases hw
      | fin s m k =>
        exact .inr ⟨_, F64.val_fin s m k, (F64.lt_val val_ofRat0 (F64.val_fin s m k)).mp hw⟩
    have hv := F64.lt_of_lt_of_le hu huv
    cases hgv : F64.val g with
    | none =>
      have e : ∀ w, cutLibm.powf w g = F64.ofRat 1 := by
        intro w
        unfold cutLibm
        simp only [hgv]
      rw [e, e]
      exact F64.le_refl (by decide +kernel)
    | some G =>
      have hG : 0 ≤ G := (F64.le_val val_ofRat0 hgv).mp hg
      have hG' : (0 : ℝ) ≤ G := by exact_mod_cast hG
      have einf : cutLibm.powf (.inf false) g = .inf false := by
        unfold cutLibm
        simp only [hgv]
      rcases hun hu with rfl | ⟨U, hU, hU0⟩
      · rcases hun hv with rfl | ⟨V, hV, -⟩
        · rw [einf]
          rfl
        · obtain ⟨s, m, k, rfl, -⟩ := F64.val_eq_some hV
          cases huv
      · rw [cut_finite hU hgv hU0]
        rcases hun hv with rfl | ⟨V, hV, hV0⟩
        · rw [einf]
          exact F64.le_top (F64.IsRd.nn (F64.round_cases _))
        · rw [cut_finite hV hgv hV0]
          refine F64.le_of_rd (F64.round_cases _) (F64.round_cases _) ?_
          have hUV : (U : ℝ) ≤ V := by exact_mod_cast (F64.le_val hU hV).mp huv
          have hU0' : (0 : ℝ) < U := by exact_mod_cast hU0
          have h1 : (U : ℝ) ^ (G : ℝ) ≤ (V : ℝ) ^ (G : ℝ) := Real.rpow_le_rpow hU0'.le hUV hG'
          have h2 := Int.floor_mono (mul_le_mul_of_nonneg_right h1 hT.le)
          exact div_le_div_of_nonneg_right (by exact_mod_cast h2) (by positivity)

/-- What is needed about the sRGB parameters (and the product at the joint) as numbers. -/
structure SrgbNums (G A B C D J : ℚ) : Prop where
  vG : F64.val (F64.ofRat (24 / 10)) = some G
  vA : F64.val (F64.ofRat (1000 / 1055)) = some A
  vB : F64.val (F64.ofRat (55 / 1055)) = some B
  vC : F64.val (F64.ofRat (100 / 1292)) = some C
  vD : F64.val (F64.ofRat (4045 / 100000)) = some D
  vJ : F64.val (F64.mul (F64.ofRat (4045 / 100000)) (F64.ofRat (100 / 1292))) = some J
  G1 : 2399 / 1000 ≤ G
  G2 : G ≤ 12 / 5
  A1 : 947 / 1000 ≤ A
  A2 : A ≤ 948 / 1000
  B1 : 1 / 20 ≤ B
  B2 : B ≤ 53 / 1000
  AB : A + B ≤ 1001 / 1000
  C1 : 1 / 16 ≤ C
  C2 : C ≤ 1
  D1 : 1 / 25 ≤ D
  D2 : D ≤ 1
  S1 : 9047393 / 100000000 ≤ A * D + B
  S2 : A * D + B ≤ 1
  J2 : J ≤ 31308050 / 10000000000

theorem srgb_nums : ∃ G A B C D J, SrgbNums G A B C D J := by
  refine ⟨F64.ratOf (F64.ofRat (24 / 10)), F64.ratOf (F64.ofRat (1000 / 1055)), F64.ratOf (F64.ofRat (55 / 1055)),
    F64.ratOf (F64.ofRat (100 / 1292)), F64.ratOf (F64.ofRat (4045 / 100000)),
    F64.ratOf (F64.mul (F64.ofRat (4045 / 100000)) (F64.ofRat (100 / 1292))), ?_⟩
  constructor <;> decide +kernel

theorem SrgbNums.real {G A B C D J : ℚ} (h : SrgbNums G A B C D J) :
    ((2399 / 1000 : ℝ) ≤ G ∧ (G : ℝ) ≤ 12 / 5) ∧ ((947 / 1000 : ℝ) ≤ A ∧ (A : ℝ) ≤ 948 / 1000) ∧
    ((1 / 20 : ℝ) ≤ B ∧ (B : ℝ) ≤ 53 / 1000) ∧ ((A : ℝ) + B ≤ 1001 / 1000) ∧ ((1 / 16 : ℝ) ≤ C ∧ (C : ℝ) ≤ 1) ∧
    ((9047393 / 100000000 : ℝ) ≤ A * D + B ∧ (A : ℝ) * D + B ≤ 1) ∧ (J : ℝ) ≤ 31308050 / 10000000000 := by
  have up : ∀ {p q : ℚ}, p ≤ q → (p : ℝ) ≤ q := fun h => by exact_mod_cast h
  refine ⟨⟨?_, ?_⟩, ⟨?_, ?_⟩, ⟨?_, ?_⟩, ?_, ⟨?_, ?_⟩, ⟨?_, ?_⟩, ?_⟩
  · have := up h.G1; push_cast at this; exact this
  · have := up h.G2; push_cast at this; exact this
  · have := up h.A1; push_cast at this; exact this
  · have := up h.A2; push_cast at this; exact this
  · have := up h.B1; push_cast at this; exact this
  · have := up h.B2; push_cast at this; exact this
  · have := up h.AB; push_cast at this; exact this
  · have := up h.C1; push_cast at this; exact this
  · have := up h.C2; push_cast at this; exact this
  · have := up h.S1; push_cast at this; exact this
  · have := up h.S2; push_cast at this; exact this
  · have := up h.J2; push_cast at this; exact this

theorem srgb_pos : F64.lt (F64.ofRat 0) (F64.add (F64.mul (F64.ofRat (1000 / 1055)) (F64.ofRat (4045 / 100000)))
    (F64.ofRat (55 / 1055))) = true := by decide +kernel

theorem SrgbNums.piece {G A B C D J : ℚ} (h : SrgbNums G A B C D J) {x : F64} {X : ℚ} (hx : F64.val x = some X)
    (hX0 : 0 ≤ X) (hX1 : X ≤ 1) :
    PowerPiece (F64.ofRat (24 / 10)) (F64.ofRat (1000 / 1055)) (F64.ofRat (55 / 1055)) x G A B X := by
  obtain ⟨⟨rG1, rG2⟩, ⟨rA1, rA2⟩, ⟨rB1, rB2⟩, -⟩ := h.real
  have rX0 : (0 : ℝ) ≤ X := by exact_mod_cast hX0
  have rX1 : (X : ℝ) ≤ 1 := by exact_mod_cast hX1
  have s1 : (1 / 20 : ℝ) ≤ A * X + B := by nlinarith
  have s2 : (A : ℝ) * X + B ≤ 2 := by nlinarith
  refine ⟨h.vG, h.vA, h.vB, hx, by linarith [h.G1], by linarith [h.G2], by linarith [h.A1], by linarith [h.B1], hX0,
    ⟨?_, ?_⟩, ?_, ?_⟩
  · refine rLo_le (le_trans ?_ s1)
    norm_num
  · refine le_rHi (s2.trans ?_)
    norm_num
  · refine rLo_le ?_
    have e1 : ((1 / 20 : ℝ)) ^ (3 : ℝ) ≤ (1 / 20 : ℝ) ^ (G : ℝ) :=
      Real.rpow_le_rpow_of_exponent_ge (by norm_num) (by norm_num) (by linarith)
    have e2 : (1 / 20 : ℝ) ^ (G : ℝ) ≤ ((A : ℝ) * X + B) ^ (G : ℝ) :=
      Real.rpow_le_rpow (by norm_num) s1 (by linarith)
    have e3 : ((1 / 20 : ℝ)) ^ (3 : ℝ) = (1 / 20) ^ 3 := by exact_mod_cast Real.rpow_natCast (1 / 20 : ℝ) 3
    rw [e3] at e1
    refine le_trans ?_ (e1.trans e2)
    norm_num
  · refine le_rHi ?_
    have e1 : ((A : ℝ) * X + B) ^ (G : ℝ) ≤ 2 ^ (G : ℝ) := Real.rpow_le_rpow (by linarith) s2 (by linarith)
    have e2 : (2 : ℝ) ^ (G : ℝ) ≤ 2 ^ (3 : ℝ) := Real.rpow_le_rpow_of_exponent_le (by norm_num) (by linarith)
    have e3 : (2 : ℝ) ^ (3 : ℝ) = 2 ^ 3 := by exact_mod_cast Real.rpow_natCast (2 : ℝ) 3
    rw [e3] at e2
    refine (e1.trans e2).trans ?_
    norm_num

theorem SrgbNums.bound {G A B C D J : ℚ} (h : SrgbNums G A B C D J) :
    bound G (2 * uu) ≤ 112 / 10 * uu ∧ bound G (2 * uu) / G ≤ 47 / 10 * uu := by
  obtain ⟨⟨rG1, rG2⟩, -⟩ := h.real
  have hu := uu_pos
  have h1 : Props.bound G (2 * uu) ≤ 112 / 10 * uu := by
    unfold Props.bound
    rw [max_eq_left (by linarith)]
    nlinarith
  refine ⟨h1, ?_⟩
  rw [div_le_iff₀ (by linarith)]
  nlinarith

theorem abs_log_small {S : ℝ} (s1 : 1 / 20 ≤ S) (s2 : S ≤ 1001 / 1000) : |Real.log S| ≤ 31 / 10 := by
  have hl2 := Real.log_two_lt_d9
  rw [abs_le]
  constructor
  · have e1 := Real.log_le_log (by norm_num) s1
    have e2 : Real.log (1 / 20) = -(Real.log (2 ^ 4) + Real.log (5 / 4)) := by
      rw [← Real.log_mul (by norm_num) (by norm_num), ← Real.log_inv]
      norm_num
    rw [Real.log_pow] at e2
    have e3 := Real.log_le_sub_one_of_pos (show (0 : ℝ) < 5 / 4 by norm_num)
    push_cast at e2
    linarith
  · have := Real.log_le_sub_one_of_pos (show 0 < S by linarith)
    linarith

theorem SrgbNums.power {G A B C D J : ℚ} (n : SrgbNums G A B C D J) (l : Libm) (hl : AccuratePow l (2 * uu))
    (hm : MonoPow l) (r : F64) (R : ℚ) (hr : F64.val r = some R) (h1 : R ≤ 1) (hDR : D ≤ R) :
    ∃ y z Z, eval (F64.ops l) 4 srgb r = some y ∧ eval (F64.ops l) (-4) srgb y = some z ∧ F64.val z = some Z ∧
      |(Z : ℝ) - R| ≤ 100 * uu := by
  obtain ⟨⟨rG1, rG2⟩, ⟨rA1, rA2⟩, ⟨rB1, rB2⟩, rAB, -⟩ := n.real
  have hR0 : 0 ≤ R := by linarith [n.D1]
  have rR0 : (0 : ℝ) ≤ R := by exact_mod_cast hR0
  have rR1 : (R : ℝ) ≤ 1 := by exact_mod_cast h1
  have hu := uu_pos
  have hu' := uu_small
  obtain ⟨hb1, hb2⟩ := n.bound
  have s1 : (1 / 20 : ℝ) ≤ A * R + B := by nlinarith
  have s2 : (A : ℝ) * R + B ≤ 1001 / 1000 := by nlinarith
  have hlog := abs_log_small s1 s2
  have hroot : rootBound G (2 * uu) ((A : ℝ) * R + B) ≤ 41 * uu := by
    unfold rootBound
    have e1 : 6 * Props.bound G (2 * uu) / G = 6 * (Props.bound G (2 * uu) / G) := by ring
    rw [e1]
    have e2 : uu * |Real.log ((A : ℝ) * R + B)| ≤ uu * (31 / 10) := mul_le_mul_of_nonneg_left hlog hu.le
    linarith
  have hSA : ((A : ℝ) * R + B) / A ≤ 1058 / 1000 := by
    rw [div_le_iff₀ (by linarith)]
    linarith
  have hSA' : 1 / 20 ≤ ((A : ℝ) * R + B) / A := by
    rw [le_div_iff₀ (by linarith)]
    linarith
  obtain ⟨y, z, Z, hy, hz, hZ, he⟩ := C106_type4_power l (2 * uu) hl hm (by linarith) (by linarith)
    (F64.ofRat (24 / 10)) (F64.ofRat (1000 / 1055)) (F64.ofRat (55 / 1055)) (F64.ofRat (100 / 1292))
    (F64.ofRat (4045 / 100000)) r G A B D R (n.piece hr hR0 h1) n.vD hDR srgb_pos (by linarith [n.G1])
    (by linarith [n.A1]) ⟨rLo_le (le_trans (by norm_num) hSA'), le_rHi (hSA.trans (by norm_num))⟩
    (by rw [mul_div_assoc]; linarith) (by linarith)
  refine ⟨y, z, Z, hy, hz, hZ, he.trans ?_⟩
  have e2 : (2 * rootBound G (2 * uu) ((A : ℝ) * R + B) + 4 * uu) * (((A : ℝ) * R + B) / A) ≤
      86 * uu * (1058 / 1000) :=
    mul_le_mul (by linarith) hSA (by linarith) (by linarith)
  linarith

/-- The line stays below the power piece. -/
theorem SrgbNums.joint {G A B C D J : ℚ} (n : SrgbNums G A B C D J) (l : Libm) (hl : AccuratePow l (2 * uu))
    (r : F64) (R : ℚ) (hr : F64.val r = some R) (hRD : R < D) (y j : F64)
    (hy : eval (F64.ops l) 4 srgb r = some y)
    (hj : eval (F64.ops l) 4 srgb (F64.ofRat (4045 / 100000)) = some j) : F64.lt y j = true := by
  obtain ⟨⟨rG1, rG2⟩, -, -, -, -, ⟨rS1, rS2⟩, rJ⟩ := n.real
  have hu := uu_pos
  have hu' := uu_small
  obtain ⟨hb1, -⟩ := n.bound
  have hle : F64.le (F64.ofRat (4045 / 100000)) r = false := by
    by_contra hc
    have := (F64.le_val n.vD hr).mp (by simpa using hc)
    linarith
  have ey : y = F64.mul r (F64.ofRat (100 / 1292)) := by
    have : some (f4 (F64.ops l) (F64.ofRat (24 / 10)) (F64.ofRat (1000 / 1055)) (F64.ofRat (55 / 1055))
      (F64.ofRat (100 / 1292)) (F64.ofRat (4045 / 100000)) r) = some y := hy
    unfold f4 at this
    simp only [F64.ops, hle, Bool.false_eq_true, if_false] at this
    exact (Option.some.inj this).symm
  obtain ⟨-, -, W, hW, hWe⟩ := (n.piece n.vD (by linarith [n.D1]) n.D2).value hl (show 0 ≤ 2 * uu by linarith)
  have ej : j = l.powf (F64.add (F64.mul (F64.ofRat (1000 / 1055)) (F64.ofRat (4045 / 100000)))
      (F64.ofRat (55 / 1055))) (F64.ofRat (24 / 10)) := by
    have : some (f4 (F64.ops l) (F64.ofRat (24 / 10)) (F64.ofRat (1000 / 1055)) (F64.ofRat (55 / 1055))
      (F64.ofRat (100 / 1292)) (F64.ofRat (4045 / 100000)) (F64.ofRat (4045 / 100000))) = some j := hj
    have hdd : F64.le (F64.ofRat (4045 / 100000)) (F64.ofRat (4045 / 100000)) = true :=
      (F64.le_val n.vD n.vD).mpr (le_refl _)
    unfold f4 at this
    simp only [F64.ops, hdd, srgb_pos, if_true] at this
    exact (Option.some.inj this).symm
  rw [ey, ej]
  refine F64.lt_of_le_of_lt (F64.mul_mono hr n.vD n.vC hRD.le (by linarith [n.C1])) ((F64.lt_val n.vJ hW).mpr ?_)
  have hpow : (31308060 / 10000000000 : ℝ) ≤ ((A : ℝ) * D + B) ^ (G : ℝ) := by
    have e1 : ((A : ℝ) * D + B) ^ (12 / 5 : ℝ) ≤ ((A : ℝ) * D + B) ^ (G : ℝ) :=
      Real.rpow_le_rpow_of_exponent_ge (by linarith) rS2 rG2
    have e2 : (9047393 / 100000000 : ℝ) ^ (12 / 5 : ℝ) ≤ ((A : ℝ) * D + B) ^ (12 / 5 : ℝ) :=
      Real.rpow_le_rpow (by norm_num) rS1 (by norm_num)
    refine le_trans ?_ (e2.trans e1)
    have e3 : ((9047393 / 100000000 : ℝ) ^ (12 / 5 : ℝ)) ^ 5 = (9047393 / 100000000) ^ 12 := by
      rw [← Real.rpow_natCast, ← Real.rpow_mul (by norm_num),
        show (12 / 5 : ℝ) * ((5 : ℕ) : ℝ) = ((12 : ℕ) : ℝ) by norm_num, Real.rpow_natCast]
    refine le_of_pow_le_pow_left₀ (n := 5) (by norm_num) (Real.rpow_nonneg (by norm_num) _) ?_
    rw [e3]
    norm_num
  have h3 := (abs_le.mp hWe).1
  generalize ((A : ℝ) * D + B) ^ (G : ℝ) = V at h3 hpow
  have hu2 : uu ≤ 1 / 10 ^ 12 := by unfold uu; norm_num
  have h4 : Props.bound G (2 * uu) * V ≤ 1 / 10 ^ 10 * V :=
    mul_le_mul_of_nonneg_right (by linarith) (by linarith)
  have hlt : (J : ℝ) < W := by linarith
  exact_mod_cast hlt

/-- The sRGB curve and back, for zero and every number from 2^-1000 to 1: off by at most 100 * 2^-53. -/
theorem C106_srgb (l : Libm) (hl : AccuratePow l (2 * uu)) (hm : MonoPow l) (r : F64) (R : ℚ)
    (hr : F64.val r = some R) (h0 : R = 0 ∨ 1 / 2 ^ 1000 ≤ R) (h1 : R ≤ 1) :
    ∃ y z Z, eval (F64.ops l) 4 srgb r = some y ∧ eval (F64.ops l) (-4) srgb y = some z ∧ F64.val z = some Z ∧
      |(Z : ℝ) - R| ≤ 100 * uu := by
  obtain ⟨G, A, B, C, D, J, n⟩ := srgb_nums
  rcases le_or_gt D R with hDR | hDR
  · exact n.power l hl hm r R hr h1 hDR
  · obtain ⟨-, -, -, -, ⟨rC1, rC2⟩, -⟩ := n.real
    have hR0 : 0 ≤ R := by
      rcases h0 with rfl | h0
      · exact le_refl _
      · exact le_trans (by positivity) h0
    have rR0 : (0 : ℝ) ≤ R := by exact_mod_cast hR0
    have rR1 : (R : ℝ) ≤ 1 := by exact_mod_cast h1
    have hu := uu_pos
    obtain ⟨y, z, Z, hy, hz, hZ, he⟩ := C106_type4_line l (F64.ofRat (24 / 10)) (F64.ofRat (1000 / 1055))
      (F64.ofRat (55 / 1055)) (F64.ofRat (100 / 1292)) (F64.ofRat (4045 / 100000)) r C D R n.vC n.vD hr hDR
      (by linarith [n.C1]) srgb_pos (fun y j hy hj => n.joint l hl r R hr hDR y j hy hj)
      (by
        rcases h0 with h0 | h0
        · exact .inl h0
        · right
          have h2 : (1 : ℝ) / 2 ^ 1000 ≤ R := by
            have := (Rat.cast_le (K := ℝ)).mpr h0
            rwa [Rat.cast_div, Rat.cast_one, Rat.cast_pow, Rat.cast_ofNat] at this
          have h3 : rLo ≤ 1 / 2 ^ 1000 * (1 / 16) := by
            unfold rLo
            rw [div_mul_div_comm, one_mul, show (16 : ℝ) = 2 ^ 4 by norm_num, ← pow_add]
            exact one_div_le_one_div_of_le (by positivity) (pow_le_pow_right₀ (by norm_num) (by norm_num))
          have h4 : rLo ≤ (R : ℝ) * C := h3.trans (mul_le_mul h2 rC1 (by norm_num) rR0)
          have h5 : (R : ℝ) * C ≤ R := by nlinarith
          exact ⟨⟨h4.trans h5, le_rHi (rR1.trans (by norm_num))⟩, h4, le_rHi ((h5.trans rR1).trans (by norm_num))⟩)
    refine ⟨y, z, Z, hy, hz, hZ, he.trans ?_⟩
    nlinarith

/-- The round trip is not exact even on the straight piece: 1/49 times 49, in binary64, is not 1. -/
example : F64.val (F64.mul (F64.div (F64.ofRat 1) (F64.ofRat 49)) (F64.ofRat 49)) = some (1 - 1 / 2 ^ 53) := by
  decide +kernel

theorem abs_log_two : |Real.log 2| ≤ 1 := by
  rw [abs_of_nonneg (Real.log_nonneg (by norm_num))]
  have := Real.log_le_sub_one_of_pos (show (0 : ℝ) < 2 by norm_num)
  linarith

/-- Type 1: the square of 3 and its root. -/
example (l : Libm) (hl : AccuratePow l (2 * uu)) :
    ∃ y z Z, eval (F64.ops l) 1 [F64.ofRat 2] (F64.ofRat 3) = some y ∧ eval (F64.ops l) (-1) [F64.ofRat 2] y = some z ∧
      F64.val z = some Z ∧ |(Z : ℝ) - 3| ≤ 48 * uu := by
  have hu := uu_pos
  have hu' := uu_small
  have e : ((3 : ℚ) : ℝ) ^ ((2 : ℚ) : ℝ) = 9 := by
    rw [show ((2 : ℚ) : ℝ) = ((2 : ℕ) : ℝ) by norm_num, Real.rpow_natCast]
    norm_num
  obtain ⟨y, z, Z, h1, h2, h3, h4⟩ := C106_type1 l (2 * uu) hl (by linarith) (by linarith) (F64.ofRat 2) (F64.ofRat 3)
    2 3 val_two' (by decide +kernel) (by norm_num) (by norm_num) (by push_cast; linarith)
    (inRange_small (by norm_num) (by norm_num)) (by rw [e]; exact inRange_small (by norm_num) (by norm_num))
  refine ⟨y, z, Z, h1, h2, h3, ?_⟩
  push_cast at h4
  have hlog : |Real.log 3| ≤ 2 := by
    rw [abs_of_nonneg (Real.log_nonneg (by norm_num))]
    have := Real.log_le_sub_one_of_pos (show (0 : ℝ) < 3 by norm_num)
    linarith
  have : uu * |Real.log 3| ≤ uu * 2 := mul_le_mul_of_nonneg_left hlog hu.le
  linarith

/-- The square of 1/2 and its root. -/
example (l : Libm) (hl : AccuratePow l (2 * uu)) :
    ∃ y z Z, eval (F64.ops l) 1 [F64.ofRat 2] (F64.ofRat (1 / 2)) = some y ∧
      eval (F64.ops l) (-1) [F64.ofRat 2] y = some z ∧ F64.val z = some Z ∧ |(Z : ℝ) - 1 / 2| ≤ 14 * uu := by
  have hu := uu_pos
  have hu' := uu_small
  have e : ((1 / 2 : ℚ) : ℝ) ^ ((2 : ℚ) : ℝ) = 1 / 4 := by
    rw [show ((2 : ℚ) : ℝ) = ((2 : ℕ) : ℝ) by norm_num, Real.rpow_natCast]
    norm_num
  obtain ⟨y, z, Z, h1, h2, h3, h4⟩ := C106_type1_unit l (2 * uu) hl (by linarith) (by linarith) (F64.ofRat 2)
    (F64.ofRat (1 / 2)) 2 (1 / 2) val_two' (by decide +kernel) (by norm_num) (by norm_num) (by push_cast; linarith)
    (inRange_small (by norm_num) (by norm_num)) (by norm_num)
    (by rw [e]; exact inRange_small (by norm_num) (by norm_num))
  refine ⟨y, z, Z, h1, h2, h3, ?_⟩
  push_cast at h4
  linarith

/-- Type 4: `(x + 1)^2` at the joint 1 and back. -/
example (l : Libm) (hl : AccuratePow l (2 * uu)) (hm : MonoPow l) :
    ∃ y z Z, eval (F64.ops l) 4 [F64.ofRat 2, F64.ofRat 1, F64.ofRat 1, F64.ofRat 3, F64.ofRat 1] (F64.ofRat 1) = some y ∧
      eval (F64.ops l) (-4) [F64.ofRat 2, F64.ofRat 1, F64.ofRat 1, F64.ofRat 3, F64.ofRat 1] y = some z ∧
      F64.val z = some Z ∧ |(Z : ℝ) - 1| ≤ 160 * uu := by
  have hu := uu_pos
  have hu' := uu_small
  have hlog : uu * |Real.log 2| ≤ uu * 1 := mul_le_mul_of_nonneg_left abs_log_two hu.le
  have hr : rootBound 2 (2 * uu) 2 ≤ 38 * uu := by
    unfold rootBound
    rw [one_bound]
    push_cast
    linarith
  obtain ⟨y, z, Z, h1, h2, h3, h4⟩ := C106_type4_power l (2 * uu) hl hm (by linarith) (by linarith) _ _ _ (F64.ofRat 3)
    (F64.ofRat 1) _ 2 1 1 1 1 one_piece val_one1 (le_refl _) (by decide +kernel) (by norm_num) (by norm_num)
    (by rw [one_base]; exact inRange_small (by norm_num) (by norm_num)) (by rw [one_bound]; push_cast; linarith)
    (by rw [one_base]; linarith)
  refine ⟨y, z, Z, h1, h2, h3, ?_⟩
  rw [one_base] at h4
  push_cast at h4
  linarith

end Lcms.Props
