import Verif.Props.CurvesBackMore
import Verif.Props.CurveValues

/-! # Property C112: the inverse curves in binary64 are close to the exact ones -/

namespace Lcms.Props

open Lcms.Spec Lcms.Curves

/-- The error of a root of a number that is itself within `κ`. -/
theorem rootErr_small {κ ε S : ℝ} {G : ℚ} (hκ : 0 ≤ κ) (hκ' : κ ≤ 4 * uu) (hG : 1 / 1000 ≤ (G : ℝ)) (hε' : ε ≤ 1 / 8)
    (hS : InRange S) : rootErr κ G ε S ≤ 1 / 2 ∧ 3 * κ / G ≤ 1 / 5 ∧ κ ≤ 1 / 2 := by
  have hu := uu_pos
  have hu2 : uu ≤ 1 / 10 ^ 12 := by
    unfold uu
    norm_num
  have hl := abs_log_le hS
  have hG0 : (0 : ℝ) < G := by linarith
  have h1 : κ / G ≤ 4000 * uu := by
    rw [div_le_iff₀ hG0]
    nlinarith
  have h2 : uu * |Real.log S| ≤ uu * 1022 := mul_le_mul_of_nonneg_left hl hu.le
  refine ⟨?_, ?_, by linarith⟩
  · unfold rootErr
    have : 6 * κ / G = 6 * (κ / G) := by ring
    rw [this]
    linarith
  · have : 3 * κ / G = 3 * (κ / G) := by ring
    rw [this]
    linarith

/-- Subtracting `b`, of either sign, and dividing by `a`. -/
theorem affine_back' {p a b : F64} {P A B : ℚ} {S ρ : ℝ} (hp : F64.val p = some P) (ha : F64.val a = some A)
    (hb : F64.val b = some B) (hA : 0 < A) (hS0 : 0 < S)
    (hSr : InRange (S + |(B : ℝ)|)) (hSA : InRange ((S + |(B : ℝ)|) / A)) (hρ : 0 ≤ ρ) (hρ' : ρ ≤ 1 / 2)
    (he : |(P : ℝ) - S| ≤ ρ * S) :
    ∃ Z : ℚ, F64.val (F64.div (F64.sub p b) a) = some Z ∧
      |(Z : ℝ) - (S - B) / A| ≤ (2 * ρ + 4 * uu) * ((S + |(B : ℝ)|) / A) := by
  have hu := uu_pos
  have hu' := uu_small
  have h0 := rLo_pos
  have hA' : (0 : ℝ) < A := by exact_mod_cast hA
  set T := S + |(B : ℝ)| with hT
  have hB0 := abs_nonneg (B : ℝ)
  have hB1 := le_abs_self (B : ℝ)
  have hB2 := neg_abs_le (B : ℝ)
  have hT0 : 0 < T := by linarith
  have hP := abs_le.mp he
  have hρS : ρ * S ≤ ρ * T := mul_le_mul_of_nonneg_left (by linarith) hρ
  have hd : (((P - B : ℚ)) : ℝ) = P - B := Rat.cast_sub _ _
  have hdabs : |(P : ℝ) - B| ≤ (1 + ρ) * T := by
    rw [abs_le]
    constructor <;> nlinarith
  obtain ⟨V, hV, hVe⟩ := rd_step ((C104_operations p b P B hp hb).2.1) (by
    rw [hd]
    refine hdabs.trans ?_
    have := hSr.2
    nlinarith)
  rw [hd] at hVe
  have hV1 : |(V : ℝ) - (P - B)| ≤ 3 / 2 * T * uu := by
    rcases hVe with h | h
    · refine h.trans (mul_le_mul_of_nonneg_right (hdabs.trans ?_) hu.le)
      nlinarith
    · refine h.trans ?_
      have := hSr.1
      nlinarith
  have hV2 : |(V : ℝ) - (S - B)| ≤ (ρ + 3 / 2 * uu) * T := by
    have e1 : |(V : ℝ) - (S - B)| ≤ |(V : ℝ) - (P - B)| + |((P : ℝ) - B) - (S - B)| := abs_sub_le _ _ _
    have e2 : ((P : ℝ) - B) - (S - B) = P - S := by ring
    rw [e2] at e1
    linarith
  have hV3 := abs_le.mp hV2
  have hVabs : |(V : ℝ)| ≤ 2 * T := by
    have : (ρ + 3 / 2 * uu) * T ≤ T * (3 / 4) := by nlinarith
    rw [abs_le]
    constructor <;> linarith
  have hq : (((V / A : ℚ)) : ℝ) = V / A := Rat.cast_div _ _
  have hqabs : |(V : ℝ) / A| ≤ 2 * (T / A) := by
    rw [abs_div, abs_of_pos hA', div_le_iff₀ hA', mul_assoc, div_mul_cancel₀ _ hA'.ne']
    exact hVabs
  obtain ⟨Z, hZ, hZe⟩ := rd_step ((C104_operations (F64.sub p b) a V A hV ha).2.2.2 hA.ne') (by
    rw [hq]
    refine hqabs.trans ?_
    have := hSA.2
    linarith)
  rw [hq] at hZe
  have hSA0 : 0 < T / A := div_pos hT0 hA'
  have hZ1 : |(Z : ℝ) - V / A| ≤ 2 * uu * (T / A) := by
    rcases hZe with h | h
    · refine h.trans ((mul_le_mul_of_nonneg_right hqabs hu.le).trans ?_)
      linarith
    · refine h.trans ?_
      have := hSA.1
      nlinarith
  have hZ2 : |(V : ℝ) / A - (S - B) / A| ≤ (ρ + 3 / 2 * uu) * (T / A) := by
    rw [← sub_div, abs_div, abs_of_pos hA', ← mul_div_assoc]
    exact div_le_div_of_nonneg_right hV2 hA'.le
  refine ⟨Z, hZ, ?_⟩
  have e1 : |(Z : ℝ) - (S - B) / A| ≤ |(Z : ℝ) - V / A| + |(V : ℝ) / A - (S - B) / A| := abs_sub_le _ _ _
  nlinarith

/-- The hypotheses common to the inverse curves, for the root `S`. -/
structure RootPiece (g a b : F64) (G A B : ℚ) (S : ℝ) : Prop where
  hg : F64.val g = some G
  ha : F64.val a = some A
  hb : F64.val b = some B
  hG : 1 / 1000 ≤ G
  hG' : G ≤ 1024
  hA : 1 / 1000 ≤ A
  root : InRange S
  sum : S + |(B : ℝ)| ≤ rHi
  quot : InRange ((S + |(B : ℝ)|) / A)

/-- The error of an inverse curve, for the root `S` of a number known to within `κ`. -/
noncomputable def backErr (κ : ℝ) (G A B : ℚ) (ε S : ℝ) : ℝ :=
  (4 * uu * |Real.log S| + 12 * κ / G + 6 * ε + 4 * uu) * ((S + |(B : ℝ)|) / A)

theorem RootPiece.value {l : Libm} {ε κ : ℝ} (hl : AccuratePow l ε) (hε : 0 ≤ ε) (hε' : ε ≤ 1 / 8)
    {g a b v : F64} {G A B V : ℚ} {S : ℝ} (h : RootPiece g a b G A B S) (hκ : 0 ≤ κ) (hκ' : κ ≤ 4 * uu)
    (hv : F64.val v = some V) (hV : |(V : ℝ) - S ^ (G : ℝ)| ≤ κ * S ^ (G : ℝ)) :
    ∃ Z : ℚ, F64.val (F64.div (F64.sub (l.powf v (F64.div (F64.ofRat 1) g)) b) a) = some Z ∧
      |(Z : ℝ) - (S - B) / A| ≤ backErr κ G A B ε S := by
  have hG1 : (1 / 1000 : ℝ) ≤ G := by
    have := (Rat.cast_le (K := ℝ)).mpr h.hG
    push_cast at this
    exact this
  have hG2 : (G : ℝ) ≤ 1024 := by exact_mod_cast h.hG'
  obtain ⟨r1, r2, r3⟩ := rootErr_small hκ hκ' hG1 hε' h.root
  have hS0 : 0 < S := lt_of_lt_of_le rLo_pos h.root.1
  obtain ⟨P, hP, hPe⟩ := inv_pow_acc hl hε hv h.hg hG1 hG2 h.root hκ r3 r2 hV
  have hGq : 0 < G := by have := h.hG; linarith
  obtain ⟨Z, hZ, hZe⟩ := affine_back' hP h.ha h.hb (by have := h.hA; linarith) hS0
    ⟨by have := h.root.1; have := abs_nonneg (B : ℝ); linarith, h.sum⟩ h.quot (rootErr_nonneg hκ hGq hε) r1 hPe
  refine ⟨Z, hZ, hZe.trans (le_of_eq ?_)⟩
  unfold rootErr backErr
  ring

/-- The difference of two numbers, where it is not too small. -/
theorem sub_acc {y c : F64} {Y C : ℚ} (hy : F64.val y = some Y) (hc : F64.val c = some C)
    (h : InRange ((Y : ℝ) - C)) :
    ∃ V : ℚ, F64.val (F64.sub y c) = some V ∧ |(V : ℝ) - (Y - C)| ≤ uu * (Y - C) := by
  have h0 := rLo_pos
  have h1 := h.1
  have h2 := h.2
  have h3 := rHi_pos
  obtain ⟨V, hV, he⟩ := rd_rel ((C104_operations y c Y C hy hc).2.1) (by rw [Rat.cast_sub]; linarith)
    (by rw [Rat.cast_sub]; linarith)
  rw [Rat.cast_sub] at he
  exact ⟨V, hV, by linarith⟩

theorem root_pow {Y : ℝ} {G : ℝ} (hY : 0 ≤ Y) (hG : G ≠ 0) : (Y ^ (1 / G)) ^ G = Y := by
  rw [← Real.rpow_mul hY, one_div_mul_cancel hG, Real.rpow_one]

theorem not_lt_zero {y : F64} {Y : ℚ} (hy : F64.val y = some Y) (h : (0 : ℝ) ≤ Y) :
    F64.lt y (F64.ofRat 0) = false := by
  by_contra hc
  have h3 := (F64.lt_val hy val_ofRat0).mp (by simpa using hc)
  have h4 : (Y : ℝ) < 0 := by exact_mod_cast h3
  linarith

theorem not_tiny_real {x : ℚ} (h : 1 / 1000 ≤ x) : ¬ Tiny (x : ℝ) := by
  have : (1 / 1000 : ℝ) ≤ x := by
    have := (Rat.cast_le (K := ℝ)).mpr h
    push_cast at this
    exact this
  unfold Tiny
  rw [abs_of_pos (by linarith)]
  linarith

/-- **C112**, type -1. -/
theorem C112_type1 (l : Libm) (ε : ℝ) (hl : AccuratePow l ε) (hε : 0 ≤ ε) (g y : F64) (G Y : ℚ)
    (hg : F64.val g = some G) (hy : F64.val y = some Y) (hG : 1 / 1000 ≤ G) (hG' : G ≤ 1024) (hY : 0 < Y)
    (hS : InRange ((Y : ℝ) ^ (1 / (G : ℝ)))) :
    ∃ z Z, eval (F64.ops l) (-1) [g] y = some z ∧ F64.val z = some Z ∧
      let S := Value (-1) [(G : ℝ)] Y
      |(Z : ℝ) - S| ≤ (2 * uu * |Real.log S| + 3 * ε) * S := by
  have hY' : (0 : ℝ) < Y := by exact_mod_cast hY
  have hG1 : (1 / 1000 : ℝ) ≤ G := by
    have := (Rat.cast_le (K := ℝ)).mpr hG
    push_cast at this
    exact this
  have hG2 : (G : ℝ) ≤ 1024 := by exact_mod_cast hG'
  have hv : Value (-1) [(G : ℝ)] Y = (Y : ℝ) ^ (1 / (G : ℝ)) := by
    show (if (0 : ℝ) ≤ Y then (if Tiny (G : ℝ) then (10 : ℝ) ^ 22 else _) else _) = _
    rw [if_pos hY'.le, if_neg (not_tiny_real hG)]
  have hroot := root_pow (G := G) hY'.le (by linarith)
  obtain ⟨P, hP, hPe⟩ := inv_pow_acc (κ := 0) hl hε hy hg hG1 hG2 hS (le_refl _) (by norm_num) (by norm_num)
    (by rw [hroot]; simp)
  refine ⟨_, P, ?_, hP, ?_⟩
  · show some (g1 (F64.ops l) g y) = _
    unfold g1
    simp only [not_tiny64 l hg hG, Bool.false_eq_true, if_false]
    simp only [F64.ops, not_lt_zero hy hY'.le, Bool.false_eq_true, if_false]
  · intro S
    have : S = (Y : ℝ) ^ (1 / (G : ℝ)) := hv
    rw [← this] at hPe
    simpa using hPe

/-- **C112**, type -2. -/
theorem C112_type2 (l : Libm) (ε : ℝ) (hl : AccuratePow l ε) (hε : 0 ≤ ε) (hε' : ε ≤ 1 / 8) (g a b y : F64)
    (G A B Y : ℚ) (hy : F64.val y = some Y) (hY : 0 < Y) (h : RootPiece g a b G A B ((Y : ℝ) ^ (1 / (G : ℝ)))) :
    ∃ z Z, eval (F64.ops l) (-2) [g, a, b] y = some z ∧ F64.val z = some Z ∧
      |(Z : ℝ) - Value (-2) [(G : ℝ), (A : ℝ), (B : ℝ)] Y| ≤ backErr 0 G A B ε ((Y : ℝ) ^ (1 / (G : ℝ))) := by
  have hY' : (0 : ℝ) < Y := by exact_mod_cast hY
  have hG0 : (G : ℝ) ≠ 0 := by
    have : G ≠ 0 := by have := h.hG; intro h0; rw [h0] at this; norm_num at this
    exact_mod_cast this
  have hv : Value (-2) [(G : ℝ), (A : ℝ), (B : ℝ)] Y = max 0 (((Y : ℝ) ^ (1 / (G : ℝ)) - B) / A) := by
    show (if Tiny (G : ℝ) ∨ Tiny (A : ℝ) ∨ (Y : ℝ) < 0 then (0 : ℝ) else _) = _
    rw [if_neg]
    rintro (h1 | h1 | h1)
    · exact not_tiny_real h.hG h1
    · exact not_tiny_real h.hA h1
    · linarith
  have hroot := root_pow (G := G) hY'.le hG0
  obtain ⟨V, hV, hVe⟩ := h.value (κ := 0) hl hε hε' (le_refl _) (by have := uu_pos; linarith) hy (by rw [hroot]; simp)
  have hz : eval (F64.ops l) (-2) [g, a, b] y =
      some (if F64.lt (F64.div (F64.sub (l.powf y (F64.div (F64.ofRat 1) g)) b) a) (F64.ofRat 0) = true
        then F64.ofRat 0 else F64.div (F64.sub (l.powf y (F64.div (F64.ofRat 1) g)) b) a) := by
    show some (g2 (F64.ops l) g a b y) = _
    unfold g2
    simp only [not_tiny64 l h.hg h.hG, not_tiny64 l h.ha h.hA, Bool.or_false, Bool.false_eq_true, if_false]
    simp only [F64.ops, not_lt_zero hy hY'.le, Bool.false_eq_true, if_false]
  have hval : F64.val (if F64.lt (F64.div (F64.sub (l.powf y (F64.div (F64.ofRat 1) g)) b) a) (F64.ofRat 0) = true
        then F64.ofRat 0 else F64.div (F64.sub (l.powf y (F64.div (F64.ofRat 1) g)) b) a) = some (max 0 V) := by
    by_cases hc : F64.lt (F64.div (F64.sub (l.powf y (F64.div (F64.ofRat 1) g)) b) a) (F64.ofRat 0) = true
    · rw [if_pos hc, val_ofRat0, max_eq_left ((F64.lt_val hV val_ofRat0).mp hc).le]
    · rw [if_neg hc, hV, max_eq_right]
      by_contra hn
      exact hc ((F64.lt_val hV val_ofRat0).mpr (not_le.mp hn))
  refine ⟨_, _, hz, hval, ?_⟩
  rw [hv, Rat.cast_max, Rat.cast_zero]
  exact (abs_max_sub_max_le_max _ _ _ _).trans (by rw [sub_self, abs_zero]; exact max_le ((abs_nonneg _).trans hVe) hVe)

/-- The shifted argument of types -3, -5 and -6. -/
theorem RootPiece.shifted {l : Libm} {ε : ℝ} (hl : AccuratePow l ε) (hε : 0 ≤ ε) (hε' : ε ≤ 1 / 8)
    {g a b c y : F64} {G A B C Y : ℚ} (hy : F64.val y = some Y) (hc : F64.val c = some C)
    (hd : InRange ((Y : ℝ) - C)) (h : RootPiece g a b G A B (((Y : ℝ) - C) ^ (1 / (G : ℝ)))) :
    (∃ V : ℚ, F64.val (F64.sub y c) = some V ∧ 0 < V) ∧
    ∃ Z : ℚ, F64.val (F64.div (F64.sub (l.powf (F64.sub y c) (F64.div (F64.ofRat 1) g)) b) a) = some Z ∧
      |(Z : ℝ) - (((Y : ℝ) - C) ^ (1 / (G : ℝ)) - B) / A| ≤ backErr uu G A B ε (((Y : ℝ) - C) ^ (1 / (G : ℝ))) := by
  have hu := uu_pos
  have hu' := uu_small
  have hpos : (0 : ℝ) < (Y : ℝ) - C := lt_of_lt_of_le rLo_pos hd.1
  have hG0 : (G : ℝ) ≠ 0 := by
    have : G ≠ 0 := by have := h.hG; intro h0; rw [h0] at this; norm_num at this
    exact_mod_cast this
  obtain ⟨V, hV, hVe⟩ := sub_acc hy hc hd
  refine ⟨⟨V, hV, ?_⟩, h.value hl hε hε' hu.le (by linarith) hV (by rw [root_pow hpos.le hG0]; exact hVe)⟩
  have h1 := abs_le.mp hVe
  have : (0 : ℝ) < V := by nlinarith
  exact_mod_cast this

theorem pos_of_val {x : F64} {X : ℚ} (hx : F64.val x = some X) (h : 0 < X) : F64.lt (F64.ofRat 0) x = true :=
  (F64.lt_val val_ofRat0 hx).mpr h

/-- **C112**, type -3, above `c`. -/
theorem C112_type3 (l : Libm) (ε : ℝ) (hl : AccuratePow l ε) (hε : 0 ≤ ε) (hε' : ε ≤ 1 / 8) (g a b c y : F64)
    (G A B C Y : ℚ) (hy : F64.val y = some Y) (hc : F64.val c = some C) (hd : InRange ((Y : ℝ) - C))
    (h : RootPiece g a b G A B (((Y : ℝ) - C) ^ (1 / (G : ℝ)))) :
    ∃ z Z, eval (F64.ops l) (-3) [g, a, b, c] y = some z ∧ F64.val z = some Z ∧
      |(Z : ℝ) - Value (-3) [(G : ℝ), (A : ℝ), (B : ℝ), (C : ℝ)] Y| ≤
        backErr uu G A B ε (((Y : ℝ) - C) ^ (1 / (G : ℝ))) := by
  have hpos : (0 : ℝ) < (Y : ℝ) - C := lt_of_lt_of_le rLo_pos hd.1
  obtain ⟨⟨V, hV, hV0⟩, Z, hZ, hZe⟩ := h.shifted hl hε hε' hy hc hd
  refine ⟨_, Z, ?_, hZ, ?_⟩
  · have hle : F64.le c y = true := (F64.le_val hc hy).mpr (by
      have : (C : ℝ) ≤ Y := by linarith
      exact_mod_cast this)
    show some (g3 (F64.ops l) g a b c y) = _
    unfold g3
    simp only [not_tiny64 l h.ha h.hA, Bool.false_eq_true, if_false]
    simp only [F64.ops, hle, pos_of_val hV hV0, if_true]
  · have hv : Value (-3) [(G : ℝ), (A : ℝ), (B : ℝ), (C : ℝ)] Y = (((Y : ℝ) - C) ^ (1 / (G : ℝ)) - B) / A := by
      show (if Tiny (A : ℝ) ∨ (Y : ℝ) = C then (0 : ℝ) else if (Y : ℝ) < C then _ else _) = _
      rw [if_neg, if_neg (by linarith)]
      rintro (h1 | h1)
      · exact not_tiny_real h.hA h1
      · linarith
    rw [hv]
    exact hZe

/-- **C112**, type -6, above `c`. -/
theorem C112_type6 (l : Libm) (ε : ℝ) (hl : AccuratePow l ε) (hε : 0 ≤ ε) (hε' : ε ≤ 1 / 8) (g a b c y : F64)
    (G A B C Y : ℚ) (hy : F64.val y = some Y) (hc : F64.val c = some C) (hd : InRange ((Y : ℝ) - C))
    (h : RootPiece g a b G A B (((Y : ℝ) - C) ^ (1 / (G : ℝ)))) :
    ∃ z Z, eval (F64.ops l) (-6) [g, a, b, c] y = some z ∧ F64.val z = some Z ∧
      |(Z : ℝ) - Value (-6) [(G : ℝ), (A : ℝ), (B : ℝ), (C : ℝ)] Y| ≤
        backErr uu G A B ε (((Y : ℝ) - C) ^ (1 / (G : ℝ))) := by
  have hpos : (0 : ℝ) < (Y : ℝ) - C := lt_of_lt_of_le rLo_pos hd.1
  obtain ⟨⟨V, hV, hV0⟩, Z, hZ, hZe⟩ := h.shifted hl hε hε' hy hc hd
  refine ⟨_, Z, ?_, hZ, ?_⟩
  · show some (g6 (F64.ops l) g a b c y) = _
    unfold g6
    simp only [not_tiny64 l h.ha h.hA, Bool.false_eq_true, if_false]
    simp only [F64.ops, not_lt_zero hV (by exact_mod_cast hV0.le), Bool.false_eq_true, if_false]
  · have hv : Value (-6) [(G : ℝ), (A : ℝ), (B : ℝ), (C : ℝ)] Y = (((Y : ℝ) - C) ^ (1 / (G : ℝ)) - B) / A := by
      show (if Tiny (A : ℝ) ∨ (Y : ℝ) < C then (0 : ℝ) else _) = _
      rw [if_neg]
      rintro (h1 | h1)
      · exact not_tiny_real h.hA h1
      · linarith
    rw [hv]
    exact hZe

/-- A rounded result, near zero or not. -/
theorem rd_both {z : F64} {q : ℚ} (h : Correct z q) (hb : |(q : ℝ)| ≤ 2 * rHi) :
    ∃ v : ℚ, F64.val z = some v ∧ |(v : ℝ) - q| ≤ uu * |(q : ℝ)| + rLo * uu := by
  have hu := uu_pos
  have h0 := rLo_pos
  obtain ⟨v, hv, he⟩ := rd_step h hb
  refine ⟨v, hv, ?_⟩
  have : 0 ≤ |(q : ℝ)| * uu := mul_nonneg (abs_nonneg _) hu.le
  have : 0 ≤ rLo * uu := mul_nonneg h0.le hu.le
  rcases he with he | he <;> linarith

/-- **C112**, type -4: on either side of the joint, at a distance that accounts for the error of the joint as the
program computes it. -/
theorem C112_type4 (l : Libm) (ε : ℝ) (hl : AccuratePow l ε) (hε : 0 ≤ ε) (hε' : ε ≤ 1 / 8) (g a b c d y : F64)
    (G A B C D Y : ℚ) (hy : F64.val y = some Y) (j : PowerPiece g a b d G A B D) :
    let J := ((A : ℝ) * D + B) ^ (G : ℝ)
    ((1 + bound G ε) * J ≤ Y → RootPiece g a b G A B ((Y : ℝ) ^ (1 / (G : ℝ))) →
      ∃ z Z, eval (F64.ops l) (-4) [g, a, b, c, d] y = some z ∧ F64.val z = some Z ∧
        |(Z : ℝ) - Value (-4) [(G : ℝ), (A : ℝ), (B : ℝ), (C : ℝ), (D : ℝ)] Y| ≤
          backErr 0 G A B ε ((Y : ℝ) ^ (1 / (G : ℝ)))) ∧
    ((Y : ℝ) < (1 - bound G ε) * J → F64.val c = some C → 1 / 1000 ≤ C → |(Y : ℝ) / C| ≤ rHi →
      ∃ z Z, eval (F64.ops l) (-4) [g, a, b, c, d] y = some z ∧ F64.val z = some Z ∧
        |(Z : ℝ) - Value (-4) [(G : ℝ), (A : ℝ), (B : ℝ), (C : ℝ), (D : ℝ)] Y| ≤
          uu * |Value (-4) [(G : ℝ), (A : ℝ), (B : ℝ), (C : ℝ), (D : ℝ)] Y| + rLo * uu) := by
  intro J
  obtain ⟨-, hn, P, hP, hPe⟩ := j.value hl hε
  have hJ : 0 < J := Real.rpow_pos_of_pos j.pos _
  have hb := bound_nonneg (G := G) hε
  have hb' := bound_small j.hG' hε'
  have hPe' := abs_le.mp hPe
  have hbJ : 0 ≤ bound G ε * J := by positivity
  constructor
  · intro hYJ h
    have hY' : (0 : ℝ) < Y := by linarith
    have hG0 : (G : ℝ) ≠ 0 := by
      have : G ≠ 0 := j.hG.ne'
      exact_mod_cast this
    have hroot := root_pow (G := G) hY'.le hG0
    obtain ⟨V, hV, hVe⟩ := h.value (κ := 0) hl hε hε' (le_refl _) (by have := uu_pos; linarith) hy (by rw [hroot]; simp)
    have hle : F64.le (l.powf (F64.add (F64.mul a d) b) g) y = true := (F64.le_val hP hy).mpr (by
      have : (P : ℝ) ≤ Y := by linarith
      exact_mod_cast this)
    refine ⟨_, V, ?_, hV, ?_⟩
    · show some (g4 (F64.ops l) g a b c d y) = _
      unfold g4
      simp only [not_tiny64 l h.hg h.hG, not_tiny64 l h.ha h.hA, Bool.or_false, Bool.false_eq_true, if_false]
      simp only [F64.ops, hn, hle, Bool.false_eq_true, if_false, if_true]
    · have hv : Value (-4) [(G : ℝ), (A : ℝ), (B : ℝ), (C : ℝ), (D : ℝ)] Y =
          ((Y : ℝ) ^ (1 / (G : ℝ)) - B) / A := by
        show (if _ then _ else if Tiny (G : ℝ) ∨ Tiny (A : ℝ) then (0 : ℝ) else _) = _
        rw [if_neg, if_neg]
        · rintro (h1 | h1)
          · exact not_tiny_real h.hG h1
          · exact not_tiny_real h.hA h1
        · have := j.pos
          rintro (⟨h1, -⟩ | ⟨h1, -⟩ | ⟨-, h1⟩)
          · linarith
          · linarith
          · linarith [show (Y : ℝ) < J from h1]
      rw [hv]
      exact hVe
  · intro hYJ hc hC hr
    have hC1 : (1 / 1000 : ℝ) ≤ C := by
      have := (Rat.cast_le (K := ℝ)).mpr hC
      push_cast at this
      exact this
    have hC0 : C ≠ 0 := by intro h0; rw [h0] at hC; norm_num at hC
    have hle : F64.le (l.powf (F64.add (F64.mul a d) b) g) y = false := by
      by_contra hcon
      have h1 := (F64.le_val hP hy).mp (by simpa using hcon)
      have : (P : ℝ) ≤ Y := by exact_mod_cast h1
      linarith
    have hq : (((Y / C : ℚ)) : ℝ) = Y / C := Rat.cast_div _ _
    obtain ⟨Z, hZ, hZe⟩ := rd_both ((C104_operations y c Y C hy hc).2.2.2 hC0) (by
      rw [hq]; have := rHi_pos; linarith)
    rw [hq] at hZe
    have hv : Value (-4) [(G : ℝ), (A : ℝ), (B : ℝ), (C : ℝ), (D : ℝ)] Y = Y / C := by
      show (if _ then (if Tiny (C : ℝ) then (0 : ℝ) else _) else _) = _
      rw [if_pos, if_neg (not_tiny_real hC)]
      exact .inr (.inr ⟨j.pos.le, by show (Y : ℝ) < J; linarith⟩)
    refine ⟨_, Z, ?_, hZ, by rw [hv]; exact hZe⟩
    show some (g4 (F64.ops l) g a b c d y) = _
    unfold g4
    simp only [not_tiny64 l hc hC, Bool.false_eq_true, if_false]
    simp only [F64.ops, hn, hle, Bool.false_eq_true, if_false]

/-- The error of a quotient whose numerator is slightly wrong. -/
theorem line_err {v w c u η : ℝ} (hc : 1 / 1000 ≤ c) (hu' : u ≤ 1 / 2) (hη : 0 ≤ η)
    (h : |v - w| ≤ u * |w| + η) :
    |v / c - w / c| ≤ u * (|w| / c) + 1000 * η ∧ |v / c| ≤ 3 / 2 * (|w| / c) + 1000 * η := by
  have hcp : 0 < c := by linarith
  have hw : 0 ≤ |w| / c := div_nonneg (abs_nonneg _) hcp.le
  have h1 : |v / c - w / c| ≤ u * (|w| / c) + 1000 * η := by
    rw [← sub_div, abs_div, abs_of_pos hcp]
    have h1 : |v - w| / c ≤ (u * |w| + η) / c := div_le_div_of_nonneg_right h hcp.le
    have h2 : η / c ≤ 1000 * η := by
      rw [div_le_iff₀ hcp]
      nlinarith
    rw [add_div, mul_div_assoc] at h1
    linarith
  refine ⟨h1, ?_⟩
  have h2 := abs_add_le (v / c - w / c) (w / c)
  rw [sub_add_cancel, abs_div w, abs_of_pos hcp] at h2
  nlinarith

theorem rLo_uu_le : rLo * uu ≤ 1 := by
  have h1 : rLo ≤ 1 := rLo_le (by norm_num)
  have h2 := uu_small
  have h3 := uu_pos
  have h4 := rLo_pos
  generalize rLo = r at *
  generalize uu = u at *
  nlinarith

theorem rHi_big : (2 : ℝ) ^ 20 ≤ rHi := pow_le_pow_right₀ (by norm_num) (by norm_num)

/-- **C112**, type -5, likewise. -/
theorem C112_type5 (l : Libm) (ε : ℝ) (hl : AccuratePow l ε) (hε : 0 ≤ ε) (hε' : ε ≤ 1 / 8) (g a b c d e f y : F64)
    (G A B C D E F Y : ℚ) (hy : F64.val y = some Y) (hc : F64.val c = some C) (hd : F64.val d = some D)
    (hf : F64.val f = some F) (hC : 1 / 1000 ≤ C) (hD : 0 ≤ D) (hF : 0 ≤ F) (hJ : InRange ((C : ℝ) * D + F)) :
    let J := (C : ℝ) * D + F
    ((1 + uu) ^ 2 * J ≤ Y → F64.val e = some E → InRange ((Y : ℝ) - E) →
      RootPiece g a b G A B (((Y : ℝ) - E) ^ (1 / (G : ℝ))) →
      ∃ z Z, eval (F64.ops l) (-5) [g, a, b, c, d, e, f] y = some z ∧ F64.val z = some Z ∧
        |(Z : ℝ) - Value (-5) [(G : ℝ), (A : ℝ), (B : ℝ), (C : ℝ), (D : ℝ), (E : ℝ), (F : ℝ)] Y| ≤
          backErr uu G A B ε (((Y : ℝ) - E) ^ (1 / (G : ℝ)))) ∧
    ((Y : ℝ) < (1 - uu) ^ 2 * J → |(Y : ℝ) - F| / C ≤ rHi / 2 → |(Y : ℝ) - F| ≤ rHi / 2 →
      ∃ z Z, eval (F64.ops l) (-5) [g, a, b, c, d, e, f] y = some z ∧ F64.val z = some Z ∧
        |(Z : ℝ) - Value (-5) [(G : ℝ), (A : ℝ), (B : ℝ), (C : ℝ), (D : ℝ), (E : ℝ), (F : ℝ)] Y| ≤
          3 * uu * |Value (-5) [(G : ℝ), (A : ℝ), (B : ℝ), (C : ℝ), (D : ℝ), (E : ℝ), (F : ℝ)] Y| +
            2001 * (rLo * uu)) := by
  intro J
  have hu := uu_pos
  have hu' := uu_small
  have hC1 : (1 / 1000 : ℝ) ≤ C := by
    have := (Rat.cast_le (K := ℝ)).mpr hC
    push_cast at this
    exact this
  obtain ⟨K, hK, k1, k2⟩ := affine_acc hc hf hd (by linarith) hF hD hJ
  have hJ0 : 0 < J := lt_of_lt_of_le rLo_pos hJ.1
  constructor
  · intro hYJ he hde h
    obtain ⟨⟨V, hV, hV0⟩, Z, hZ, hZe⟩ := h.shifted hl hε hε' hy he hde
    have hle : F64.le (F64.add (F64.mul c d) f) y = true := (F64.le_val hK hy).mpr (by
      have : (K : ℝ) ≤ Y := k2.trans hYJ
      exact_mod_cast this)
    refine ⟨_, Z, ?_, hZ, ?_⟩
    · show some (g5 (F64.ops l) g a b c d e f y) = _
      unfold g5
      simp only [not_tiny64 l h.hg h.hG, not_tiny64 l h.ha h.hA, Bool.or_false, Bool.false_eq_true, if_false]
      simp only [F64.ops, not_lt_zero hV (by exact_mod_cast hV0.le), hle, Bool.false_eq_true, if_false, if_true]
    · have hv : Value (-5) [(G : ℝ), (A : ℝ), (B : ℝ), (C : ℝ), (D : ℝ), (E : ℝ), (F : ℝ)] Y =
          (((Y : ℝ) - E) ^ (1 / (G : ℝ)) - B) / A := by
        show (if (Y : ℝ) < J then _ else if (Y : ℝ) < E ∨ Tiny (G : ℝ) ∨ Tiny (A : ℝ) then (0 : ℝ) else _) = _
        rw [if_neg (by nlinarith), if_neg]
        have := hde.1
        have := rLo_pos
        rintro (h1 | h1 | h1)
        · linarith
        · exact not_tiny_real h.hG h1
        · exact not_tiny_real h.hA h1
      rw [hv]
      exact hZe
  · intro hYJ hr hr'
    have hC0 : C ≠ 0 := by intro h0; rw [h0] at hC; norm_num at hC
    have hCp : (0 : ℝ) < C := by linarith
    have hle : F64.le (F64.add (F64.mul c d) f) y = false := by
      by_contra hcon
      have h1 := (F64.le_val hK hy).mp (by simpa using hcon)
      have : (K : ℝ) ≤ Y := by exact_mod_cast h1
      linarith
    obtain ⟨V, hV, hVe⟩ := rd_both ((C104_operations y f Y F hy hf).2.1) (by
      rw [Rat.cast_sub]; have := rHi_pos; linarith)
    rw [Rat.cast_sub] at hVe
    have hη : rLo * uu ≤ 1 := rLo_uu_le
    have hη0 : 0 ≤ rLo * uu := mul_nonneg rLo_pos.le hu.le
    have hhi := rHi_big
    obtain ⟨η, hηd⟩ : ∃ η, rLo * uu = η := ⟨_, rfl⟩
    rw [hηd] at hη hη0 hVe
    rw [hηd]
    obtain ⟨e1, e2⟩ := line_err hC1 (by linarith) hη0 hVe
    have hq : (((V / C : ℚ)) : ℝ) = V / C := Rat.cast_div _ _
    obtain ⟨Z, hZ, hZe⟩ := rd_both ((C104_operations _ c V C hV hc).2.2.2 hC0) (by
      rw [hq]
      linarith)
    rw [hq, hηd] at hZe
    have hv : Value (-5) [(G : ℝ), (A : ℝ), (B : ℝ), (C : ℝ), (D : ℝ), (E : ℝ), (F : ℝ)] Y = ((Y : ℝ) - F) / C := by
      show (if (Y : ℝ) < J then (if Tiny (C : ℝ) then (0 : ℝ) else _) else _) = _
      rw [if_pos (by nlinarith), if_neg (not_tiny_real hC)]
    refine ⟨_, Z, ?_, hZ, ?_⟩
    · show some (g5 (F64.ops l) g a b c d e f y) = _
      unfold g5
      simp only [not_tiny64 l hc hC, Bool.false_eq_true, if_false]
      simp only [F64.ops, hle, Bool.false_eq_true, if_false]
    · rw [hv]
      have h1 := abs_sub_le (Z : ℝ) ((V : ℝ) / C) (((Y : ℝ) - F) / C)
      rw [abs_div ((Y : ℝ) - F), abs_of_pos hCp]
      have hw : 0 ≤ |(Y : ℝ) - F| / C := div_nonneg (abs_nonneg _) hCp.le
      have h2 : uu * |(V : ℝ) / C| ≤ uu * (3 / 2 * (|(Y : ℝ) - F| / C) + 1000 * η) := mul_le_mul_of_nonneg_left e2 hu.le
      have h3 : uu * η ≤ η := by nlinarith
      have h4 : 0 ≤ uu * (|(Y : ℝ) - F| / C) := mul_nonneg hu.le hw
      linarith

/-- **C112**, type -3, below `c`. -/
theorem C112_type3_below (l : Libm) (g a b c y : F64) (G A B C Y : ℚ) (hy : F64.val y = some Y)
    (ha : F64.val a = some A) (hb : F64.val b = some B) (hc : F64.val c = some C) (hA : 1 / 1000 ≤ A)
    (hr : |-(B : ℝ) / A| ≤ rHi) (h : Y < C) :
    ∃ z Z, eval (F64.ops l) (-3) [g, a, b, c] y = some z ∧ F64.val z = some Z ∧
      |(Z : ℝ) - Value (-3) [(G : ℝ), (A : ℝ), (B : ℝ), (C : ℝ)] Y| ≤
        uu * |Value (-3) [(G : ℝ), (A : ℝ), (B : ℝ), (C : ℝ)] Y| + rLo * uu := by
  have h' : (Y : ℝ) < C := by exact_mod_cast h
  have hA0 : A ≠ 0 := by intro h0; rw [h0] at hA; norm_num at hA
  have hq : (((-B / A : ℚ)) : ℝ) = -B / A := by push_cast; rfl
  obtain ⟨Z, hZ, hZe⟩ := rd_both ((C104_operations (F64.neg b) a (-B) A (F64.val_neg hb) ha).2.2.2 hA0) (by
    rw [hq]; have := rHi_pos; linarith)
  rw [hq] at hZe
  have hle : F64.le c y = false := by
    by_contra hcon
    have h1 := (F64.le_val hc hy).mp (by simpa using hcon)
    linarith
  have hv : Value (-3) [(G : ℝ), (A : ℝ), (B : ℝ), (C : ℝ)] Y = -B / A := by
    show (if Tiny (A : ℝ) ∨ (Y : ℝ) = C then (0 : ℝ) else if (Y : ℝ) < C then _ else _) = _
    rw [if_neg, if_pos h']
    rintro (h1 | h1)
    · exact not_tiny_real hA h1
    · linarith
  refine ⟨_, Z, ?_, hZ, by rw [hv]; exact hZe⟩
  show some (g3 (F64.ops l) g a b c y) = _
  unfold g3
  simp only [not_tiny64 l ha hA, Bool.false_eq_true, if_false]
  simp only [F64.ops, hle, Bool.false_eq_true, if_false]

theorem ratOf_of_val {x : F64} {q : ℚ} (h : F64.val x = some q) : F64.ratOf x = q := by
  unfold F64.ratOf
  rw [h]
  rfl

/-- The inverse sRGB curve from 0 to 1, except within `12 * 2^-53` (relative) of its joint: with a `powf` of relative
error at most 2^-52, the error is at most `32 * 2^-53`. -/
theorem C112_srgb (l : Libm) (hl : AccuratePow l (2 * uu)) (y : F64) (Y : ℚ) (hy : F64.val y = some Y) (h0 : 0 ≤ Y)
    (h1 : Y ≤ 1) (hj : let J := ((F64.ratOf (F64.ofRat (1000 / 1055)) : ℝ) * F64.ratOf (F64.ofRat (4045 / 100000)) +
      F64.ratOf (F64.ofRat (55 / 1055))) ^ (F64.ratOf (F64.ofRat (24 / 10)) : ℝ)
      12 * uu * J ≤ |(Y : ℝ) - J|) :
    ∃ z Z, eval (F64.ops l) (-4) srgb y = some z ∧ F64.val z = some Z ∧
      |(Z : ℝ) - Value (-4) (srgb.map fun p => ((F64.ratOf p : ℚ) : ℝ)) Y| ≤ 32 * uu := by
  obtain ⟨G, A, B, C, D, J, n⟩ := srgb_nums
  have eG := ratOf_of_val n.vG
  have eA := ratOf_of_val n.vA
  have eB := ratOf_of_val n.vB
  have eC := ratOf_of_val n.vC
  have eD := ratOf_of_val n.vD
  have em : (srgb.map fun p => ((F64.ratOf p : ℚ) : ℝ)) = [(G : ℝ), (A : ℝ), (B : ℝ), (C : ℝ), (D : ℝ)] := by
    simp only [srgb, List.map_cons, List.map_nil, eG, eA, eB, eC, eD]
  rw [em]
  rw [eG, eA, eB, eD] at hj
  replace hj : 12 * uu * ((A : ℝ) * D + B) ^ (G : ℝ) ≤ |(Y : ℝ) - ((A : ℝ) * D + B) ^ (G : ℝ)| := hj
  obtain ⟨⟨rG1, rG2⟩, ⟨rA1, rA2⟩, ⟨rB1, rB2⟩, rAB, ⟨rC1, rC2⟩, ⟨rS1, rS2⟩, -⟩ := n.real
  have rY0 : (0 : ℝ) ≤ Y := by exact_mod_cast h0
  have rY1 : (Y : ℝ) ≤ 1 := by exact_mod_cast h1
  have hu := uu_pos
  have hu' := uu_small
  obtain ⟨hb1, -⟩ := n.bound
  have jp := n.piece n.vD (by linarith [n.D1]) n.D2
  obtain ⟨t1, t2⟩ := C112_type4 l (2 * uu) hl (by linarith) (by linarith) _ _ _ (F64.ofRat (100 / 1292)) _ y G A B C D Y
    hy jp
  have hW : 0 < ((A : ℝ) * D + B) ^ (G : ℝ) := Real.rpow_pos_of_pos jp.pos _
  have hWr : (((A : ℝ) * D + B) ^ (G : ℝ)) ^ (1 / (G : ℝ)) = (A : ℝ) * D + B := by
    rw [← Real.rpow_mul jp.pos.le, mul_one_div_cancel (by linarith), Real.rpow_one]
  rcases le_or_gt (((A : ℝ) * D + B) ^ (G : ℝ)) Y with hY | hY
  · rw [abs_of_nonneg (by linarith)] at hj
    have s1 : (1 / 20 : ℝ) ≤ (Y : ℝ) ^ (1 / (G : ℝ)) := by
      refine le_trans ?_ (Real.rpow_le_rpow hW.le hY (by positivity))
      rw [hWr]
      linarith
    have s2 : (Y : ℝ) ^ (1 / (G : ℝ)) ≤ 1 := Real.rpow_le_one rY0 rY1 (by positivity)
    have hB : |(B : ℝ)| = B := abs_of_nonneg (by linarith)
    have hlog := abs_log_small s1 (by linarith)
    have q1 : ((Y : ℝ) ^ (1 / (G : ℝ)) + B) / A ≤ 1112 / 1000 := by
      rw [div_le_iff₀ (by linarith)]
      linarith
    have q2 : 1 / 20 ≤ ((Y : ℝ) ^ (1 / (G : ℝ)) + B) / A := by
      rw [le_div_iff₀ (by linarith)]
      linarith
    obtain ⟨z, Z, hz, hZ, he⟩ := t1 (by nlinarith) ⟨n.vG, n.vA, n.vB, by linarith [n.G1], by linarith [n.G2],
      by linarith [n.A1], ⟨rLo_le (le_trans (by norm_num) s1), le_rHi (s2.trans (by norm_num))⟩,
      by rw [hB]; exact le_rHi (le_trans (show _ ≤ (2 : ℝ) by linarith) (by norm_num)),
      by rw [hB]; exact ⟨rLo_le (le_trans (by norm_num) q2), le_rHi (q1.trans (by norm_num))⟩⟩
    refine ⟨z, Z, hz, hZ, he.trans ?_⟩
    unfold backErr
    rw [hB, mul_zero, zero_div]
    have e2 : uu * |Real.log ((Y : ℝ) ^ (1 / (G : ℝ)))| ≤ uu * (31 / 10) := mul_le_mul_of_nonneg_left hlog hu.le
    have e3 : 4 * uu * |Real.log ((Y : ℝ) ^ (1 / (G : ℝ)))| + 0 + 6 * (2 * uu) + 4 * uu ≤ 284 / 10 * uu := by linarith
    exact (mul_le_mul e3 q1 (by linarith) (by linarith)).trans (by linarith)
  · rw [abs_of_neg (by linarith)] at hj
    have hyc : (Y : ℝ) / C ≤ 16 := by
      rw [div_le_iff₀ (by linarith)]
      linarith
    have hyc0 : 0 ≤ (Y : ℝ) / C := by positivity
    obtain ⟨z, Z, hz, hZ, he⟩ := t2 (by nlinarith) n.vC (by linarith [n.C1]) (by
      rw [abs_of_nonneg hyc0]
      exact le_rHi (hyc.trans (by norm_num)))
    have hv : Value (-4) [(G : ℝ), (A : ℝ), (B : ℝ), (C : ℝ), (D : ℝ)] Y = Y / C := by
      show (if _ then (if Tiny (C : ℝ) then (0 : ℝ) else _) else _) = _
      rw [if_pos, if_neg (not_tiny_real (by linarith [n.C1]))]
      exact .inr (.inr ⟨jp.pos.le, hY⟩)
    refine ⟨z, Z, hz, hZ, he.trans ?_⟩
    rw [hv, abs_of_nonneg hyc0]
    have : rLo * uu ≤ uu := by
      have h1 : rLo ≤ 1 := rLo_le (by norm_num)
      nlinarith
    nlinarith

/-- For instance at 1/2, on a platform whose `powf` is accurate to 2^-52. -/
example : ∃ z Z, eval (F64.ops cutLibm) (-4) srgb (F64.ofRat (1 / 2)) = some z ∧ F64.val z = some Z ∧
    |(Z : ℝ) - Value (-4) (srgb.map fun p => ((F64.ratOf p : ℚ) : ℝ)) ((1 / 2 : ℚ) : ℝ)| ≤ 32 * uu := by
  refine C112_srgb cutLibm C106_platform_exists.1 _ (1 / 2) (by decide +kernel) (by norm_num) (by norm_num) ?_
  obtain ⟨G, A, B, C, D, J, n⟩ := srgb_nums
  rw [ratOf_of_val n.vG, ratOf_of_val n.vA, ratOf_of_val n.vB, ratOf_of_val n.vD]
  obtain ⟨⟨rG1, rG2⟩, ⟨rA1, rA2⟩, ⟨rB1, rB2⟩, -, -, ⟨rS1, -⟩, -⟩ := n.real
  have hD : D ≤ 1 / 20 := by
    rw [← ratOf_of_val n.vD]
    decide +kernel
  have hD' : (D : ℝ) ≤ 1 / 20 := by
    have := (Rat.cast_le (K := ℝ)).mpr hD
    push_cast at this
    exact this
  have hb : (A : ℝ) * D + B ≤ 11 / 100 := by nlinarith
  have hJ : ((A : ℝ) * D + B) ^ (G : ℝ) ≤ 11 / 100 := by
    refine le_trans ?_ hb
    have := Real.rpow_le_rpow_of_exponent_ge (show 0 < (A : ℝ) * D + B by linarith) (by linarith)
      (show (1 : ℝ) ≤ G by linarith)
    rwa [Real.rpow_one] at this
  have hJ0 : 0 ≤ ((A : ℝ) * D + B) ^ (G : ℝ) := Real.rpow_nonneg (by linarith) _
  have hu := uu_pos
  have hu' := uu_small
  show 12 * uu * ((A : ℝ) * D + B) ^ (G : ℝ) ≤ |((1 / 2 : ℚ) : ℝ) - ((A : ℝ) * D + B) ^ (G : ℝ)|
  push_cast
  rw [abs_of_nonneg (by linarith)]
  nlinarith

/-- The root of 2 (type -1), a number binary64 does not have, to within `16 * 2^-53`. -/
example : ∃ z Z, eval (F64.ops cutLibm) (-1) [F64.ofRat 2] (F64.ofRat 2) = some z ∧ F64.val z = some Z ∧
    |(Z : ℝ) - Value (-1) [2] 2| ≤ 16 * uu := by
  have v2 : F64.val (F64.ofRat 2) = some 2 := by decide +kernel
  have hu := uu_pos
  have e2 : ((2 : ℚ) : ℝ) = 2 := by norm_num
  have s1 : (1 : ℝ) ≤ 2 ^ (1 / 2 : ℝ) := Real.one_le_rpow (by norm_num) (by norm_num)
  have s2 : (2 : ℝ) ^ (1 / 2 : ℝ) ≤ 2 := by
    have := Real.rpow_le_rpow_of_exponent_le (show (1 : ℝ) ≤ 2 by norm_num) (show (1 / 2 : ℝ) ≤ 1 by norm_num)
    rwa [Real.rpow_one] at this
  have hv : Value (-1) [(2 : ℝ)] 2 = (2 : ℝ) ^ (1 / 2 : ℝ) := by
    show (if (0 : ℝ) ≤ 2 then (if Tiny (2 : ℝ) then (10 : ℝ) ^ 22 else _) else _) = _
    rw [if_pos (by norm_num), if_neg]
    unfold Tiny
    norm_num
  obtain ⟨z, Z, hz, hZ, he⟩ := C112_type1 cutLibm (2 * uu) C106_platform_exists.1 (by linarith) (F64.ofRat 2)
    (F64.ofRat 2) 2 2 v2 v2 (by norm_num) (by norm_num) (by norm_num) (by
      rw [e2]
      exact ⟨rLo_le (le_trans (by norm_num) s1), le_rHi (s2.trans (by norm_num))⟩)
  refine ⟨z, Z, hz, hZ, ?_⟩
  rw [e2, hv] at he
  rw [hv]
  refine he.trans ?_
  have hl : |Real.log ((2 : ℝ) ^ (1 / 2 : ℝ))| ≤ 1 := by
    rw [abs_of_nonneg (Real.log_nonneg s1)]
    have := Real.log_le_sub_one_of_pos (show 0 < (2 : ℝ) ^ (1 / 2 : ℝ) by linarith)
    linarith
  have : uu * |Real.log ((2 : ℝ) ^ (1 / 2 : ℝ))| ≤ uu * 1 := mul_le_mul_of_nonneg_left hl hu.le
  have : (2 * uu * |Real.log ((2 : ℝ) ^ (1 / 2 : ℝ))| + 3 * (2 * uu)) * (2 : ℝ) ^ (1 / 2 : ℝ) ≤ (8 * uu) * 2 :=
    mul_le_mul (by linarith) s2 (by linarith) (by linarith)
  linarith

/-! One instance of each of the other theorems, with the root of 4. -/

theorem root_four : (4 : ℝ) ^ (1 / (2 : ℝ)) = 2 := by
  rw [show (4 : ℝ) = (2 : ℝ) ^ (2 : ℝ) by rw [show (2 : ℝ) = ((2 : ℕ) : ℝ) by norm_num, Real.rpow_natCast]; norm_num,
    ← Real.rpow_mul (by norm_num)]
  norm_num

theorem two_piece : RootPiece (F64.ofRat 2) (F64.ofRat 1) (F64.ofRat 1) 2 1 1 2 :=
  ⟨val_two', val_one1, val_one1, by norm_num, by norm_num, by norm_num, inRange_small (by norm_num) (by norm_num),
    by push_cast; exact le_rHi (by norm_num), by push_cast; exact inRange_small (by norm_num) (by norm_num)⟩

theorem two_err {κ : ℝ} (hκ : κ ≤ uu) : backErr κ 2 1 1 (2 * uu) 2 ≤ 78 * uu := by
  have hlog : uu * |Real.log 2| ≤ uu * 1 := mul_le_mul_of_nonneg_left abs_log_two uu_pos.le
  unfold backErr
  push_cast
  norm_num
  linarith

theorem not_tiny_one : ¬ Tiny 1 := by unfold Tiny; norm_num
theorem not_tiny_two : ¬ Tiny 2 := by unfold Tiny; norm_num

/-- Type -2: `(x + 1)^2` is 4 at 1. -/
example (l : Libm) (hl : AccuratePow l (2 * uu)) :
    ∃ z Z, eval (F64.ops l) (-2) [F64.ofRat 2, F64.ofRat 1, F64.ofRat 1] (F64.ofRat 4) = some z ∧
      F64.val z = some Z ∧ |(Z : ℝ) - 1| ≤ 78 * uu := by
  have hu := uu_pos
  have hu' := uu_small
  have e : ((4 : ℚ) : ℝ) ^ (1 / ((2 : ℚ) : ℝ)) = 2 := by push_cast; exact root_four
  obtain ⟨z, Z, h1, h2, h3⟩ := C112_type2 l (2 * uu) hl (by linarith) (by linarith) _ _ _ (F64.ofRat 4) 2 1 1 4
    (by decide +kernel) (by norm_num) (by rw [e]; exact two_piece)
  have hv : Value (-2) [((2 : ℚ) : ℝ), ((1 : ℚ) : ℝ), ((1 : ℚ) : ℝ)] ((4 : ℚ) : ℝ) = 1 := by
    push_cast
    show (if Tiny 2 ∨ Tiny 1 ∨ (4 : ℝ) < 0 then (0 : ℝ) else max 0 (((4 : ℝ) ^ (1 / (2 : ℝ)) - 1) / 1)) = 1
    rw [if_neg (by simp only [not_tiny_one, not_tiny_two, false_or]; norm_num), root_four]
    norm_num
  rw [hv, e] at h3
  exact ⟨z, Z, h1, h2, h3.trans (two_err hu.le)⟩

/-- Type -3: `(x + 1)^2 + 3` is 7 at 1. -/
example (l : Libm) (hl : AccuratePow l (2 * uu)) :
    ∃ z Z, eval (F64.ops l) (-3) [F64.ofRat 2, F64.ofRat 1, F64.ofRat 1, F64.ofRat 3] (F64.ofRat 7) = some z ∧
      F64.val z = some Z ∧ |(Z : ℝ) - 1| ≤ 78 * uu := by
  have hu := uu_pos
  have hu' := uu_small
  have e : (((7 : ℚ) : ℝ) - ((3 : ℚ) : ℝ)) ^ (1 / ((2 : ℚ) : ℝ)) = 2 := by
    push_cast
    rw [show (7 : ℝ) - 3 = 4 by norm_num, root_four]
  obtain ⟨z, Z, h1, h2, h3⟩ := C112_type3 l (2 * uu) hl (by linarith) (by linarith) _ _ _ (F64.ofRat 3) (F64.ofRat 7)
    2 1 1 3 7 (by decide +kernel) (by decide +kernel) (inRange_small (by norm_num) (by norm_num))
    (by rw [e]; exact two_piece)
  have hv : Value (-3) [((2 : ℚ) : ℝ), ((1 : ℚ) : ℝ), ((1 : ℚ) : ℝ), ((3 : ℚ) : ℝ)] ((7 : ℚ) : ℝ) = 1 := by
    push_cast
    show (if Tiny 1 ∨ (7 : ℝ) = 3 then (0 : ℝ) else if (7 : ℝ) < 3 then -1 / 1 else
      (((7 : ℝ) - 3) ^ (1 / (2 : ℝ)) - 1) / 1) = 1
    rw [if_neg (by simp only [not_tiny_one, false_or]; norm_num), if_neg (by norm_num),
      show (7 : ℝ) - 3 = 4 by norm_num, root_four]
    norm_num
  rw [hv, e] at h3
  exact ⟨z, Z, h1, h2, h3.trans (two_err (le_refl _))⟩

/-- Type -6 likewise. -/
example (l : Libm) (hl : AccuratePow l (2 * uu)) :
    ∃ z Z, eval (F64.ops l) (-6) [F64.ofRat 2, F64.ofRat 1, F64.ofRat 1, F64.ofRat 3] (F64.ofRat 7) = some z ∧
      F64.val z = some Z ∧ |(Z : ℝ) - 1| ≤ 78 * uu := by
  have hu := uu_pos
  have hu' := uu_small
  have e : (((7 : ℚ) : ℝ) - ((3 : ℚ) : ℝ)) ^ (1 / ((2 : ℚ) : ℝ)) = 2 := by
    push_cast
    rw [show (7 : ℝ) - 3 = 4 by norm_num, root_four]
  obtain ⟨z, Z, h1, h2, h3⟩ := C112_type6 l (2 * uu) hl (by linarith) (by linarith) _ _ _ (F64.ofRat 3) (F64.ofRat 7)
    2 1 1 3 7 (by decide +kernel) (by decide +kernel) (inRange_small (by norm_num) (by norm_num))
    (by rw [e]; exact two_piece)
  have hv : Value (-6) [((2 : ℚ) : ℝ), ((1 : ℚ) : ℝ), ((1 : ℚ) : ℝ), ((3 : ℚ) : ℝ)] ((7 : ℚ) : ℝ) = 1 := by
    push_cast
    show (if Tiny 1 ∨ (7 : ℝ) < 3 then (0 : ℝ) else (((7 : ℝ) - 3) ^ (1 / (2 : ℝ)) - 1) / 1) = 1
    rw [if_neg (by simp only [not_tiny_one, false_or]; norm_num),
      show (7 : ℝ) - 3 = 4 by norm_num, root_four]
    norm_num
  rw [hv, e] at h3
  exact ⟨z, Z, h1, h2, h3.trans (two_err (le_refl _))⟩

/-- Type -5: `(x + 1)^2 + 3` from 1/2 on, and `x / 4 + 2` below: 7 belongs to 1, and 33/16 to 1/4. -/
example (l : Libm) (hl : AccuratePow l (2 * uu)) :
    (∃ z Z, eval (F64.ops l) (-5) [F64.ofRat 2, F64.ofRat 1, F64.ofRat 1, F64.ofRat (1 / 4), F64.ofRat (1 / 2), F64.ofRat 3,
        F64.ofRat 2] (F64.ofRat 7) = some z ∧ F64.val z = some Z ∧ |(Z : ℝ) - 1| ≤ 78 * uu) ∧
    (∃ z Z, eval (F64.ops l) (-5) [F64.ofRat 2, F64.ofRat 1, F64.ofRat 1, F64.ofRat (1 / 4), F64.ofRat (1 / 2), F64.ofRat 3,
        F64.ofRat 2] (F64.ofRat (33 / 16)) = some z ∧ F64.val z = some Z ∧ |(Z : ℝ) - 1 / 4| ≤ uu) := by
  have hu := uu_pos
  have hu' := uu_small
  have v4 : F64.val (F64.ofRat (1 / 4)) = some (1 / 4) := by decide +kernel
  have v2 : F64.val (F64.ofRat (1 / 2)) = some (1 / 2) := by decide +kernel
  have hJ : InRange (((1 / 4 : ℚ) : ℝ) * ((1 / 2 : ℚ) : ℝ) + ((2 : ℚ) : ℝ)) :=
    inRange_small (by norm_num) (by norm_num)
  have hlo : rLo * uu ≤ 1 / 2 ^ 20 * uu := mul_le_mul_of_nonneg_right (rLo_le (le_refl _)) hu.le
  constructor
  · have e : (((7 : ℚ) : ℝ) - ((3 : ℚ) : ℝ)) ^ (1 / ((2 : ℚ) : ℝ)) = 2 := by
      push_cast
      rw [show (7 : ℝ) - 3 = 4 by norm_num, root_four]
    obtain ⟨z, Z, h1, h2, h3⟩ := (C112_type5 l (2 * uu) hl (by linarith) (by linarith) (F64.ofRat 2) (F64.ofRat 1)
      (F64.ofRat 1) (F64.ofRat (1 / 4)) (F64.ofRat (1 / 2)) (F64.ofRat 3) (F64.ofRat 2) (F64.ofRat 7)
      2 1 1 (1 / 4) (1 / 2) 3 2 7 (by decide +kernel) v4 v2 val_two' (by norm_num) (by norm_num) (by norm_num) hJ).1
      (by push_cast; nlinarith) (by decide +kernel) (inRange_small (by norm_num) (by norm_num)) (by rw [e]; exact two_piece)
    have hv : Value (-5) [((2 : ℚ) : ℝ), ((1 : ℚ) : ℝ), ((1 : ℚ) : ℝ), ((1 / 4 : ℚ) : ℝ), ((1 / 2 : ℚ) : ℝ), ((3 : ℚ) : ℝ),
        ((2 : ℚ) : ℝ)] ((7 : ℚ) : ℝ) = 1 := by
      push_cast
      show (if (7 : ℝ) < 1 / 4 * (1 / 2) + 2 then (if Tiny (1 / 4) then (0 : ℝ) else (7 - 2) / (1 / 4))
        else if (7 : ℝ) < 3 ∨ Tiny 2 ∨ Tiny 1 then 0 else (((7 : ℝ) - 3) ^ (1 / (2 : ℝ)) - 1) / 1) = 1
      rw [if_neg (by norm_num), if_neg (by simp only [not_tiny_one, not_tiny_two, or_false]; norm_num),
        show (7 : ℝ) - 3 = 4 by norm_num, root_four]
      norm_num
    rw [hv, e] at h3
    exact ⟨z, Z, h1, h2, h3.trans (two_err (le_refl _))⟩
  · obtain ⟨z, Z, h1, h2, h3⟩ := (C112_type5 l (2 * uu) hl (by linarith) (by linarith) (F64.ofRat 2) (F64.ofRat 1)
      (F64.ofRat 1) (F64.ofRat (1 / 4)) (F64.ofRat (1 / 2)) (F64.ofRat 3) (F64.ofRat 2) (F64.ofRat (33 / 16))
      2 1 1 (1 / 4) (1 / 2) 3 2 (33 / 16) (by decide +kernel) v4 v2 val_two' (by norm_num) (by norm_num) (by norm_num) hJ).2
      (by push_cast; nlinarith)
      (le_half_rHi (by push_cast; rw [abs_of_nonneg] <;> norm_num))
      (le_half_rHi (by push_cast; rw [abs_of_nonneg] <;> norm_num))
    have hv : Value (-5) [((2 : ℚ) : ℝ), ((1 : ℚ) : ℝ), ((1 : ℚ) : ℝ), ((1 / 4 : ℚ) : ℝ), ((1 / 2 : ℚ) : ℝ), ((3 : ℚ) : ℝ),
        ((2 : ℚ) : ℝ)] ((33 / 16 : ℚ) : ℝ) = 1 / 4 := by
      push_cast
      show (if (33 / 16 : ℝ) < 1 / 4 * (1 / 2) + 2 then (if Tiny (1 / 4) then (0 : ℝ) else (33 / 16 - 2) / (1 / 4))
        else if (33 / 16 : ℝ) < 3 ∨ Tiny 2 ∨ Tiny 1 then 0 else (((33 / 16 : ℝ) - 3) ^ (1 / (2 : ℝ)) - 1) / 1) = 1 / 4
      rw [if_pos (by norm_num), if_neg (by unfold Tiny; norm_num)]
      norm_num
    rw [hv, abs_of_nonneg (show (0 : ℝ) ≤ 1 / 4 by norm_num)] at h3
    exact ⟨z, Z, h1, h2, h3.trans (by linarith)⟩

/-- Type -4: `(x + 1)^2` from 1/2 on and `3 * x` below: 4 belongs to 1, and 1, below the power at the joint, to 1/3. -/
example (l : Libm) (hl : AccuratePow l (2 * uu)) :
    (∃ z Z, eval (F64.ops l) (-4) [F64.ofRat 2, F64.ofRat 1, F64.ofRat 1, F64.ofRat 3, F64.ofRat (1 / 2)] (F64.ofRat 4) =
        some z ∧ F64.val z = some Z ∧ |(Z : ℝ) - 1| ≤ 78 * uu) ∧
    (∃ z Z, eval (F64.ops l) (-4) [F64.ofRat 2, F64.ofRat 1, F64.ofRat 1, F64.ofRat 3, F64.ofRat (1 / 2)] (F64.ofRat 1) =
        some z ∧ F64.val z = some Z ∧ |(Z : ℝ) - 1 / 3| ≤ uu) := by
  have hu := uu_pos
  have hu' := uu_small
  have v2 : F64.val (F64.ofRat (1 / 2)) = some (1 / 2) := by decide +kernel
  have b : ((1 : ℚ) : ℝ) * ((1 / 2 : ℚ) : ℝ) + ((1 : ℚ) : ℝ) = 3 / 2 := by norm_num
  have p' : (3 / 2 : ℝ) ^ (2 : ℝ) = 9 / 4 := by
    rw [show (2 : ℝ) = ((2 : ℕ) : ℝ) by norm_num, Real.rpow_natCast]
    norm_num
  have p : (((1 : ℚ) : ℝ) * ((1 / 2 : ℚ) : ℝ) + ((1 : ℚ) : ℝ)) ^ ((2 : ℚ) : ℝ) = 9 / 4 := by
    rw [b, show ((2 : ℚ) : ℝ) = 2 by norm_num, p']
  have j : PowerPiece (F64.ofRat 2) (F64.ofRat 1) (F64.ofRat 1) (F64.ofRat (1 / 2)) 2 1 1 (1 / 2) :=
    ⟨val_two', val_one1, val_one1, v2, by norm_num, by norm_num, by norm_num, by norm_num, by norm_num,
      by rw [b]; exact inRange_small (by norm_num) (by norm_num), by rw [p]; exact inRange_small (by norm_num) (by norm_num)⟩
  have hlo : rLo * uu ≤ 1 / 2 ^ 20 * uu := mul_le_mul_of_nonneg_right (rLo_le (le_refl _)) hu.le
  have hs : (1 : ℝ) * (1 / 2) + 1 = 3 / 2 := by norm_num
  constructor
  · have e : ((4 : ℚ) : ℝ) ^ (1 / ((2 : ℚ) : ℝ)) = 2 := by push_cast; exact root_four
    obtain ⟨z, Z, h1, h2, h3⟩ := (C112_type4 l (2 * uu) hl (by linarith) (by linarith) _ _ _ (F64.ofRat 3) _ (F64.ofRat 4)
      2 1 1 3 (1 / 2) 4 (by decide +kernel) j).1 (by rw [p, one_bound]; push_cast; linarith) (by rw [e]; exact two_piece)
    have hv : Value (-4) [((2 : ℚ) : ℝ), ((1 : ℚ) : ℝ), ((1 : ℚ) : ℝ), ((3 : ℚ) : ℝ), ((1 / 2 : ℚ) : ℝ)] ((4 : ℚ) : ℝ) = 1 := by
      push_cast
      show (if ((1 : ℝ) * (1 / 2) + 1 < 0 ∧ (4 : ℝ) < 0) ∨ ((1 : ℝ) * (1 / 2) + 1 = 0 ∧ (2 : ℝ) < 0) ∨
        (0 ≤ (1 : ℝ) * (1 / 2) + 1 ∧ (4 : ℝ) < ((1 : ℝ) * (1 / 2) + 1) ^ (2 : ℝ)) then (if Tiny 3 then (0 : ℝ) else 4 / 3)
        else if Tiny 2 ∨ Tiny 1 then 0 else ((4 : ℝ) ^ (1 / (2 : ℝ)) - 1) / 1) = 1
      rw [hs, p', if_neg (by norm_num), if_neg (by simp only [not_tiny_one, not_tiny_two, or_false]; norm_num), root_four]
      norm_num
    rw [hv, e] at h3
    exact ⟨z, Z, h1, h2, h3.trans (two_err hu.le)⟩
  · obtain ⟨z, Z, h1, h2, h3⟩ := (C112_type4 l (2 * uu) hl (by linarith) (by linarith) _ _ _ (F64.ofRat 3) _ (F64.ofRat 1)
      2 1 1 3 (1 / 2) 1 val_one1 j).2 (by rw [p, one_bound]; push_cast; linarith) (by decide +kernel) (by norm_num)
      (by push_cast; rw [abs_of_nonneg (by norm_num)]; exact le_rHi (by norm_num))
    have hv : Value (-4) [((2 : ℚ) : ℝ), ((1 : ℚ) : ℝ), ((1 : ℚ) : ℝ), ((3 : ℚ) : ℝ), ((1 / 2 : ℚ) : ℝ)] ((1 : ℚ) : ℝ) =
        1 / 3 := by
      push_cast
      show (if ((1 : ℝ) * (1 / 2) + 1 < 0 ∧ (1 : ℝ) < 0) ∨ ((1 : ℝ) * (1 / 2) + 1 = 0 ∧ (2 : ℝ) < 0) ∨
        (0 ≤ (1 : ℝ) * (1 / 2) + 1 ∧ (1 : ℝ) < ((1 : ℝ) * (1 / 2) + 1) ^ (2 : ℝ)) then (if Tiny 3 then (0 : ℝ) else 1 / 3)
        else if Tiny 2 ∨ Tiny 1 then 0 else ((1 : ℝ) ^ (1 / (2 : ℝ)) - 1) / 1) = 1 / 3
      rw [hs, p', if_pos (by norm_num), if_neg (by unfold Tiny; norm_num)]
    rw [hv, abs_of_nonneg (show (0 : ℝ) ≤ 1 / 3 by norm_num)] at h3
    exact ⟨z, Z, h1, h2, h3.trans (by linarith)⟩

end Lcms.Props
