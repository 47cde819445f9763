import Verif.Props.CurvesForth
import Verif.Props.CurvesAccuracyLog

/-! # Property C119: the curves in binary64, for parameters of either sign -/

namespace Lcms.Props

open Lcms.Curves Lcms.Spec

/-- `a * x + c` when `x` is off by `e` from `W`. -/
theorem line_near {a x c : F64} {A X C : ℚ} {W e : ℝ} (ha : F64.val a = some A) (hx : F64.val x = some X)
    (hc : F64.val c = some C) (h : |(X : ℝ) - W| ≤ e) (hp : |(A : ℝ)| * (|W| + e) ≤ rHi) (hs : |(A : ℝ) * W + C| ≤ rHi / 2) :
    ∃ Z : ℚ, F64.val (F64.add (F64.mul a x) c) = some Z ∧
      |(Z : ℝ) - (A * W + C)| ≤
        2 * (|(A : ℝ)| * e) + 2 * uu * (|(A : ℝ)| * |W|) + uu * |(A : ℝ) * W + C| + 3 * (rLo * uu) := by
  have hu := uu_pos
  have hu' := uu_small
  have h0 := rLo_pos
  have hη : 0 < rLo * uu := mul_pos h0 hu
  have hη1 : rLo * uu ≤ rHi / 100 := by
    have h1 := mul_le_mul_of_nonneg_right rLo_le_one hu.le
    have h2 : (1 : ℝ) ≤ rHi := le_rHi (by norm_num)
    linarith
  have hA0 := abs_nonneg (A : ℝ)
  have hW0 := abs_nonneg W
  have he0 : 0 ≤ e := (abs_nonneg _).trans h
  have hAe : 0 ≤ |(A : ℝ)| * e := mul_nonneg hA0 he0
  have hAW : 0 ≤ |(A : ℝ)| * |W| := mul_nonneg hA0 hW0
  rw [mul_add] at hp
  have hX : |(X : ℝ)| ≤ |W| + e := by
    have := abs_sub_abs_le_abs_sub (X : ℝ) W
    linarith
  have hAX : |(A : ℝ) * X| ≤ |(A : ℝ)| * |W| + |(A : ℝ)| * e := by
    rw [abs_mul, ← mul_add]
    exact mul_le_mul_of_nonneg_left hX hA0
  obtain ⟨M, hM, hMe⟩ := rd_both ((C104_operations a x A X ha hx).2.2.1) (by
    rw [Rat.cast_mul]
    linarith)
  rw [Rat.cast_mul] at hMe
  have hAd : |(A : ℝ) * X - A * W| ≤ |(A : ℝ)| * e := by
    rw [← mul_sub, abs_mul]
    exact mul_le_mul_of_nonneg_left h hA0
  set p := |(A : ℝ)| * e with hpd
  set q := |(A : ℝ)| * |W| with hqd
  have h1 := mul_le_mul_of_nonneg_left hAX hu.le
  have hup : uu * p ≤ p / 1000000 := by nlinarith
  have huq : uu * q ≤ q / 1000000 := by nlinarith
  have hup0 : 0 ≤ uu * p := mul_nonneg hu.le hAe
  have huq0 : 0 ≤ uu * q := mul_nonneg hu.le hAW
  have hMd : |(M : ℝ) - A * W| ≤ p + (uu * q + uu * p) + rLo * uu := by
    have := abs_sub_le (M : ℝ) (A * X) (A * W)
    linarith
  set S := (A : ℝ) * W + C with hS
  have hMC : |(M : ℝ) + C| ≤ |S| + (p + (uu * q + uu * p) + rLo * uu) := by
    have h2 := abs_add_le S (M - A * W)
    rw [show S + (M - A * W) = (M : ℝ) + C by rw [hS]; ring] at h2
    linarith
  obtain ⟨Z, hZ, hZe⟩ := rd_both ((C104_operations _ c M C hM hc).1) (by
    rw [Rat.cast_add]
    linarith)
  rw [Rat.cast_add] at hZe
  refine ⟨Z, hZ, ?_⟩
  have h2 := mul_le_mul_of_nonneg_left hMC hu.le
  have h3 : uu * (p + (uu * q + uu * p) + rLo * uu) ≤ 1 / 1000000 * (p + (uu * q + uu * p) + rLo * uu) :=
    mul_le_mul_of_nonneg_right hu' (by linarith)
  have h4 := abs_sub_le (Z : ℝ) (M + C) S
  have h5 : |((M : ℝ) + C) - S| = |(M : ℝ) - A * W| := by congr 1; rw [hS]; ring
  rw [h5] at h4
  have h6 : 2 * uu * q = 2 * (uu * q) := by ring
  rw [h6]
  linarith

/-- The relative error of `a * x + b` when it is `S`. -/
noncomputable def signErr (B : ℚ) (S : ℝ) : ℝ := 6 * uu * (S + |(B : ℝ)|) / S

/-- The power piece, whatever the signs of `a`, `b` and `x`. -/
structure Signed (g a b r : F64) (G A B R : ℚ) : Prop where
  hg : F64.val g = some G
  ha : F64.val a = some A
  hb : F64.val b = some B
  hr : F64.val r = some R
  hG : 0 < G
  root : InRange ((A : ℝ) * R + B)
  power : InRange (((A : ℝ) * R + B) ^ (G : ℝ))
  sum : ((A : ℝ) * R + B) + |(B : ℝ)| ≤ rHi / 2
  small : signErr B ((A : ℝ) * R + B) ≤ 1 / 8
  small' : signErr B ((A : ℝ) * R + B) * G ≤ 1 / 8

theorem Signed.pos {g a b r : F64} {G A B R : ℚ} (h : Signed g a b r G A B R) : (0 : ℝ) < (A : ℝ) * R + B :=
  lt_of_lt_of_le rLo_pos h.root.1

theorem Signed.value {l : Libm} {ε : ℝ} (hl : AccuratePow l ε) (hε : 0 ≤ ε) {g a b r : F64} {G A B R : ℚ}
    (h : Signed g a b r G A B R) :
    F64.lt (F64.ofRat 0) (F64.add (F64.mul a r) b) = true ∧ F64.lt (F64.add (F64.mul a r) b) (F64.ofRat 0) = false ∧
    ∃ P : ℚ, F64.val (l.powf (F64.add (F64.mul a r) b) g) = some P ∧
      |(P : ℝ) - ((A : ℝ) * R + B) ^ (G : ℝ)| ≤
        (4 * signErr B ((A : ℝ) * R + B) * G + 2 * ε) * ((A : ℝ) * R + B) ^ (G : ℝ) := by
  have hS := h.pos
  have hu := uu_pos
  have h0 := rLo_pos
  have hhi := rHi_pos
  have hB := abs_nonneg (B : ℝ)
  have hG' : (0 : ℝ) < G := by exact_mod_cast h.hG
  have hsum := h.sum
  have hAR : |(A : ℝ)| * |(R : ℝ)| ≤ ((A : ℝ) * R + B) + |(B : ℝ)| := by
    rw [← abs_mul]
    have h1 := le_abs_self (B : ℝ)
    have h2 := neg_abs_le (B : ℝ)
    rw [abs_le]
    constructor <;> linarith
  obtain ⟨E, hE, hEe⟩ := line_near h.ha h.hr h.hb (W := R) (e := 0) (by rw [sub_self, abs_zero]) (by
    rw [add_zero]
    linarith) (by rw [abs_of_pos hS]; linarith)
  set S := (A : ℝ) * R + B with hSd
  have hEe' : |(E : ℝ) - S| ≤ signErr B S * S := by
    refine hEe.trans ?_
    unfold signErr
    rw [div_mul_cancel₀ _ hS.ne', mul_zero, mul_zero, abs_of_pos hS]
    have h1 := mul_le_mul_of_nonneg_left hAR (by linarith : 0 ≤ 2 * uu)
    have h2 : rLo * uu ≤ uu * S := by
      rw [mul_comm]
      exact mul_le_mul_of_nonneg_left h.root.1 hu.le
    have h3 : 0 ≤ uu * |(B : ℝ)| := mul_nonneg hu.le hB
    linarith
  have hE0 : (0 : ℝ) < E := by
    have h1 := abs_le.mp hEe'
    have h2 := mul_le_mul_of_nonneg_right h.small hS.le
    linarith
  exact ⟨pos_of_val hE (by exact_mod_cast hE0), not_lt_zero hE hE0.le,
    pow_near hl hε hE h.hg hG' hS h.power (by linarith [h.small]) (by linarith [h.small']) hEe'⟩

/-- A constant added to a number off by a relative error. -/
theorem plus_near {x c : F64} {X C : ℚ} {W N : ℝ} (hx : F64.val x = some X) (hc : F64.val c = some C) (hW : 0 ≤ W)
    (hN : N ≤ 1) (h : |(X : ℝ) - W| ≤ N * W) (hWr : W ≤ rHi) (hY : |W + C| ≤ rHi) :
    ∃ Z : ℚ, F64.val (F64.add x c) = some Z ∧
      |(Z : ℝ) - (W + C)| ≤ 2 * N * W + uu * |W + C| + rLo * uu := by
  have hu := uu_pos
  have hu' := uu_small
  have hNW : 0 ≤ N * W := (abs_nonneg _).trans h
  have hNW' : N * W ≤ W := by nlinarith
  have hXC : |(X : ℝ) + C| ≤ |W + C| + N * W := by
    have h2 := abs_add_le (W + C) (X - W)
    rw [show W + C + (X - W) = (X : ℝ) + C by ring] at h2
    linarith
  obtain ⟨Z, hZ, hZe⟩ := rd_both ((C104_operations x c X C hx hc).1) (by
    rw [Rat.cast_add]
    linarith)
  rw [Rat.cast_add] at hZe
  refine ⟨Z, hZ, ?_⟩
  have h3 := mul_le_mul_of_nonneg_left hXC hu.le
  have h5 : uu * (N * W) ≤ 1 * (N * W) := mul_le_mul_of_nonneg_right (by linarith) hNW
  have h4 := abs_sub_le (Z : ℝ) (X + C) (W + C)
  have h6 : |((X : ℝ) + C) - (W + C)| = |(X : ℝ) - W| := by congr 1; ring
  rw [h6] at h4
  have h7 : 2 * N * W = 2 * (N * W) := by ring
  rw [h7]
  linarith

theorem Signed.plus {l : Libm} {ε : ℝ} (hl : AccuratePow l ε) (hε : 0 ≤ ε) (hε' : ε ≤ 1 / 8) {g a b r c : F64}
    {G A B R C : ℚ} (h : Signed g a b r G A B R) (hc : F64.val c = some C)
    (hY : |((A : ℝ) * R + B) ^ (G : ℝ) + C| ≤ rHi) :
    ∃ Z : ℚ, F64.val (F64.add (l.powf (F64.add (F64.mul a r) b) g) c) = some Z ∧
      |(Z : ℝ) - (((A : ℝ) * R + B) ^ (G : ℝ) + C)| ≤
        2 * (4 * signErr B ((A : ℝ) * R + B) * G + 2 * ε) * ((A : ℝ) * R + B) ^ (G : ℝ) +
          uu * |((A : ℝ) * R + B) ^ (G : ℝ) + C| + rLo * uu := by
  obtain ⟨-, -, P, hP, hPe⟩ := h.value hl hε
  exact plus_near hP hc (rLo_pos.le.trans h.power.1) (by linarith [h.small']) hPe h.power.2 hY

/-- The joint of types 2 and 3, as computed, lies at or before the argument. -/
theorem Signed.disc {g a b r : F64} {G A B R : ℚ} (h : Signed g a b r G A B R) (hA : 0 < A)
    (hq : InRange ((((A : ℝ) * R + B) + |(B : ℝ)|) / A)) : F64.le (F64.div (F64.neg b) a) r = true := by
  have hA' : (0 : ℝ) < A := by exact_mod_cast hA
  have hn : Near a b r A B R 0 ((A : ℝ) * R + B) := by
    refine ⟨h.ha, h.hb, h.hr, hA, h.root, by linarith [h.sum, rHi_pos], ?_, ?_⟩
    · rw [add_sub_cancel_right, mul_div_cancel_left₀ _ hA'.ne', sub_self, abs_zero]
    · have := h.small
      unfold signErr at this
      unfold forthErr
      rwa [mul_zero, zero_add]
  exact hn.disc hq

/-! ### The theorems -/

/-- **C119**, type 2. -/
theorem C119_type2 (l : Libm) (ε : ℝ) (hl : AccuratePow l ε) (hε : 0 ≤ ε) (g a b r : F64) (G A B R : ℚ)
    (h : Signed g a b r G A B R) (hA : 1 / 1000 ≤ A) (hq : InRange ((((A : ℝ) * R + B) + |(B : ℝ)|) / A)) :
    ∃ z Z, eval (F64.ops l) 2 [g, a, b] r = some z ∧ F64.val z = some Z ∧
      |(Z : ℝ) - Value 2 [(G : ℝ), (A : ℝ), (B : ℝ)] R| ≤
        (4 * signErr B ((A : ℝ) * R + B) * G + 2 * ε) * ((A : ℝ) * R + B) ^ (G : ℝ) := by
  obtain ⟨h1, -, P, hP, hPe⟩ := h.value hl hε
  have hA' : (1 / 1000 : ℝ) ≤ A := by
    have := (Rat.cast_le (K := ℝ)).mpr hA
    push_cast at this
    exact this
  have hv : Value 2 [(G : ℝ), (A : ℝ), (B : ℝ)] R = ((A : ℝ) * R + B) ^ (G : ℝ) := by
    show (if 1 / 10000 ≤ (A : ℝ) ∧ 0 < (A : ℝ) * R + B then _ else (0 : ℝ)) = _
    rw [if_pos ⟨by linarith, h.pos⟩]
  rw [hv]
  refine ⟨_, P, ?_, hP, hPe⟩
  show some (f2 (F64.ops l) g a b r) = _
  unfold f2
  simp only [not_tiny64 l h.ha hA, Bool.false_eq_true, if_false]
  simp only [F64.ops, h.disc (by linarith) hq, h1, if_true]

/-- **C119**, type 3, from zero on. -/
theorem C119_type3 (l : Libm) (ε : ℝ) (hl : AccuratePow l ε) (hε : 0 ≤ ε) (hε' : ε ≤ 1 / 8) (g a b c r : F64)
    (G A B C R : ℚ) (h : Signed g a b r G A B R) (hA : 1 / 1000 ≤ A) (hR : 0 ≤ R) (hc : F64.val c = some C)
    (hq : InRange ((((A : ℝ) * R + B) + |(B : ℝ)|) / A)) (hY : |((A : ℝ) * R + B) ^ (G : ℝ) + C| ≤ rHi) :
    ∃ z Z, eval (F64.ops l) 3 [g, a, b, c] r = some z ∧ F64.val z = some Z ∧
      |(Z : ℝ) - Value 3 [(G : ℝ), (A : ℝ), (B : ℝ), (C : ℝ)] R| ≤
        2 * (4 * signErr B ((A : ℝ) * R + B) * G + 2 * ε) * ((A : ℝ) * R + B) ^ (G : ℝ) +
          uu * |((A : ℝ) * R + B) ^ (G : ℝ) + C| + rLo * uu := by
  obtain ⟨h1, -, -⟩ := h.value hl hε
  obtain ⟨Z, hZ, hZe⟩ := h.plus hl hε hε' hc hY
  have hA' : (1 / 1000 : ℝ) ≤ A := by
    have := (Rat.cast_le (K := ℝ)).mpr hA
    push_cast at this
    exact this
  have hR' : (0 : ℝ) ≤ R := by exact_mod_cast hR
  have hp := h.pos
  have hv : Value 3 [(G : ℝ), (A : ℝ), (B : ℝ), (C : ℝ)] R = ((A : ℝ) * R + B) ^ (G : ℝ) + C := by
    show (if 1 / 10000 ≤ (A : ℝ) then (if (R : ℝ) < 0 ∨ (A : ℝ) * R + B < 0 then (C : ℝ) else
      if (A : ℝ) * R + B = 0 then 0 else _) else _) = _
    rw [if_pos (by linarith), if_neg, if_neg hp.ne']
    rintro (h2 | h2) <;> linarith
  rw [hv]
  refine ⟨_, Z, ?_, hZ, hZe⟩
  have hle := max_le_f64 (h.disc (by linarith) hq) ((F64.le_val val_ofRat0 h.hr).mpr hR)
  show some (f3 (F64.ops l) g a b c r) = _
  unfold f3
  simp only [not_tiny64 l h.ha hA, Bool.false_eq_true, if_false]
  simp only [F64.ops, hle, h1, if_true]

/-- **C119**, type 4, from the joint on. -/
theorem C119_type4 (l : Libm) (ε : ℝ) (hl : AccuratePow l ε) (hε : 0 ≤ ε) (g a b c d r : F64) (G A B C D R : ℚ)
    (h : Signed g a b r G A B R) (hd : F64.val d = some D) (hD : D ≤ R) :
    ∃ z Z, eval (F64.ops l) 4 [g, a, b, c, d] r = some z ∧ F64.val z = some Z ∧
      |(Z : ℝ) - Value 4 [(G : ℝ), (A : ℝ), (B : ℝ), (C : ℝ), (D : ℝ)] R| ≤
        (4 * signErr B ((A : ℝ) * R + B) * G + 2 * ε) * ((A : ℝ) * R + B) ^ (G : ℝ) := by
  obtain ⟨h1, -, P, hP, hPe⟩ := h.value hl hε
  have hD' : (D : ℝ) ≤ R := by exact_mod_cast hD
  have hv : Value 4 [(G : ℝ), (A : ℝ), (B : ℝ), (C : ℝ), (D : ℝ)] R = ((A : ℝ) * R + B) ^ (G : ℝ) := by
    show (if (R : ℝ) < D then _ else if 0 < (A : ℝ) * R + B then _ else (0 : ℝ)) = _
    rw [if_neg (not_lt.mpr hD'), if_pos h.pos]
  rw [hv]
  refine ⟨_, P, ?_, hP, hPe⟩
  have hle : F64.le d r = true := (F64.le_val hd h.hr).mpr hD
  show some (f4 (F64.ops l) g a b c d r) = _
  unfold f4
  simp only [F64.ops, hle, h1, if_true]

/-- **C119**, type 5, from the joint on. -/
theorem C119_type5_power (l : Libm) (ε : ℝ) (hl : AccuratePow l ε) (hε : 0 ≤ ε) (hε' : ε ≤ 1 / 8)
    (g a b c d e f r : F64) (G A B C D E F R : ℚ) (h : Signed g a b r G A B R) (hd : F64.val d = some D) (hD : D ≤ R)
    (he : F64.val e = some E) (hY : |((A : ℝ) * R + B) ^ (G : ℝ) + E| ≤ rHi) :
    ∃ z Z, eval (F64.ops l) 5 [g, a, b, c, d, e, f] r = some z ∧ F64.val z = some Z ∧
      |(Z : ℝ) - Value 5 [(G : ℝ), (A : ℝ), (B : ℝ), (C : ℝ), (D : ℝ), (E : ℝ), (F : ℝ)] R| ≤
        2 * (4 * signErr B ((A : ℝ) * R + B) * G + 2 * ε) * ((A : ℝ) * R + B) ^ (G : ℝ) +
          uu * |((A : ℝ) * R + B) ^ (G : ℝ) + E| + rLo * uu := by
  obtain ⟨h1, -, -⟩ := h.value hl hε
  obtain ⟨Z, hZ, hZe⟩ := h.plus hl hε hε' he hY
  have hD' : (D : ℝ) ≤ R := by exact_mod_cast hD
  have hv : Value 5 [(G : ℝ), (A : ℝ), (B : ℝ), (C : ℝ), (D : ℝ), (E : ℝ), (F : ℝ)] R =
      ((A : ℝ) * R + B) ^ (G : ℝ) + E := by
    show (if (R : ℝ) < D then _ else if 0 < (A : ℝ) * R + B then _ else (E : ℝ)) = _
    rw [if_neg (not_lt.mpr hD'), if_pos h.pos]
  rw [hv]
  refine ⟨_, Z, ?_, hZ, hZe⟩
  have hle : F64.le d r = true := (F64.le_val hd h.hr).mpr hD
  show some (f5 (F64.ops l) g a b c d e f r) = _
  unfold f5
  simp only [F64.ops, hle, h1, if_true]

/-- **C119**, type 5, before the joint. -/
theorem C119_type5_line (l : Libm) (g a b c d e f r : F64) (G A B C D E F R : ℚ) (hc : F64.val c = some C)
    (hd : F64.val d = some D) (hf : F64.val f = some F) (hr : F64.val r = some R) (hD : R < D)
    (hp : |(R : ℝ)| * |(C : ℝ)| ≤ rHi) (hY : |(R : ℝ) * C + F| ≤ rHi / 2) :
    ∃ z Z, eval (F64.ops l) 5 [g, a, b, c, d, e, f] r = some z ∧ F64.val z = some Z ∧
      |(Z : ℝ) - Value 5 [(G : ℝ), (A : ℝ), (B : ℝ), (C : ℝ), (D : ℝ), (E : ℝ), (F : ℝ)] R| ≤
        2 * uu * |(C : ℝ) * R| + uu * |(C : ℝ) * R + F| + 3 * (rLo * uu) := by
  obtain ⟨Z, hZ, hZe⟩ := line_near hr hc hf (W := C) (e := 0) (by rw [sub_self, abs_zero]) (by rwa [add_zero]) hY
  have hD' : (R : ℝ) < D := by exact_mod_cast hD
  have hv : Value 5 [(G : ℝ), (A : ℝ), (B : ℝ), (C : ℝ), (D : ℝ), (E : ℝ), (F : ℝ)] R = (C : ℝ) * R + F := by
    show (if (R : ℝ) < D then _ else _) = _
    rw [if_pos hD']
  rw [hv]
  refine ⟨_, Z, ?_, hZ, ?_⟩
  · have hle : F64.le d r = false := by
      by_contra hcon
      have h1 := (F64.le_val hd hr).mp (by simpa using hcon)
      linarith
    show some (f5 (F64.ops l) g a b c d e f r) = _
    unfold f5
    simp only [F64.ops, hle, Bool.false_eq_true, if_false]
  · rw [mul_zero, mul_zero, zero_add, ← abs_mul, mul_comm (R : ℝ)] at hZe
    exact hZe

/-- **C119**, type 6. -/
theorem C119_type6 (l : Libm) (ε : ℝ) (hl : AccuratePow l ε) (hε : 0 ≤ ε) (hε' : ε ≤ 1 / 8) (g a b c r : F64)
    (G A B C R : ℚ) (h : Signed g a b r G A B R) (hc : F64.val c = some C)
    (hY : |((A : ℝ) * R + B) ^ (G : ℝ) + C| ≤ rHi) :
    ∃ z Z, eval (F64.ops l) 6 [g, a, b, c] r = some z ∧ F64.val z = some Z ∧
      |(Z : ℝ) - Value 6 [(G : ℝ), (A : ℝ), (B : ℝ), (C : ℝ)] R| ≤
        2 * (4 * signErr B ((A : ℝ) * R + B) * G + 2 * ε) * ((A : ℝ) * R + B) ^ (G : ℝ) +
          uu * |((A : ℝ) * R + B) ^ (G : ℝ) + C| + rLo * uu := by
  obtain ⟨-, h1, -⟩ := h.value hl hε
  obtain ⟨Z, hZ, hZe⟩ := h.plus hl hε hε' hc hY
  have hv : Value 6 [(G : ℝ), (A : ℝ), (B : ℝ), (C : ℝ)] R = ((A : ℝ) * R + B) ^ (G : ℝ) + C := by
    show (if (A : ℝ) * R + B < 0 then (C : ℝ) else _) = _
    rw [if_neg (not_lt.mpr h.pos.le)]
  rw [hv]
  refine ⟨_, Z, ?_, hZ, hZe⟩
  show some (f6 (F64.ops l) g a b c r) = _
  unfold f6
  simp only [F64.ops, h1, Bool.false_eq_true, if_false]

/-- **C119**, type 8.  `h` is the exponent, `ψ` its error. -/
theorem C119_type8 (l : Libm) (ε : ℝ) (hl : AccuratePow l ε) (hε : 0 ≤ ε) (hε' : ε ≤ 1 / 8) (a b c d e r : F64)
    (A B C D E R : ℚ) (ha : F64.val a = some A) (hb : F64.val b = some B) (hc : F64.val c = some C)
    (hd : F64.val d = some D) (he : F64.val e = some E) (hr : F64.val r = some R) (hB : 0 < B) :
    let h := (C : ℝ) * R + D
    let W := (B : ℝ) ^ h
    let ψ := 2 * uu * |(C : ℝ) * R| + uu * |h| + 3 * (rLo * uu)
    let N := 2 * (ψ * |Real.log B|) + 2 * ε
    |(C : ℝ) * R| ≤ rHi → |h| ≤ rHi / 2 → InRange W → ψ * |Real.log B| ≤ 1 / 4 → |(A : ℝ)| * W ≤ rHi / 2 →
    |(A : ℝ) * W + E| ≤ rHi / 2 →
    ∃ z Z, eval (F64.ops l) 8 [a, b, c, d, e] r = some z ∧ F64.val z = some Z ∧
      |(Z : ℝ) - Value 8 [(A : ℝ), (B : ℝ), (C : ℝ), (D : ℝ), (E : ℝ)] R| ≤
        2 * (N + uu) * (|(A : ℝ)| * W) + uu * |(A : ℝ) * W + E| + 3 * (rLo * uu) := by
  intro h W ψ N hp hh hW hψ hAW hY
  have hB' : (0 : ℝ) < B := by exact_mod_cast hB
  have hW0 : 0 < W := lt_of_lt_of_le rLo_pos hW.1
  obtain ⟨T, hT, hTe⟩ := line_near hc hr hd (W := R) (e := 0) (by rw [sub_self, abs_zero])
    (by rw [add_zero, ← abs_mul]; exact hp) hh
  rw [mul_zero, mul_zero, zero_add, ← abs_mul] at hTe
  change |(T : ℝ) - h| ≤ ψ at hTe
  obtain ⟨P, hP, hPe⟩ := pow_tau (tau := ψ * |Real.log B|) hl hε hb hT hB' hW (by
    show |(T : ℝ) * Real.log B - Real.log ((B : ℝ) ^ h)| ≤ _
    rw [Real.log_rpow hB', ← sub_mul, abs_mul]
    exact mul_le_mul_of_nonneg_right hTe (abs_nonneg _)) hψ
  change |(P : ℝ) - W| ≤ N * W at hPe
  have hN1 : N ≤ 1 := by
    show 2 * (ψ * |Real.log B|) + 2 * ε ≤ 1
    linarith
  have hNW : N * W ≤ 1 * W := mul_le_mul_of_nonneg_right hN1 hW0.le
  obtain ⟨Z, hZ, hZe⟩ := line_near ha hP he hPe (by
    rw [abs_of_pos hW0]
    have := mul_le_mul_of_nonneg_left (show W + N * W ≤ 2 * W by linarith) (abs_nonneg (A : ℝ))
    linarith) hY
  refine ⟨_, Z, rfl, hZ, ?_⟩
  show |(Z : ℝ) - (A * W + E)| ≤ _
  rw [abs_of_pos hW0] at hZe
  refine hZe.trans (le_of_eq ?_)
  ring

/-- **C119**, type 7.  `η` is the relative error of the number whose logarithm is taken. -/
theorem C119_type7 (l : Libm) (ε δ : ℝ) (hl : AccuratePow l ε) (hlog : AccurateLog l δ) (hδ : 0 ≤ δ) (hδ' : δ ≤ 1 / 8)
    (g a b c d r : F64) (G A B C D R : ℚ) (hg : F64.val g = some G)
    (ha : F64.val a = some A) (hb : F64.val b = some B) (hc : F64.val c = some C) (hd : F64.val d = some D)
    (hr : F64.val r = some R) (hR : 0 < R) (hA : |(A : ℝ)| ≤ big) (hD : |(D : ℝ)| ≤ big) :
    let W := (R : ℝ) ^ (G : ℝ)
    let S := B * W + C
    let η := (2 * (ε + uu) * (|(B : ℝ)| * W) + 4 * uu * S) / S
    let Λ := Real.logb 10 S
    InRange W → InRange S → S ≤ rHi / 2 → |(B : ℝ)| * (W + ε * W) ≤ rHi → η ≤ 1 / 4 →
    ∃ z Z, eval (F64.ops l) 7 [g, a, b, c, d] r = some z ∧ F64.val z = some Z ∧
      |(Z : ℝ) - Value 7 [(G : ℝ), (A : ℝ), (B : ℝ), (C : ℝ), (D : ℝ)] R| ≤
        2 * (|(A : ℝ)| * (9 / 8 * η + δ * |Λ|)) + 2 * uu * (|(A : ℝ)| * |Λ|) + uu * |(A : ℝ) * Λ + D| + 3 * (rLo * uu) := by
  intro W S η Λ hW hS hSr hBW hη
  have hu := uu_pos
  have h0 := rLo_pos
  have hT := rHi_pos
  have hbig := one_le_big
  have hW0 : 0 < W := lt_of_lt_of_le h0 hW.1
  have hS0 : 0 < S := lt_of_lt_of_le h0 hS.1
  obtain ⟨P, hP, hPe⟩ := hl r g R G hr hg hR (by linarith [hW.1]) (by linarith [hW.2])
  obtain ⟨E, hE, hEe⟩ := line_near hb hP hc hPe (by rw [abs_of_pos (show 0 < (R : ℝ) ^ (G : ℝ) from hW0)]; exact hBW)
    (by rw [abs_of_pos (show 0 < (B : ℝ) * (R : ℝ) ^ (G : ℝ) + C from hS0)]; exact hSr)
  change |(E : ℝ) - S| ≤ 2 * (|(B : ℝ)| * (ε * W)) + 2 * uu * (|(B : ℝ)| * |W|) + uu * |S| + 3 * (rLo * uu) at hEe
  rw [abs_of_pos hW0, abs_of_pos hS0] at hEe
  have hEe' : |(E : ℝ) - S| ≤ η * S := by
    refine hEe.trans ?_
    show _ ≤ (2 * (ε + uu) * (|(B : ℝ)| * W) + 4 * uu * S) / S * S
    rw [div_mul_cancel₀ _ hS0.ne']
    have h2 : rLo * uu ≤ uu * S := by
      rw [mul_comm]
      exact mul_le_mul_of_nonneg_left hS.1 hu.le
    have h3 : 2 * (|(B : ℝ)| * (ε * W)) + 2 * uu * (|(B : ℝ)| * W) = 2 * (ε + uu) * (|(B : ℝ)| * W) := by ring
    linarith
  have hη0 : 0 ≤ η := by
    have := (abs_nonneg _).trans hEe'
    exact nonneg_of_mul_nonneg_left this hS0
  have hE0 : (0 : ℝ) < E := by
    have h1 := abs_le.mp hEe'
    have h2 := mul_le_mul_of_nonneg_right hη hS0.le
    linarith
  have hE0' : 0 < E := by exact_mod_cast hE0
  have hlogb : |Real.logb 10 E - Λ| ≤ η := logb_acc hS0 hEe' (by linarith)
  have hΛ : |Λ| ≤ 1022 := by
    have h1 := log_range hS
    have h3 := two_lt_log_ten
    show |Real.logb 10 S| ≤ _
    rw [Real.logb, abs_div, abs_of_pos (by linarith : (0 : ℝ) < Real.log 10), div_le_iff₀ (by linarith)]
    nlinarith
  obtain ⟨L, hL, hLe⟩ := hlog _ E hE hE0'
  have hLΛ : |(L : ℝ) - Λ| ≤ 9 / 8 * η + δ * |Λ| := by
    have h1 := abs_sub_le (L : ℝ) (Real.logb 10 E) Λ
    have h2 := abs_sub_abs_le_abs_sub (Real.logb 10 (E : ℝ)) Λ
    have h3 := mul_le_mul_of_nonneg_left (show |Real.logb 10 (E : ℝ)| ≤ |Λ| + η by linarith) hδ
    have h4 := mul_le_mul_of_nonneg_right hδ' hη0
    rw [mul_add] at h3
    linarith
  have hΛ0 := abs_nonneg Λ
  have hδΛ : δ * |Λ| ≤ 1 / 8 * 1022 := mul_le_mul hδ' hΛ hΛ0 (by norm_num)
  have hAΛ : |(A : ℝ)| * (|Λ| + (9 / 8 * η + δ * |Λ|)) ≤ big * 1500 := by
    refine mul_le_mul hA (by linarith) ?_ (by linarith)
    have := mul_nonneg hδ hΛ0
    linarith
  have hAΛ' : |(A : ℝ) * Λ + D| ≤ big * 1500 := by
    have h1 := abs_add_le ((A : ℝ) * Λ) D
    rw [abs_mul] at h1
    have h2 := mul_le_mul hA hΛ hΛ0 (by linarith)
    linarith
  obtain ⟨Z, hZ, hZe⟩ := line_near ha hL hd hLΛ
    (by have := range_sum (x := big * 1500) (by linarith); linarith)
    (by have := range_sum (x := big * 1500) (by linarith); linarith)
  have hv : Value 7 [(G : ℝ), (A : ℝ), (B : ℝ), (C : ℝ), (D : ℝ)] R = A * Λ + D := by
    show (if (B : ℝ) * (R : ℝ) ^ (G : ℝ) + C ≤ 0 then (D : ℝ) else _) = _
    rw [if_neg (not_le.mpr (show 0 < (B : ℝ) * (R : ℝ) ^ (G : ℝ) + C from hS0))]
  rw [hv]
  refine ⟨_, Z, ?_, hZ, hZe⟩
  show some (f7 (F64.ops l) g a b c d r) = _
  unfold f7
  have : F64.le (F64.add (F64.mul b (l.powf r g)) c) (F64.ofRat 0) = false := by
    by_contra hcon
    have := (F64.le_val hE val_ofRat0).mp (by simpa using hcon)
    exact absurd hE0' (not_lt.mpr this)
  simp only [F64.ops, this, Bool.false_eq_true, if_false]

/-! ### Instances -/

theorem val_neg1 : F64.val (F64.ofRat (-1)) = some (-1) := by decide +kernel

theorem val_32 : F64.val (F64.ofRat (3 / 2)) = some (3 / 2) := by decide +kernel

theorem val_neg_half : F64.val (F64.ofRat (-1 / 2)) = some (-1 / 2) := by decide +kernel

theorem two_sq : (2 : ℝ) ^ ((2 : ℚ) : ℝ) = 4 := by
  rw [show ((2 : ℚ) : ℝ) = ((2 : ℕ) : ℝ) by norm_num, Real.rpow_natCast]
  norm_num

theorem rising_base : ((2 : ℚ) : ℝ) * ((3 / 2 : ℚ) : ℝ) + ((-1 : ℚ) : ℝ) = 2 := by norm_num

theorem rising_err : signErr (-1) 2 = 9 * uu := by
  unfold signErr
  push_cast
  rw [abs_neg, abs_one]
  ring

/-- `(2 x - 1)^2` at 3/2. -/
theorem rising : Signed (F64.ofRat 2) (F64.ofRat 2) (F64.ofRat (-1)) (F64.ofRat (3 / 2)) 2 2 (-1) (3 / 2) := by
  have hu := uu_pos
  have hu' := uu_le_tiny
  refine ⟨val_two', val_two', val_neg1, val_32, by norm_num, ?_, ?_, ?_, ?_, ?_⟩ <;> rw [rising_base]
  · exact inRange_small (by norm_num) (by norm_num)
  · rw [two_sq]; exact inRange_small (by norm_num) (by norm_num)
  · refine le_half_rHi ?_
    push_cast
    rw [abs_neg, abs_one]
    norm_num
  · rw [rising_err]; linarith
  · rw [rising_err]; push_cast; linarith

theorem falling_base : ((-2 : ℚ) : ℝ) * ((3 / 2 : ℚ) : ℝ) + ((5 : ℚ) : ℝ) = 2 := by norm_num

theorem falling_err : signErr 5 2 = 21 * uu := by
  unfold signErr
  push_cast
  rw [abs_of_pos (by norm_num)]
  ring

/-- `(5 - 2 x)^2` at 3/2. -/
theorem falling : Signed (F64.ofRat 2) (F64.ofRat (-2)) (F64.ofRat 5) (F64.ofRat (3 / 2)) 2 (-2) 5 (3 / 2) := by
  have hu := uu_pos
  have hu' := uu_le_tiny
  refine ⟨val_two', by decide +kernel, by decide +kernel, val_32, by norm_num, ?_, ?_, ?_, ?_, ?_⟩ <;> rw [falling_base]
  · exact inRange_small (by norm_num) (by norm_num)
  · rw [two_sq]; exact inRange_small (by norm_num) (by norm_num)
  · refine le_half_rHi ?_
    push_cast
    rw [abs_of_pos (by norm_num)]
    norm_num
  · rw [falling_err]; linarith
  · rw [falling_err]; push_cast; linarith

theorem four_half : |(4 : ℝ) + ((-1 / 2 : ℚ) : ℝ)| = 7 / 2 := by
  push_cast
  rw [abs_of_pos (by norm_num)]
  norm_num

theorem rising_joint : InRange ((2 + |((-1 : ℚ) : ℝ)|) / ((2 : ℚ) : ℝ)) := by
  push_cast
  rw [abs_neg, abs_one]
  exact inRange_small (by norm_num) (by norm_num)

/-- Type 2, `(2 x - 1)^2` at 3/2. -/
example (l : Libm) (hl : AccuratePow l (2 * uu)) :
    ∃ z Z, eval (F64.ops l) 2 [F64.ofRat 2, F64.ofRat 2, F64.ofRat (-1)] (F64.ofRat (3 / 2)) = some z ∧
      F64.val z = some Z ∧ |(Z : ℝ) - Value 2 [((2 : ℚ) : ℝ), ((2 : ℚ) : ℝ), ((-1 : ℚ) : ℝ)] ((3 / 2 : ℚ) : ℝ)| ≤ 304 * uu := by
  have hu := uu_pos
  obtain ⟨z, Z, h1, h2, h3⟩ := C119_type2 l (2 * uu) hl (by linarith) _ _ _ _ _ _ _ _ rising (by norm_num)
    (by rw [rising_base]; exact rising_joint)
  rw [rising_base, rising_err, two_sq] at h3
  refine ⟨z, Z, h1, h2, h3.trans (le_of_eq ?_)⟩
  push_cast
  ring

/-- Type 3, `(2 x - 1)^2 - 1/2` at 3/2. -/
example (l : Libm) (hl : AccuratePow l (2 * uu)) :
    ∃ z Z, eval (F64.ops l) 3 [F64.ofRat 2, F64.ofRat 2, F64.ofRat (-1), F64.ofRat (-1 / 2)] (F64.ofRat (3 / 2)) = some z ∧
      F64.val z = some Z ∧ |(Z : ℝ) - Value 3 [((2 : ℚ) : ℝ), ((2 : ℚ) : ℝ), ((-1 : ℚ) : ℝ), ((-1 / 2 : ℚ) : ℝ)] ((3 / 2 : ℚ) : ℝ)|
        ≤ 612 * uu := by
  have hu := uu_pos
  have hu' := uu_le_tiny
  have hlo : rLo * uu ≤ 1 / 2 ^ 20 * uu := mul_le_mul_of_nonneg_right (rLo_le (le_refl _)) hu.le
  obtain ⟨z, Z, h1, h2, h3⟩ := C119_type3 l (2 * uu) hl (by linarith) (by linarith) _ _ _ _ _ _ _ _ (-1 / 2) _ rising
    (by norm_num) (by norm_num) val_neg_half (by rw [rising_base]; exact rising_joint)
    (by rw [rising_base, two_sq, four_half]; exact le_rHi (by norm_num))
  rw [rising_base, rising_err, two_sq, four_half] at h3
  refine ⟨z, Z, h1, h2, h3.trans ?_⟩
  push_cast
  linarith

/-- Type 4 with `(5 - 2 x)^2` from 1 on, at 3/2; its joint is at 1 and its straight part irrelevant. -/
example (l : Libm) (hl : AccuratePow l (2 * uu)) :
    ∃ z Z, eval (F64.ops l) 4 [F64.ofRat 2, F64.ofRat (-2), F64.ofRat 5, F64.ofRat 7, F64.ofRat 1] (F64.ofRat (3 / 2)) = some z ∧
      F64.val z = some Z ∧
      |(Z : ℝ) - Value 4 [((2 : ℚ) : ℝ), ((-2 : ℚ) : ℝ), ((5 : ℚ) : ℝ), ((7 : ℚ) : ℝ), ((1 : ℚ) : ℝ)] ((3 / 2 : ℚ) : ℝ)|
        ≤ 688 * uu := by
  have hu := uu_pos
  obtain ⟨z, Z, h1, h2, h3⟩ := C119_type4 l (2 * uu) hl (by linarith) _ _ _ (F64.ofRat 7) _ _ _ _ _ 7 1 _ falling val_one1
    (by norm_num)
  rw [falling_base, falling_err, two_sq] at h3
  refine ⟨z, Z, h1, h2, h3.trans (le_of_eq ?_)⟩
  push_cast
  ring

/-- Type 5 with `(5 - 2 x)^2 - 1/2` from 1 on and `-2 x - 1/2` before: at 3/2, and at -1. -/
example (l : Libm) (hl : AccuratePow l (2 * uu)) :
    let ps := [F64.ofRat 2, F64.ofRat (-2), F64.ofRat 5, F64.ofRat (-2), F64.ofRat 1, F64.ofRat (-1 / 2), F64.ofRat (-1 / 2)]
    let qs := [((2 : ℚ) : ℝ), ((-2 : ℚ) : ℝ), ((5 : ℚ) : ℝ), ((-2 : ℚ) : ℝ), ((1 : ℚ) : ℝ), ((-1 / 2 : ℚ) : ℝ), ((-1 / 2 : ℚ) : ℝ)]
    (∃ z Z, eval (F64.ops l) 5 ps (F64.ofRat (3 / 2)) = some z ∧ F64.val z = some Z ∧
      |(Z : ℝ) - Value 5 qs ((3 / 2 : ℚ) : ℝ)| ≤ 1380 * uu) ∧
    (∃ z Z, eval (F64.ops l) 5 ps (F64.ofRat (-1)) = some z ∧ F64.val z = some Z ∧
      |(Z : ℝ) - Value 5 qs ((-1 : ℚ) : ℝ)| ≤ 6 * uu) := by
  intro ps qs
  have hu := uu_pos
  have hu' := uu_le_tiny
  have hlo : rLo * uu ≤ 1 / 2 ^ 20 * uu := mul_le_mul_of_nonneg_right (rLo_le (le_refl _)) hu.le
  constructor
  · obtain ⟨z, Z, h1, h2, h3⟩ := C119_type5_power l (2 * uu) hl (by linarith) (by linarith) _ _ _ (F64.ofRat (-2)) _ _
      (F64.ofRat (-1 / 2)) _ _ _ _ (-2) 1 (-1 / 2) (-1 / 2) _ falling val_one1 (by norm_num) val_neg_half
      (by rw [falling_base, two_sq, four_half]; exact le_rHi (by norm_num))
    rw [falling_base, falling_err, two_sq, four_half] at h3
    refine ⟨z, Z, h1, h2, h3.trans ?_⟩
    push_cast
    linarith
  · obtain ⟨z, Z, h1, h2, h3⟩ := C119_type5_line l (F64.ofRat 2) (F64.ofRat (-2)) (F64.ofRat 5) (F64.ofRat (-2)) _
      (F64.ofRat (-1 / 2)) (F64.ofRat (-1 / 2)) (F64.ofRat (-1)) 2 (-2) 5 (-2) 1 (-1 / 2) (-1 / 2) (-1)
      (by decide +kernel) val_one1 val_neg_half val_neg1 (by norm_num)
      (by push_cast; rw [abs_neg, abs_neg, abs_one, abs_of_pos (by norm_num)]; exact le_rHi (by norm_num))
      (le_half_rHi (by push_cast; rw [abs_of_pos (by norm_num)]; norm_num))
    refine ⟨z, Z, h1, h2, h3.trans ?_⟩
    push_cast
    rw [abs_of_pos (show (0 : ℝ) < -2 * -1 by norm_num), abs_of_pos (show (0 : ℝ) < -2 * -1 + -1 / 2 by norm_num)]
    linarith

/-- Type 6, `(5 - 2 x)^2 - 1/2` at 3/2. -/
example (l : Libm) (hl : AccuratePow l (2 * uu)) :
    ∃ z Z, eval (F64.ops l) 6 [F64.ofRat 2, F64.ofRat (-2), F64.ofRat 5, F64.ofRat (-1 / 2)] (F64.ofRat (3 / 2)) = some z ∧
      F64.val z = some Z ∧ |(Z : ℝ) - Value 6 [((2 : ℚ) : ℝ), ((-2 : ℚ) : ℝ), ((5 : ℚ) : ℝ), ((-1 / 2 : ℚ) : ℝ)] ((3 / 2 : ℚ) : ℝ)|
        ≤ 1380 * uu := by
  have hu := uu_pos
  have hu' := uu_le_tiny
  have hlo : rLo * uu ≤ 1 / 2 ^ 20 * uu := mul_le_mul_of_nonneg_right (rLo_le (le_refl _)) hu.le
  obtain ⟨z, Z, h1, h2, h3⟩ := C119_type6 l (2 * uu) hl (by linarith) (by linarith) _ _ _ _ _ _ _ _ (-1 / 2) _ falling
    val_neg_half (by rw [falling_base, two_sq, four_half]; exact le_rHi (by norm_num))
  rw [falling_base, falling_err, two_sq, four_half] at h3
  refine ⟨z, Z, h1, h2, h3.trans ?_⟩
  push_cast
  linarith

/-- Type 7, `-log10 (10 - x^2)` with gamma 2 at 3: the logarithm is 0 although the sum cancels. -/
example (l : Libm) (hl : AccuratePow l (2 * uu)) (hlog : AccurateLog l (2 * uu)) :
    ∃ z Z, eval (F64.ops l) 7 [F64.ofRat 2, F64.ofRat (-1), F64.ofRat (-1), F64.ofRat 10, F64.ofRat 0] (F64.ofRat 3) = some z ∧
      F64.val z = some Z ∧
      |(Z : ℝ) - Value 7 [((2 : ℚ) : ℝ), ((-1 : ℚ) : ℝ), ((-1 : ℚ) : ℝ), ((10 : ℚ) : ℝ), ((0 : ℚ) : ℝ)] ((3 : ℚ) : ℝ)|
        ≤ 131 * uu := by
  have hu := uu_pos
  have hu' := uu_le_tiny
  have hb := one_le_big
  have hlo : rLo * uu ≤ 1 / 2 ^ 20 * uu := mul_le_mul_of_nonneg_right (rLo_le (le_refl _)) hu.le
  have e1 : ((3 : ℚ) : ℝ) ^ ((2 : ℚ) : ℝ) = 9 := by
    rw [show ((2 : ℚ) : ℝ) = ((2 : ℕ) : ℝ) by norm_num, Real.rpow_natCast]
    norm_num
  have c1 : ((-1 : ℚ) : ℝ) = -1 := by norm_num
  have c10 : ((10 : ℚ) : ℝ) = 10 := by norm_num
  have e2 : (-1 : ℝ) * 9 + 10 = 1 := by norm_num
  have main := C119_type7 l (2 * uu) (2 * uu) hl hlog (by linarith) (by linarith) (F64.ofRat 2) (F64.ofRat (-1))
    (F64.ofRat (-1)) (F64.ofRat 10) (F64.ofRat 0) (F64.ofRat 3) 2 (-1) (-1) 10 0 3 val_two' val_neg1 val_neg1
    (by decide +kernel) (by decide +kernel) (by decide +kernel) (by norm_num) (by rw [c1, abs_neg, abs_one]; exact hb)
    (by rw [Rat.cast_zero, abs_zero]; linarith)
  simp only [e1] at main
  simp only [c1, c10, e2, abs_neg, abs_one, Real.logb_one, abs_zero, mul_zero, Rat.cast_zero, add_zero, one_mul, div_one,
    mul_one] at main
  obtain ⟨z, Z, h1, h2, h3⟩ := main (inRange_small (by norm_num) (by norm_num)) (inRange_small (by norm_num) (by norm_num))
    (le_half_rHi (by norm_num)) (le_trans (by linarith : _ ≤ (16 : ℝ)) (le_rHi (by norm_num))) (by linarith)
  refine ⟨z, Z, h1, h2, ?_⟩
  simp only [c1, c10, Rat.cast_zero]
  exact h3.trans (by linarith)

/-- Type 8, `-2^(-x - 1) - 1/2` at 1. -/
example (l : Libm) (hl : AccuratePow l (2 * uu)) :
    ∃ z Z, eval (F64.ops l) 8 [F64.ofRat (-1), F64.ofRat 2, F64.ofRat (-1), F64.ofRat (-1), F64.ofRat (-1 / 2)] (F64.ofRat 1)
        = some z ∧ F64.val z = some Z ∧
      |(Z : ℝ) - Value 8 [((-1 : ℚ) : ℝ), ((2 : ℚ) : ℝ), ((-1 : ℚ) : ℝ), ((-1 : ℚ) : ℝ), ((-1 / 2 : ℚ) : ℝ)] ((1 : ℚ) : ℝ)|
        ≤ 8 * uu := by
  have hu := uu_pos
  have hu' := uu_le_tiny
  have hlo : rLo * uu ≤ 1 / 2 ^ 20 * uu := mul_le_mul_of_nonneg_right (rLo_le (le_refl _)) hu.le
  have hlo0 : 0 < rLo * uu := mul_pos rLo_pos hu
  have hl2 := Real.log_two_gt_d9
  have hl2' := Real.log_two_lt_d9
  have c1 : ((-1 : ℚ) : ℝ) = -1 := by norm_num
  have c2 : ((2 : ℚ) : ℝ) = 2 := by norm_num
  have c3 : ((-1 / 2 : ℚ) : ℝ) = -1 / 2 := by norm_num
  have e1 : (-1 : ℝ) + -1 = -2 := by norm_num
  have e2 : (2 : ℝ) ^ (-2 : ℝ) = 1 / 4 := by
    rw [Real.rpow_neg (by norm_num), show (2 : ℝ) ^ (2 : ℝ) = 4 by
      rw [show (2 : ℝ) ^ (2 : ℝ) = 2 ^ ((2 : ℕ) : ℝ) by norm_num, Real.rpow_natCast]; norm_num]
    norm_num
  have e3 : |(-2 : ℝ)| = 2 := by rw [abs_neg, abs_of_pos (by norm_num)]
  have e4 : |(-1 : ℝ) * (1 / 4) + -1 / 2| = 3 / 4 := by rw [abs_of_neg (by norm_num)]; norm_num
  have main := C119_type8 l (2 * uu) hl (by linarith) (by linarith) (F64.ofRat (-1)) (F64.ofRat 2) (F64.ofRat (-1))
    (F64.ofRat (-1)) (F64.ofRat (-1 / 2)) (F64.ofRat 1) (-1) 2 (-1) (-1) (-1 / 2) 1 val_neg1 val_two' val_neg1 val_neg1
    val_neg_half val_one1 (by norm_num)
  simp only [c1, c2, c3, Rat.cast_one, mul_one, e1] at main
  simp only [e2, e3, e4, abs_neg, abs_one, mul_one, one_mul] at main
  rw [abs_of_pos (by linarith : (0 : ℝ) < Real.log 2)] at main
  set ψ := 2 * uu + uu * 2 + 3 * (rLo * uu) with hψ
  have k1 : ψ ≤ 5 * uu := by rw [hψ]; linarith
  have k0 : 0 ≤ ψ := by rw [hψ]; linarith
  have k2 : ψ * Real.log 2 ≤ 5 * uu * (7 / 10) := mul_le_mul k1 (by linarith) (by linarith) (by linarith)
  obtain ⟨z, Z, h1, h2, h3⟩ := main (le_rHi (by norm_num)) (le_half_rHi (by norm_num))
    (inRange_small (by norm_num) (by norm_num)) (by linarith) (le_half_rHi (by norm_num)) (le_half_rHi (by norm_num))
  refine ⟨z, Z, h1, h2, ?_⟩
  simp only [c1, c2, c3, Rat.cast_one]
  exact h3.trans (by linarith)

end Lcms.Props
