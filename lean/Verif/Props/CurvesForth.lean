import Verif.Props.CurvesSpecial

/-! # Property C118: the inverse curve and then the curve, in binary64 -/

namespace Lcms.Props

open Lcms.Curves Lcms.Spec

theorem uu_le_tiny : uu ≤ 1 / 100000000 := by
  unfold uu
  norm_num

/-- The relative error of `a * z + b` when `z` is off by `e` from the number at which it is `S`. -/
noncomputable def forthErr (A B : ℚ) (e S : ℝ) : ℝ := (A * e + 6 * uu * (S + |(B : ℝ)|)) / S

/-- A number near the one at which `a * x + b` is `S`. -/
structure Near (a b z : F64) (A B Z : ℚ) (e S : ℝ) : Prop where
  ha : F64.val a = some A
  hb : F64.val b = some B
  hz : F64.val z = some Z
  hA : 0 < A
  root : InRange S
  sum : S + |(B : ℝ)| ≤ rHi
  near : |(Z : ℝ) - (S - B) / A| ≤ e
  small : forthErr A B e S ≤ 1 / 8

theorem Near.facts {a b z : F64} {A B Z : ℚ} {e S : ℝ} (h : Near a b z A B Z e S) :
    (0 : ℝ) < A ∧ 0 < S ∧ 0 ≤ e ∧ A * e + 6 * uu * (S + |(B : ℝ)|) ≤ S / 8 ∧ |(A : ℝ) * Z - (S - B)| ≤ A * e := by
  have hA : (0 : ℝ) < A := by exact_mod_cast h.hA
  have hS : 0 < S := lt_of_lt_of_le rLo_pos h.root.1
  have he : 0 ≤ e := (abs_nonneg _).trans h.near
  refine ⟨hA, hS, he, ?_, ?_⟩
  · have := h.small
    unfold forthErr at this
    rw [div_le_iff₀ hS] at this
    linarith
  · have e1 : (A : ℝ) * Z - (S - B) = A * (Z - (S - B) / A) := by field_simp
    rw [e1, abs_mul, abs_of_pos hA]
    exact mul_le_mul_of_nonneg_left h.near hA.le

/-- The argument of the power. -/
theorem Near.base {a b z : F64} {A B Z : ℚ} {e S : ℝ} (h : Near a b z A B Z e S) :
    ∃ E : ℚ, F64.val (F64.add (F64.mul a z) b) = some E ∧ |(E : ℝ) - S| ≤ forthErr A B e S * S := by
  obtain ⟨hA, hS, he, hs, hn⟩ := h.facts
  have hu := uu_pos
  have hu' := uu_small
  have h0 := rLo_pos
  have hhi := rHi_pos
  have hB := abs_nonneg (B : ℝ)
  have hB1 := le_abs_self (B : ℝ)
  have hB2 := neg_abs_le (B : ℝ)
  set T := S + |(B : ℝ)| with hT
  have hT0 : 0 < T := by linarith
  have huT : 0 ≤ uu * T := mul_nonneg hu.le hT0.le
  have hAe : 0 ≤ (A : ℝ) * e := mul_nonneg hA.le he
  have hlo : rLo * uu ≤ uu * T := by
    rw [mul_comm]
    exact mul_le_mul_of_nonneg_left (by linarith [h.root.1]) hu.le
  have n := abs_le.mp hn
  have hsum := h.sum
  have hAZ : |(A : ℝ) * Z| ≤ 5 / 4 * T := by
    rw [abs_le]
    constructor <;> linarith
  obtain ⟨M, hM, hMe⟩ := rd_both ((C104_operations a z A Z h.ha h.hz).2.2.1) (by
    rw [Rat.cast_mul]
    linarith)
  rw [Rat.cast_mul] at hMe
  have m1 : uu * |(A : ℝ) * Z| ≤ uu * (5 / 4 * T) := mul_le_mul_of_nonneg_left hAZ hu.le
  have m := abs_le.mp (hMe.trans (add_le_add m1 hlo))
  have hMB : |(M : ℝ) + B| ≤ 3 / 2 * T := by
    have : uu * T ≤ T / 100 := by nlinarith
    rw [abs_le]
    constructor <;> linarith
  obtain ⟨E, hE, hEe⟩ := rd_both ((C104_operations _ b M B hM h.hb).1) (by
    rw [Rat.cast_add]
    linarith)
  rw [Rat.cast_add] at hEe
  have e1 : uu * |(M : ℝ) + B| ≤ uu * (3 / 2 * T) := mul_le_mul_of_nonneg_left hMB hu.le
  have e2 := abs_le.mp (hEe.trans (add_le_add e1 hlo))
  refine ⟨E, hE, ?_⟩
  unfold forthErr
  rw [div_mul_cancel₀ _ hS.ne', abs_le]
  constructor <;> linarith

/-- The power. -/
theorem Near.power {l : Libm} {ε : ℝ} (hl : AccuratePow l ε) (hε : 0 ≤ ε) {g a b z : F64} {G A B Z : ℚ} {e S : ℝ}
    (h : Near a b z A B Z e S) (hg : F64.val g = some G) (hG : 0 < G) (hr : InRange (S ^ (G : ℝ)))
    (hs : forthErr A B e S * G ≤ 1 / 8) :
    F64.lt (F64.ofRat 0) (F64.add (F64.mul a z) b) = true ∧ F64.lt (F64.add (F64.mul a z) b) (F64.ofRat 0) = false ∧
    ∃ P : ℚ, F64.val (l.powf (F64.add (F64.mul a z) b) g) = some P ∧
      |(P : ℝ) - S ^ (G : ℝ)| ≤ (4 * forthErr A B e S * G + 2 * ε) * S ^ (G : ℝ) := by
  obtain ⟨hA, hS, -, -, -⟩ := h.facts
  obtain ⟨E, hE, hEe⟩ := h.base
  have hG' : (0 : ℝ) < G := by exact_mod_cast hG
  have hE0 : (0 : ℝ) < E := by
    have h1 := abs_le.mp hEe
    have h2 := mul_le_mul_of_nonneg_right h.small hS.le
    linarith
  refine ⟨pos_of_val hE (by exact_mod_cast hE0), not_lt_zero hE hE0.le, ?_⟩
  exact pow_near hl hε hE hg hG' hS hr (by linarith [h.small]) (by linarith) hEe

/-- The power and a constant. -/
theorem Near.plus {l : Libm} {ε : ℝ} (hl : AccuratePow l ε) (hε : 0 ≤ ε) (hε' : ε ≤ 1 / 8) {g a b c z : F64}
    {G A B C Z : ℚ} {e S Y : ℝ} (h : Near a b z A B Z e S) (hg : F64.val g = some G) (hG : 0 < G)
    (hr : InRange (S ^ (G : ℝ))) (hs : forthErr A B e S * G ≤ 1 / 8) (hc : F64.val c = some C)
    (hY : S ^ (G : ℝ) = Y - C) (hYr : |Y| ≤ rHi) :
    ∃ W : ℚ, F64.val (F64.add (l.powf (F64.add (F64.mul a z) b) g) c) = some W ∧
      |(W : ℝ) - Y| ≤ 2 * (4 * forthErr A B e S * G + 2 * ε) * (Y - C) + uu * |Y| + rLo * uu := by
  obtain ⟨-, -, P, hP, hPe⟩ := h.power hl hε hg hG hr hs
  have hu := uu_pos
  have hu' := uu_small
  rw [hY] at hr hPe
  set N := 4 * forthErr A B e S * G + 2 * ε with hN
  have hN1 : N ≤ 1 := by linarith
  have hD : 0 < Y - C := lt_of_lt_of_le rLo_pos hr.1
  have hND : 0 ≤ N * (Y - C) := (abs_nonneg _).trans hPe
  have hND' : N * (Y - C) ≤ Y - C := by nlinarith
  have p := abs_le.mp hPe
  have hPC : |(P : ℝ) + C| ≤ |Y| + N * (Y - C) := by
    have h1 := le_abs_self Y
    have h2 := neg_abs_le Y
    rw [abs_le]
    constructor <;> linarith
  obtain ⟨W, hW, hWe⟩ := rd_both ((C104_operations _ c P C hP hc).1) (by
    rw [Rat.cast_add]
    linarith [hr.2])
  rw [Rat.cast_add] at hWe
  have h3 : uu * |(P : ℝ) + C| ≤ uu * |Y| + N * (Y - C) := by
    have h4 := mul_le_mul_of_nonneg_left hPC hu.le
    have h5 : uu * (N * (Y - C)) ≤ 1 * (N * (Y - C)) := mul_le_mul_of_nonneg_right (by linarith) hND
    linarith
  have w := abs_le.mp hWe
  refine ⟨W, hW, ?_⟩
  rw [abs_le]
  constructor <;> linarith

/-- The point where `a * x + b` vanishes, as computed, lies below. -/
theorem Near.disc {a b z : F64} {A B Z : ℚ} {e S : ℝ} (h : Near a b z A B Z e S)
    (hq : InRange ((S + |(B : ℝ)|) / A)) : F64.le (F64.div (F64.neg b) a) z = true := by
  obtain ⟨hA, hS, he, hs, hn⟩ := h.facts
  have hu := uu_pos
  have h0 := rLo_pos
  have hB := abs_nonneg (B : ℝ)
  have hcast : (((-B / A : ℚ)) : ℝ) = -B / A := by push_cast; rfl
  have habs : |(-B / A : ℝ)| = |(B : ℝ)| / A := by rw [abs_div, abs_neg, abs_of_pos hA]
  have hle : |(B : ℝ)| / A ≤ (S + |(B : ℝ)|) / A := div_le_div_of_nonneg_right (by linarith) hA.le
  obtain ⟨V, hV, hVe⟩ := rd_both ((C104_operations (F64.neg b) a (-B) A (F64.val_neg h.hb) h.ha).2.2.2 h.hA.ne') (by
    rw [hcast, habs]
    linarith [hq.2, rHi_pos])
  rw [hcast, habs] at hVe
  refine (F64.le_val hV h.hz).mpr ?_
  have hlo : rLo * uu ≤ uu * ((S + |(B : ℝ)|) / A) := by
    rw [mul_comm]
    exact mul_le_mul_of_nonneg_left hq.1 hu.le
  have v := (abs_le.mp hVe).2
  have n := (abs_le.mp hn).1
  have hAV : (A : ℝ) * V ≤ A * Z := by
    have e1 : (A : ℝ) * (-B / A) = -B := by field_simp
    have e2 : (A : ℝ) * (uu * (|(B : ℝ)| / A)) = uu * |(B : ℝ)| := by field_simp
    have e3 : (A : ℝ) * (uu * ((S + |(B : ℝ)|) / A)) = uu * (S + |(B : ℝ)|) := by field_simp
    have h1 : (A : ℝ) * V ≤ A * (-B / A + uu * (|(B : ℝ)| / A) + uu * ((S + |(B : ℝ)|) / A)) :=
      mul_le_mul_of_nonneg_left (by linarith) hA.le
    rw [mul_add, mul_add, e1, e2, e3] at h1
    have h2 : 0 ≤ uu * S := mul_nonneg hu.le hS.le
    have h3 : 0 ≤ uu * |(B : ℝ)| := mul_nonneg hu.le hB
    linarith
  have := le_of_mul_le_mul_left hAV hA
  exact_mod_cast this

theorem RootPiece.near {g a b z : F64} {G A B Z : ℚ} {e S : ℝ} (h : RootPiece g a b G A B S) (hz : F64.val z = some Z)
    (hn : |(Z : ℝ) - (S - B) / A| ≤ e) (hs : forthErr A B e S ≤ 1 / 8) : Near a b z A B Z e S :=
  ⟨h.ha, h.hb, hz, by linarith [h.hA], h.root, h.sum, hn, hs⟩

theorem RootPiece.pos {g a b : F64} {G A B : ℚ} {S : ℝ} (h : RootPiece g a b G A B S) :
    0 < G ∧ (0 : ℝ) < G ∧ 0 < A ∧ (0 : ℝ) < A := by
  have h1 : 0 < G := by linarith [h.hG]
  have h2 : 0 < A := by linarith [h.hA]
  exact ⟨h1, by exact_mod_cast h1, h2, by exact_mod_cast h2⟩

/-! ### The theorems -/

/-- **C118**, type 1: the root and then the power. -/
theorem C118_type1 (l : Libm) (ε : ℝ) (hl : AccuratePow l ε) (hε : 0 ≤ ε) (g y : F64) (G Y : ℚ)
    (hg : F64.val g = some G) (hy : F64.val y = some Y) (hG : 1 / 1000 ≤ G) (hG' : G ≤ 1024) (hY : InRange Y)
    (hS : InRange ((Y : ℝ) ^ (1 / (G : ℝ)))) (hs : 2 * uu * |Real.log Y| / G + 3 * ε ≤ 1 / 2)
    (hs' : 2 * uu * |Real.log Y| + 3 * ε * G ≤ 1 / 8) :
    ∃ z w W, eval (F64.ops l) (-1) [g] y = some z ∧ eval (F64.ops l) 1 [g] z = some w ∧ F64.val w = some W ∧
      |(W : ℝ) - Y| ≤ (8 * uu * |Real.log Y| + 12 * ε * G + 2 * ε) * Y := by
  have hY' : (0 : ℝ) < Y := lt_of_lt_of_le rLo_pos hY.1
  have hY0 : 0 < Y := by exact_mod_cast hY'
  have hG0 : 0 < G := by linarith
  have hG1 : (0 : ℝ) < G := by exact_mod_cast hG0
  obtain ⟨z, Z, hz, hZ, he⟩ := C112_type1 l ε hl hε g y G Y hg hy hG hG' hY0 hS
  have hv : Value (-1) [(G : ℝ)] Y = (Y : ℝ) ^ (1 / (G : ℝ)) := by
    show (if (0 : ℝ) ≤ Y then (if Tiny (G : ℝ) then (10 : ℝ) ^ 22 else _) else _) = _
    rw [if_pos hY'.le, if_neg (not_tiny_real hG)]
  simp only [hv] at he
  have hS0 : 0 < (Y : ℝ) ^ (1 / (G : ℝ)) := Real.rpow_pos_of_pos hY' _
  have hlog : |Real.log ((Y : ℝ) ^ (1 / (G : ℝ)))| = |Real.log Y| / G := by
    rw [Real.log_rpow hY', abs_mul, abs_of_pos (by positivity)]
    ring
  rw [hlog] at he
  set ρ := 2 * uu * (|Real.log Y| / G) + 3 * ε with hρ
  have hρ1 : ρ ≤ 1 / 2 := by
    rw [hρ, ← mul_div_assoc]
    exact hs
  have hρG : ρ * G = 2 * uu * |Real.log Y| + 3 * ε * G := by
    rw [hρ]
    field_simp
  have hZ0 : (0 : ℝ) < Z := by
    have h1 := abs_le.mp he
    nlinarith
  obtain ⟨P, hP, hPe⟩ := pow_near hl hε hZ hg hG1 hS0 (by rw [root_pow hY'.le hG1.ne']; exact hY) hρ1
    (by rw [mul_assoc, hρG]; linarith) he
  rw [root_pow hY'.le hG1.ne'] at hPe
  refine ⟨z, _, P, hz, ?_, hP, hPe.trans (le_of_eq ?_)⟩
  · show some (f1 (F64.ops l) g z) = _
    unfold f1
    simp only [F64.ops, not_lt_zero hZ hZ0.le, Bool.false_eq_true, if_false]
  · rw [mul_assoc 4, hρG]
    ring

/-- **C118**, type 2. -/
theorem C118_type2 (l : Libm) (ε : ℝ) (hl : AccuratePow l ε) (hε : 0 ≤ ε) (hε' : ε ≤ 1 / 8) (g a b y : F64)
    (G A B Y : ℚ) (hy : F64.val y = some Y) (hY : InRange Y) (S : ℝ) (hS : S = (Y : ℝ) ^ (1 / (G : ℝ)))
    (h : RootPiece g a b G A B S) (hB : B ≤ S) (κ : ℝ) (hκ : κ = forthErr A B (backErr 0 G A B ε S) S) (hs : κ ≤ 1 / 8)
    (hs' : κ * G ≤ 1 / 8) :
    ∃ z w W, eval (F64.ops l) (-2) [g, a, b] y = some z ∧ eval (F64.ops l) 2 [g, a, b] z = some w ∧
      F64.val w = some W ∧ |(W : ℝ) - Y| ≤ (4 * κ * G + 2 * ε) * Y := by
  subst hS hκ
  obtain ⟨hG, hG1, hA, hA1⟩ := h.pos
  have hY' : (0 : ℝ) < Y := lt_of_lt_of_le rLo_pos hY.1
  obtain ⟨z, Z, hz, hZ, he⟩ := C112_type2 l ε hl hε hε' g a b y G A B Y hy (by exact_mod_cast hY') h
  have hv : Value (-2) [(G : ℝ), (A : ℝ), (B : ℝ)] Y = ((Y : ℝ) ^ (1 / (G : ℝ)) - B) / A := by
    show (if Tiny (G : ℝ) ∨ Tiny (A : ℝ) ∨ (Y : ℝ) < 0 then (0 : ℝ) else max 0 _) = _
    rw [if_neg, max_eq_right (div_nonneg (by linarith) hA1.le)]
    rintro (h1 | h1 | h1)
    · exact not_tiny_real h.hG h1
    · exact not_tiny_real h.hA h1
    · linarith
  rw [hv] at he
  have hn := h.near hZ he hs
  obtain ⟨h1, -, P, hP, hPe⟩ := hn.power hl hε h.hg hG (by rw [root_pow hY'.le hG1.ne']; exact hY) hs'
  rw [root_pow hY'.le hG1.ne'] at hPe
  refine ⟨z, _, P, hz, ?_, hP, hPe⟩
  show some (f2 (F64.ops l) g a b z) = _
  unfold f2
  simp only [not_tiny64 l h.ha h.hA, Bool.false_eq_true, if_false]
  simp only [F64.ops, hn.disc h.quot, h1, if_true]

/-- **C118**, type 3, above `c` and at a distance from zero that accounts for the error. -/
theorem C118_type3 (l : Libm) (ε : ℝ) (hl : AccuratePow l ε) (hε : 0 ≤ ε) (hε' : ε ≤ 1 / 8) (g a b c y : F64)
    (G A B C Y : ℚ) (hy : F64.val y = some Y) (hc : F64.val c = some C) (hd : InRange ((Y : ℝ) - C))
    (hYr : |(Y : ℝ)| ≤ rHi) (S : ℝ) (hS : S = ((Y : ℝ) - C) ^ (1 / (G : ℝ))) (h : RootPiece g a b G A B S)
    (hB : backErr uu G A B ε S ≤ (S - B) / A) (κ : ℝ) (hκ : κ = forthErr A B (backErr uu G A B ε S) S) (hs : κ ≤ 1 / 8)
    (hs' : κ * G ≤ 1 / 8) :
    ∃ z w W, eval (F64.ops l) (-3) [g, a, b, c] y = some z ∧ eval (F64.ops l) 3 [g, a, b, c] z = some w ∧
      F64.val w = some W ∧ |(W : ℝ) - Y| ≤ 2 * (4 * κ * G + 2 * ε) * (Y - C) + uu * |(Y : ℝ)| + rLo * uu := by
  subst hS hκ
  obtain ⟨hG, hG1, hA, hA1⟩ := h.pos
  have hpos : (0 : ℝ) < (Y : ℝ) - C := lt_of_lt_of_le rLo_pos hd.1
  obtain ⟨z, Z, hz, hZ, he⟩ := C112_type3 l ε hl hε hε' g a b c y G A B C Y hy hc hd h
  have hv : Value (-3) [(G : ℝ), (A : ℝ), (B : ℝ), (C : ℝ)] Y = (((Y : ℝ) - C) ^ (1 / (G : ℝ)) - B) / A := by
    show (if Tiny (A : ℝ) ∨ (Y : ℝ) = C then (0 : ℝ) else if (Y : ℝ) < C then _ else _) = _
    rw [if_neg, if_neg (by linarith)]
    rintro (h1 | h1)
    · exact not_tiny_real h.hA h1
    · linarith
  rw [hv] at he
  have hn := h.near hZ he hs
  have hroot := root_pow hpos.le hG1.ne'
  obtain ⟨h1, -, -⟩ := hn.power hl hε h.hg hG (by rw [hroot]; exact hd) hs'
  obtain ⟨W, hW, hWe⟩ := hn.plus hl hε hε' h.hg hG (by rw [hroot]; exact hd) hs' hc hroot hYr
  refine ⟨z, _, W, hz, ?_, hW, hWe⟩
  have hZ0 : (0 : ℝ) ≤ Z := by linarith [(abs_le.mp he).1]
  have hle := max_le_f64 (hn.disc h.quot) ((F64.le_val val_ofRat0 hZ).mpr (by exact_mod_cast hZ0))
  show some (f3 (F64.ops l) g a b c z) = _
  unfold f3
  simp only [not_tiny64 l h.ha h.hA, Bool.false_eq_true, if_false]
  simp only [F64.ops, hle, h1, if_true]

/-- **C118**, type 6, above `c`. -/
theorem C118_type6 (l : Libm) (ε : ℝ) (hl : AccuratePow l ε) (hε : 0 ≤ ε) (hε' : ε ≤ 1 / 8) (g a b c y : F64)
    (G A B C Y : ℚ) (hy : F64.val y = some Y) (hc : F64.val c = some C) (hd : InRange ((Y : ℝ) - C))
    (hYr : |(Y : ℝ)| ≤ rHi) (S : ℝ) (hS : S = ((Y : ℝ) - C) ^ (1 / (G : ℝ))) (h : RootPiece g a b G A B S)
    (κ : ℝ) (hκ : κ = forthErr A B (backErr uu G A B ε S) S) (hs : κ ≤ 1 / 8) (hs' : κ * G ≤ 1 / 8) :
    ∃ z w W, eval (F64.ops l) (-6) [g, a, b, c] y = some z ∧ eval (F64.ops l) 6 [g, a, b, c] z = some w ∧
      F64.val w = some W ∧ |(W : ℝ) - Y| ≤ 2 * (4 * κ * G + 2 * ε) * (Y - C) + uu * |(Y : ℝ)| + rLo * uu := by
  subst hS hκ
  obtain ⟨hG, hG1, hA, hA1⟩ := h.pos
  have hpos : (0 : ℝ) < (Y : ℝ) - C := lt_of_lt_of_le rLo_pos hd.1
  obtain ⟨z, Z, hz, hZ, he⟩ := C112_type6 l ε hl hε hε' g a b c y G A B C Y hy hc hd h
  have hv : Value (-6) [(G : ℝ), (A : ℝ), (B : ℝ), (C : ℝ)] Y = (((Y : ℝ) - C) ^ (1 / (G : ℝ)) - B) / A := by
    show (if Tiny (A : ℝ) ∨ (Y : ℝ) < C then (0 : ℝ) else _) = _
    rw [if_neg]
    rintro (h1 | h1)
    · exact not_tiny_real h.hA h1
    · linarith
  rw [hv] at he
  have hn := h.near hZ he hs
  have hroot := root_pow hpos.le hG1.ne'
  obtain ⟨-, h1, -⟩ := hn.power hl hε h.hg hG (by rw [hroot]; exact hd) hs'
  obtain ⟨W, hW, hWe⟩ := hn.plus hl hε hε' h.hg hG (by rw [hroot]; exact hd) hs' hc hroot hYr
  refine ⟨z, _, W, hz, ?_, hW, hWe⟩
  show some (f6 (F64.ops l) g a b c z) = _
  unfold f6
  simp only [F64.ops, h1, Bool.false_eq_true, if_false]

/-- **C118**, type 4, from the joint on, at a distance that accounts for the errors. -/
theorem C118_type4_power (l : Libm) (ε : ℝ) (hl : AccuratePow l ε) (hε : 0 ≤ ε) (hε' : ε ≤ 1 / 8) (g a b c d y : F64)
    (G A B D Y : ℚ) (hy : F64.val y = some Y) (hY : InRange Y) (j : PowerPiece g a b d G A B D)
    (hJ : (1 + bound G ε) * ((A : ℝ) * D + B) ^ (G : ℝ) ≤ Y) (S : ℝ) (hS : S = (Y : ℝ) ^ (1 / (G : ℝ)))
    (h : RootPiece g a b G A B S) (hD : (D : ℝ) + backErr 0 G A B ε S ≤ (S - B) / A) (κ : ℝ)
    (hκ : κ = forthErr A B (backErr 0 G A B ε S) S) (hs : κ ≤ 1 / 8) (hs' : κ * G ≤ 1 / 8) :
    ∃ z w W, eval (F64.ops l) (-4) [g, a, b, c, d] y = some z ∧ eval (F64.ops l) 4 [g, a, b, c, d] z = some w ∧
      F64.val w = some W ∧ |(W : ℝ) - Y| ≤ (4 * κ * G + 2 * ε) * Y := by
  subst hS hκ
  obtain ⟨hG, hG1, hA, hA1⟩ := h.pos
  have hY' : (0 : ℝ) < Y := lt_of_lt_of_le rLo_pos hY.1
  have hJ0 : 0 < ((A : ℝ) * D + B) ^ (G : ℝ) := Real.rpow_pos_of_pos j.pos _
  have hJ' : ((A : ℝ) * D + B) ^ (G : ℝ) ≤ Y := by
    have := mul_nonneg (bound_nonneg (G := G) hε) hJ0.le
    linarith
  obtain ⟨z, Z, hz, hZ, he⟩ := (C112_type4 l ε hl hε hε' g a b c d y G A B 0 D Y hy j).1 hJ h
  have hv : Value (-4) [(G : ℝ), (A : ℝ), (B : ℝ), ((0 : ℚ) : ℝ), (D : ℝ)] Y = ((Y : ℝ) ^ (1 / (G : ℝ)) - B) / A := by
    show (if ((A : ℝ) * D + B < 0 ∧ (Y : ℝ) < 0) ∨ ((A : ℝ) * D + B = 0 ∧ (G : ℝ) < 0) ∨
      (0 ≤ (A : ℝ) * D + B ∧ (Y : ℝ) < ((A : ℝ) * D + B) ^ (G : ℝ)) then _ else
      if Tiny (G : ℝ) ∨ Tiny (A : ℝ) then (0 : ℝ) else _) = _
    have hp := j.pos
    rw [if_neg, if_neg]
    · rintro (h1 | h1)
      · exact not_tiny_real h.hG h1
      · exact not_tiny_real h.hA h1
    · rintro (⟨h1, -⟩ | ⟨h1, -⟩ | ⟨-, h1⟩) <;> linarith
  rw [hv] at he
  have hn := h.near hZ he hs
  obtain ⟨h1, -, P, hP, hPe⟩ := hn.power hl hε h.hg hG (by rw [root_pow hY'.le hG1.ne']; exact hY) hs'
  rw [root_pow hY'.le hG1.ne'] at hPe
  refine ⟨z, _, P, hz, ?_, hP, hPe⟩
  have hDZ : (D : ℝ) ≤ Z := by linarith [(abs_le.mp he).1]
  have hle : F64.le d z = true := (F64.le_val j.hr hZ).mpr (by exact_mod_cast hDZ)
  show some (f4 (F64.ops l) g a b c d z) = _
  unfold f4
  simp only [F64.ops, hle, h1, if_true]

/-- **C118**, type 4, below the joint. -/
theorem C118_type4_line (l : Libm) (ε : ℝ) (hl : AccuratePow l ε) (hε : 0 ≤ ε) (hε' : ε ≤ 1 / 8) (g a b c d y : F64)
    (G A B C D Y : ℚ) (hy : F64.val y = some Y) (hc : F64.val c = some C) (hC : 1 / 1000 ≤ C) (hYr : |(Y : ℝ)| ≤ rHi)
    (hq : |(Y : ℝ) / C| ≤ rHi) (j : PowerPiece g a b d G A B D)
    (hJ : (Y : ℝ) < (1 - bound G ε) * ((A : ℝ) * D + B) ^ (G : ℝ))
    (hD : (Y : ℝ) / C + (uu * |(Y : ℝ) / C| + rLo * uu) < D) (hCr : (C : ℝ) ≤ rHi) :
    ∃ z w W, eval (F64.ops l) (-4) [g, a, b, c, d] y = some z ∧ eval (F64.ops l) 4 [g, a, b, c, d] z = some w ∧
      F64.val w = some W ∧ |(W : ℝ) - Y| ≤ 3 * uu * |(Y : ℝ)| + (2 * C + 1) * (rLo * uu) := by
  have hC1 : (1 / 1000 : ℝ) ≤ C := by
    have := (Rat.cast_le (K := ℝ)).mpr hC
    push_cast at this
    exact this
  have hC0 : (0 : ℝ) < C := by linarith
  have hu := uu_pos
  have hu' := uu_small
  have hlo := rLo_pos
  have hη : 0 < rLo * uu := mul_pos hlo hu
  obtain ⟨z, Z, hz, hZ, he⟩ := (C112_type4 l ε hl hε hε' g a b c d y G A B C D Y hy j).2 hJ hc hC hq
  have hJ0 : 0 < ((A : ℝ) * D + B) ^ (G : ℝ) := Real.rpow_pos_of_pos j.pos _
  have hJ' : (Y : ℝ) < ((A : ℝ) * D + B) ^ (G : ℝ) := by
    have := mul_nonneg (bound_nonneg (G := G) hε) hJ0.le
    linarith
  have hv : Value (-4) [(G : ℝ), (A : ℝ), (B : ℝ), (C : ℝ), (D : ℝ)] Y = Y / C := by
    show (if _ then (if Tiny (C : ℝ) then (0 : ℝ) else _) else _) = _
    rw [if_pos, if_neg (not_tiny_real hC)]
    exact .inr (.inr ⟨j.pos.le, hJ'⟩)
  rw [hv] at he
  have hZD : (Z : ℝ) < D := by linarith [(abs_le.mp he).2]
  have hle : F64.le d z = false := by
    by_contra hcon
    have h1 := (F64.le_val j.hr hZ).mp (by simpa using hcon)
    have h2 : (D : ℝ) ≤ Z := by exact_mod_cast h1
    linarith
  have hCY : (C : ℝ) * |(Y : ℝ) / C| = |(Y : ℝ)| := by
    rw [abs_div, abs_of_pos hC0]
    field_simp
  have hp : |(Z : ℝ) * C - Y| ≤ uu * |(Y : ℝ)| + C * (rLo * uu) := by
    have e1 : (Z : ℝ) * C - Y = C * (Z - Y / C) := by field_simp
    rw [e1, abs_mul, abs_of_pos hC0]
    have h1 := mul_le_mul_of_nonneg_left he hC0.le
    have e2 : (C : ℝ) * (uu * |(Y : ℝ) / C| + rLo * uu) = uu * (C * |(Y : ℝ) / C|) + C * (rLo * uu) := by ring
    rw [e2, hCY] at h1
    exact h1
  have hY0 := abs_nonneg (Y : ℝ)
  have huY : 0 ≤ uu * |(Y : ℝ)| := mul_nonneg hu.le hY0
  have hCη : 0 ≤ C * (rLo * uu) := mul_nonneg hC0.le hη.le
  have hCη' : C * (rLo * uu) ≤ rHi / 100 := by
    have h1 : rLo * uu ≤ 1 / 100 := by
      have := mul_le_mul_of_nonneg_right (rLo_le (show (1 / 2 ^ 20 : ℝ) ≤ 1 by norm_num)) hu.le
      linarith
    have h2 := mul_le_mul hCr h1 hη.le rHi_pos.le
    linarith
  have huY' : uu * |(Y : ℝ)| ≤ |(Y : ℝ)| / 100 := by nlinarith
  have hab : |(Z : ℝ) * C| ≤ |(Y : ℝ)| + (uu * |(Y : ℝ)| + C * (rLo * uu)) := by
    have h1 := abs_le.mp hp
    have h2 := le_abs_self (Y : ℝ)
    have h3 := neg_abs_le (Y : ℝ)
    rw [abs_le]
    constructor <;> linarith
  obtain ⟨W, hW, hWe⟩ := rd_both ((C104_operations z c Z C hZ hc).2.2.1) (by
    rw [Rat.cast_mul]
    linarith [rHi_pos])
  rw [Rat.cast_mul] at hWe
  refine ⟨z, _, W, hz, ?_, hW, ?_⟩
  · show some (f4 (F64.ops l) g a b c d z) = _
    unfold f4
    simp only [F64.ops, hle, Bool.false_eq_true, if_false]
  · have h1 := mul_le_mul_of_nonneg_left hab hu.le
    have h2 : uu * (uu * |(Y : ℝ)| + C * (rLo * uu)) ≤ 1 * (uu * |(Y : ℝ)| + C * (rLo * uu)) :=
      mul_le_mul_of_nonneg_right (by linarith) (by linarith)
    have h3 := abs_sub_le (W : ℝ) (Z * C) Y
    linarith

/-- **C118**, type 5, from the joint on, at a distance that accounts for the errors. -/
theorem C118_type5_power (l : Libm) (ε : ℝ) (hl : AccuratePow l ε) (hε : 0 ≤ ε) (hε' : ε ≤ 1 / 8)
    (g a b c d e f y : F64) (G A B C D E F Y : ℚ) (hy : F64.val y = some Y) (hc : F64.val c = some C)
    (hd : F64.val d = some D) (he : F64.val e = some E) (hf : F64.val f = some F) (hC : 1 / 1000 ≤ C) (hD0 : 0 ≤ D)
    (hF : 0 ≤ F) (hJr : InRange ((C : ℝ) * D + F)) (hJ : (1 + uu) ^ 2 * ((C : ℝ) * D + F) ≤ Y)
    (hdr : InRange ((Y : ℝ) - E)) (hYr : |(Y : ℝ)| ≤ rHi) (S : ℝ) (hS : S = ((Y : ℝ) - E) ^ (1 / (G : ℝ)))
    (h : RootPiece g a b G A B S) (hD : (D : ℝ) + backErr uu G A B ε S ≤ (S - B) / A) (κ : ℝ)
    (hκ : κ = forthErr A B (backErr uu G A B ε S) S) (hs : κ ≤ 1 / 8) (hs' : κ * G ≤ 1 / 8) :
    ∃ z w W, eval (F64.ops l) (-5) [g, a, b, c, d, e, f] y = some z ∧
      eval (F64.ops l) 5 [g, a, b, c, d, e, f] z = some w ∧ F64.val w = some W ∧
      |(W : ℝ) - Y| ≤ 2 * (4 * κ * G + 2 * ε) * (Y - E) + uu * |(Y : ℝ)| + rLo * uu := by
  subst hS hκ
  obtain ⟨hG, hG1, hA, hA1⟩ := h.pos
  have hu := uu_pos
  have hpos : (0 : ℝ) < (Y : ℝ) - E := lt_of_lt_of_le rLo_pos hdr.1
  have hJ0 : 0 < (C : ℝ) * D + F := lt_of_lt_of_le rLo_pos hJr.1
  have hJ' : (C : ℝ) * D + F ≤ Y :=
    (le_mul_of_one_le_left hJ0.le (one_le_pow₀ (by linarith))).trans hJ
  obtain ⟨z, Z, hz, hZ, hn⟩ := (C112_type5 l ε hl hε hε' g a b c d e f y G A B C D E F Y hy hc hd hf hC hD0 hF hJr).1 hJ
    he hdr h
  have hv : Value (-5) [(G : ℝ), (A : ℝ), (B : ℝ), (C : ℝ), (D : ℝ), (E : ℝ), (F : ℝ)] Y =
      (((Y : ℝ) - E) ^ (1 / (G : ℝ)) - B) / A := by
    show (if (Y : ℝ) < C * D + F then _ else if (Y : ℝ) < E ∨ Tiny (G : ℝ) ∨ Tiny (A : ℝ) then (0 : ℝ) else _) = _
    rw [if_neg (by linarith), if_neg]
    rintro (h1 | h1 | h1)
    · linarith
    · exact not_tiny_real h.hG h1
    · exact not_tiny_real h.hA h1
  rw [hv] at hn
  have hN := h.near hZ hn hs
  have hroot := root_pow hpos.le hG1.ne'
  obtain ⟨h1, -, -⟩ := hN.power hl hε h.hg hG (by rw [hroot]; exact hdr) hs'
  obtain ⟨W, hW, hWe⟩ := hN.plus hl hε hε' h.hg hG (by rw [hroot]; exact hdr) hs' he hroot hYr
  refine ⟨z, _, W, hz, ?_, hW, hWe⟩
  have hDZ : (D : ℝ) ≤ Z := by linarith [(abs_le.mp hn).1]
  have hle : F64.le d z = true := (F64.le_val hd hZ).mpr (by exact_mod_cast hDZ)
  show some (f5 (F64.ops l) g a b c d e f z) = _
  unfold f5
  simp only [F64.ops, hle, h1, if_true]

/-- **C118**, type 5, below the joint. -/
theorem C118_type5_line (l : Libm) (ε : ℝ) (hl : AccuratePow l ε) (hε : 0 ≤ ε) (hε' : ε ≤ 1 / 8)
    (g a b c d e f y : F64) (C D F Y : ℚ) (hy : F64.val y = some Y) (hc : F64.val c = some C)
    (hd : F64.val d = some D) (hf : F64.val f = some F) (hC : 1 / 1000 ≤ C) (hCr : (C : ℝ) ≤ rHi) (hD0 : 0 ≤ D)
    (hF : 0 ≤ F) (hJr : InRange ((C : ℝ) * D + F)) (hJ : (Y : ℝ) < (1 - uu) ^ 2 * ((C : ℝ) * D + F))
    (hq : |(Y : ℝ) - F| / C ≤ rHi / 2) (hq' : |(Y : ℝ) - F| ≤ rHi / 2) (hYr : |(Y : ℝ)| ≤ rHi)
    (hD : ((Y : ℝ) - F) / C + (3 * uu * |((Y : ℝ) - F) / C| + 2001 * (rLo * uu)) < D) :
    ∃ z w W, eval (F64.ops l) (-5) [g, a, b, c, d, e, f] y = some z ∧
      eval (F64.ops l) 5 [g, a, b, c, d, e, f] z = some w ∧ F64.val w = some W ∧
      |(W : ℝ) - Y| ≤ 6 * uu * |(Y : ℝ) - F| + uu * |(Y : ℝ)| + (2003 * C + 3) * (rLo * uu) := by
  have hC1 : (1 / 1000 : ℝ) ≤ C := by
    have := (Rat.cast_le (K := ℝ)).mpr hC
    push_cast at this
    exact this
  have hC0 : (0 : ℝ) < C := by linarith
  have hu := uu_pos
  have hu' := uu_le_tiny
  have hη : 0 < rLo * uu := mul_pos rLo_pos hu
  have hη1 : rLo * uu ≤ 1 / 2 ^ 20 * uu := mul_le_mul_of_nonneg_right (rLo_le (le_refl _)) hu.le
  have hhi := rHi_big
  have hJ0 : 0 < (C : ℝ) * D + F := lt_of_lt_of_le rLo_pos hJr.1
  obtain ⟨z, Z, hz, hZ, hn⟩ := (C112_type5 l ε hl hε hε' g a b c d e f y 0 0 0 C D 0 F Y hy hc hd hf hC hD0 hF hJr).2 hJ
    hq hq'
  have hv : Value (-5) [((0 : ℚ) : ℝ), ((0 : ℚ) : ℝ), ((0 : ℚ) : ℝ), (C : ℝ), (D : ℝ), ((0 : ℚ) : ℝ), (F : ℝ)] Y =
      ((Y : ℝ) - F) / C := by
    show (if (Y : ℝ) < C * D + F then (if Tiny (C : ℝ) then (0 : ℝ) else _) else _) = _
    rw [if_pos, if_neg (not_tiny_real hC)]
    refine lt_of_lt_of_le hJ (mul_le_of_le_one_left hJ0.le (pow_le_one₀ (by linarith) (by linarith)))
  rw [hv] at hn
  have hZD : (Z : ℝ) < D := by linarith [(abs_le.mp hn).2]
  have hle : F64.le d z = false := by
    by_contra hcon
    have h1 := (F64.le_val hd hZ).mp (by simpa using hcon)
    have h2 : (D : ℝ) ≤ Z := by exact_mod_cast h1
    linarith
  obtain ⟨Q, hQ⟩ : ∃ Q, |(Y : ℝ) - F| = Q := ⟨_, rfl⟩
  obtain ⟨η, hηd⟩ : ∃ η, rLo * uu = η := ⟨_, rfl⟩
  rw [hQ] at hq'
  rw [hηd] at hη hη1 hn
  rw [hQ, hηd]
  have hQ0 : 0 ≤ Q := hQ ▸ abs_nonneg _
  have huQ : 0 ≤ uu * Q := mul_nonneg hu.le hQ0
  have hCη : 0 ≤ C * η := mul_nonneg hC0.le hη.le
  have hCη' : C * η ≤ rHi * (1 / 10000000) := mul_le_mul hCr (by linarith) hη.le rHi_pos.le
  have huCη : uu * (C * η) ≤ 1 / 10000 * (C * η) := mul_le_mul_of_nonneg_right (by linarith) hCη
  have huη : uu * η ≤ 1 / 10000 * η := mul_le_mul_of_nonneg_right (by linarith) hη.le
  have huuQ : uu * (uu * Q) ≤ 1 / 10000 * (uu * Q) := mul_le_mul_of_nonneg_right (by linarith) huQ
  have huQ' : uu * Q ≤ 1 / 10000 * Q := mul_le_mul_of_nonneg_right (by linarith) hQ0
  have hp : |(Z : ℝ) * C - (Y - F)| ≤ 3 * (uu * Q) + 2001 * (C * η) := by
    have e1 : (Z : ℝ) * C - (Y - F) = C * (Z - (Y - F) / C) := by field_simp
    have e3 : (C : ℝ) * |((Y : ℝ) - F) / C| = Q := by
      rw [abs_div, abs_of_pos hC0, hQ]
      field_simp
    rw [e1, abs_mul, abs_of_pos hC0]
    have h1 := mul_le_mul_of_nonneg_left hn hC0.le
    have e2 : (C : ℝ) * (3 * uu * |((Y : ℝ) - F) / C| + 2001 * η) =
        3 * (uu * (C * |((Y : ℝ) - F) / C|)) + 2001 * (C * η) := by ring
    rw [e2, e3] at h1
    exact h1
  have p := abs_le.mp hp
  have q1 := le_abs_self ((Y : ℝ) - F)
  have q2 := neg_abs_le ((Y : ℝ) - F)
  rw [hQ] at q1 q2
  have hab : |(Z : ℝ) * C| ≤ Q + (3 * (uu * Q) + 2001 * (C * η)) := by
    rw [abs_le]
    constructor <;> linarith
  obtain ⟨M, hM, hMe⟩ := rd_both ((C104_operations z c Z C hZ hc).2.2.1) (by
    rw [Rat.cast_mul]
    linarith [rHi_pos])
  rw [Rat.cast_mul, hηd] at hMe
  have m := abs_le.mp hMe
  have m1 := mul_le_mul_of_nonneg_left hab hu.le
  have y1 := le_abs_self (Y : ℝ)
  have y2 := neg_abs_le (Y : ℝ)
  have hMF : |(M : ℝ) + F - Y| ≤ 5 * (uu * Q) + 2002 * (C * η) + η := by
    rw [abs_le]
    constructor <;> linarith
  have mf := abs_le.mp hMF
  have hMF' : |(M : ℝ) + F| ≤ |(Y : ℝ)| + (5 * (uu * Q) + 2002 * (C * η) + η) := by
    rw [abs_le]
    constructor <;> linarith
  obtain ⟨W, hW, hWe⟩ := rd_both ((C104_operations _ f M F hM hf).1) (by
    rw [Rat.cast_add]
    linarith [rHi_pos])
  rw [Rat.cast_add, hηd] at hWe
  have w := abs_le.mp hWe
  have w1 := mul_le_mul_of_nonneg_left hMF' hu.le
  refine ⟨z, _, W, hz, ?_, hW, ?_⟩
  · show some (f5 (F64.ops l) g a b c d e f z) = _
    unfold f5
    simp only [F64.ops, hle, Bool.false_eq_true, if_false]
  · rw [abs_le]
    constructor <;> linarith

theorem SrgbNums.forth_power {G A B C D J : ℚ} (n : SrgbNums G A B C D J) (l : Libm) (hl : AccuratePow l (2 * uu))
    (y : F64) (Y : ℚ) (hy : F64.val y = some Y) (h0 : 0 ≤ Y) (h1 : Y ≤ 1) (hj : (1 + 4000 * uu) * ((A : ℝ) * D + B) ^ (G : ℝ) ≤ Y) :
    ∃ z w W, eval (F64.ops l) (-4) srgb y = some z ∧ eval (F64.ops l) 4 srgb z = some w ∧ F64.val w = some W ∧
      |(W : ℝ) - Y| ≤ 540 * uu * Y + 3 * (rLo * uu) := by
  obtain ⟨⟨rG1, rG2⟩, ⟨rA1, rA2⟩, ⟨rB1, rB2⟩, rAB, ⟨rC1, rC2⟩, ⟨rS1, rS2⟩, -⟩ := n.real
  have rY0 : (0 : ℝ) ≤ Y := by exact_mod_cast h0
  have rY1 : (Y : ℝ) ≤ 1 := by exact_mod_cast h1
  have hu := uu_pos
  have hu' := uu_le_tiny
  have hη : 0 < rLo * uu := mul_pos rLo_pos hu
  obtain ⟨hb1, -⟩ := n.bound
  have jp := n.piece n.vD (by linarith [n.D1]) n.D2
  have hW : 0 < ((A : ℝ) * D + B) ^ (G : ℝ) := Real.rpow_pos_of_pos jp.pos _
  have hWr : (((A : ℝ) * D + B) ^ (G : ℝ)) ^ (1 / (G : ℝ)) = (A : ℝ) * D + B := by
    rw [← Real.rpow_mul jp.pos.le, mul_one_div_cancel (by linarith), Real.rpow_one]
  have hY : ((A : ℝ) * D + B) ^ (G : ℝ) ≤ Y := by nlinarith
  have hY0 : (0 : ℝ) < Y := by linarith
  have sJ : ((A : ℝ) * D + B) * (1 + 1000 * uu) ≤ (Y : ℝ) ^ (1 / (G : ℝ)) := by
    by_contra hcon
    push Not at hcon
    have h2 := Real.rpow_lt_rpow (Real.rpow_nonneg rY0 _) hcon (show (0 : ℝ) < G by linarith)
    rw [root_pow rY0 (by linarith), Real.mul_rpow jp.pos.le (by linarith)] at h2
    have h3 : (1 + 1000 * uu) ^ (G : ℝ) ≤ (1 + 1000 * uu) ^ (3 : ℝ) :=
      Real.rpow_le_rpow_of_exponent_le (by linarith) (by linarith)
    have h4 : (1 + 1000 * uu) ^ (3 : ℝ) = (1 + 1000 * uu) ^ 3 := by exact_mod_cast Real.rpow_natCast (1 + 1000 * uu) 3
    have h5 : (1 + 1000 * uu) ^ 3 ≤ 1 + 4000 * uu := by
      obtain ⟨t, ht⟩ : ∃ t, 1000 * uu = t := ⟨_, rfl⟩
      have ht0 : 0 < t := by rw [← ht]; linarith
      have ht1 : t ≤ 1 / 100 := by rw [← ht]; linarith
      rw [ht, show 4000 * uu = 4 * t by rw [← ht]; ring]
      nlinarith [mul_pos ht0 ht0, mul_le_mul_of_nonneg_left ht1 ht0.le, mul_le_mul_of_nonneg_left ht1 (mul_pos ht0 ht0).le]
    rw [h4] at h3
    have h6 := mul_le_mul_of_nonneg_left (h3.trans h5) hW.le
    linarith
  have s1 : 9047393 / 100000000 ≤ (Y : ℝ) ^ (1 / (G : ℝ)) := by
    have := mul_nonneg jp.pos.le hu.le
    linarith
  have s2 : (Y : ℝ) ^ (1 / (G : ℝ)) ≤ 1 := Real.rpow_le_one rY0 rY1 (by positivity)
  obtain ⟨S, hS⟩ : ∃ S, (Y : ℝ) ^ (1 / (G : ℝ)) = S := ⟨_, rfl⟩
  rw [hS] at sJ s1 s2
  have hB : |(B : ℝ)| = B := abs_of_nonneg (by linarith)
  have hlog := abs_log_small (show 1 / 20 ≤ S by linarith) (by linarith)
  have q1 : (S + B) / A ≤ 1112 / 1000 := by
    rw [div_le_iff₀ (by linarith)]
    linarith
  have q2 : 1 / 20 ≤ (S + B) / A := by
    rw [le_div_iff₀ (by linarith)]
    linarith
  have e3 : 4 * uu * |Real.log S| + 0 + 6 * (2 * uu) + 4 * uu ≤ 284 / 10 * uu := by
    have := mul_le_mul_of_nonneg_left hlog hu.le
    linarith
  have hbe : backErr 0 G A B (2 * uu) S ≤ 284 / 10 * uu * ((S + B) / A) := by
    unfold backErr
    rw [hB, mul_zero, zero_div]
    exact mul_le_mul_of_nonneg_right e3 (by linarith)
  have hAe : (A : ℝ) * backErr 0 G A B (2 * uu) S ≤ 284 / 10 * uu * (S + B) := by
    have h2 := mul_le_mul_of_nonneg_left hbe (show (0 : ℝ) ≤ A by linarith)
    have h3 : (A : ℝ) * (284 / 10 * uu * ((S + B) / A)) = 284 / 10 * uu * (S + B) := by field_simp
    linarith
  have hκ : forthErr A B (backErr 0 G A B (2 * uu) S) S ≤ 551 / 10 * uu := by
    unfold forthErr
    rw [hB, div_le_iff₀ (by linarith)]
    have := mul_le_mul_of_nonneg_left (show 344 / 10 * (S + B) ≤ 551 / 10 * S by linarith) hu.le
    linarith
  have hκ0 : 0 ≤ uu * G := mul_nonneg hu.le (by linarith)
  have hκG : forthErr A B (backErr 0 G A B (2 * uu) S) S * G ≤ 551 / 10 * uu * (12 / 5) :=
    mul_le_mul hκ rG2 (by linarith) (by linarith)
  obtain ⟨z, w, W, hz, hw, hWv, he⟩ := C118_type4_power l (2 * uu) hl (by linarith) (by linarith) _ _ _
    (F64.ofRat (100 / 1292)) _ y G A B D Y hy
    ⟨(jp.power.1).trans hY, le_rHi (rY1.trans (by norm_num))⟩ jp (by nlinarith) S hS.symm
    ⟨n.vG, n.vA, n.vB, by linarith [n.G1], by linarith [n.G2],
    by linarith [n.A1], ⟨rLo_le (le_trans (by norm_num) s1), le_rHi (s2.trans (by norm_num))⟩,
    by rw [hB]; exact le_rHi (le_trans (show _ ≤ (2 : ℝ) by linarith) (by norm_num)),
    by rw [hB]; exact ⟨rLo_le (le_trans (by norm_num) q2), le_rHi (q1.trans (by norm_num))⟩⟩
    (by
      rw [le_div_iff₀ (by linarith)]
      have h2 := mul_le_mul_of_nonneg_right rS1 hu.le
      have h3 : uu * (S + B) ≤ uu * (1053 / 1000) := mul_le_mul_of_nonneg_left (by linarith) hu.le
      linarith) _ rfl (by linarith) (by linarith)
  refine ⟨z, w, W, hz, hw, hWv, he.trans ?_⟩
  have : (4 * forthErr A B (backErr 0 G A B (2 * uu) S) S * G + 2 * (2 * uu)) * (Y : ℝ) ≤ 540 * uu * Y :=
    mul_le_mul_of_nonneg_right (by linarith) rY0
  linarith

theorem SrgbNums.forth_line {G A B C D J : ℚ} (n : SrgbNums G A B C D J) (l : Libm) (hl : AccuratePow l (2 * uu))
    (y : F64) (Y : ℚ) (hy : F64.val y = some Y) (h0 : 0 ≤ Y) (h1 : Y ≤ 1)
    (hj : (Y : ℝ) ≤ (1 - 4000 * uu) * min (((A : ℝ) * D + B) ^ (G : ℝ)) (C * D)) :
    ∃ z w W, eval (F64.ops l) (-4) srgb y = some z ∧ eval (F64.ops l) 4 srgb z = some w ∧ F64.val w = some W ∧
      |(W : ℝ) - Y| ≤ 540 * uu * Y + 3 * (rLo * uu) := by
  obtain ⟨⟨rG1, rG2⟩, ⟨rA1, rA2⟩, ⟨rB1, rB2⟩, rAB, ⟨rC1, rC2⟩, ⟨rS1, rS2⟩, -⟩ := n.real
  have rY0 : (0 : ℝ) ≤ Y := by exact_mod_cast h0
  have rY1 : (Y : ℝ) ≤ 1 := by exact_mod_cast h1
  have hu := uu_pos
  have hu' := uu_le_tiny
  have hη : 0 < rLo * uu := mul_pos rLo_pos hu
  obtain ⟨hb1, -⟩ := n.bound
  have jp := n.piece n.vD (by linarith [n.D1]) n.D2
  have hW : 0 < ((A : ℝ) * D + B) ^ (G : ℝ) := Real.rpow_pos_of_pos jp.pos _
  have hWr : (((A : ℝ) * D + B) ^ (G : ℝ)) ^ (1 / (G : ℝ)) = (A : ℝ) * D + B := by
    rw [← Real.rpow_mul jp.pos.le, mul_one_div_cancel (by linarith), Real.rpow_one]
  have j1 : (Y : ℝ) ≤ (1 - 4000 * uu) * ((A : ℝ) * D + B) ^ (G : ℝ) :=
    hj.trans (mul_le_mul_of_nonneg_left (min_le_left _ _) (by linarith))
  have j2 : (Y : ℝ) ≤ (1 - 4000 * uu) * ((C : ℝ) * D) :=
    hj.trans (mul_le_mul_of_nonneg_left (min_le_right _ _) (by linarith))
  have rD : (1 / 25 : ℝ) ≤ D ∧ (D : ℝ) ≤ 1 := by
    have a1 := (Rat.cast_le (K := ℝ)).mpr n.D1
    have a2 := (Rat.cast_le (K := ℝ)).mpr n.D2
    push_cast at a1 a2
    exact ⟨a1, a2⟩
  have hyc0 : 0 ≤ (Y : ℝ) / C := div_nonneg rY0 (by linarith)
  have hyc : (Y : ℝ) / C ≤ (1 - 4000 * uu) * D := by
    rw [div_le_iff₀ (by linarith)]
    linarith
  have huD : uu * (1 / 25) ≤ uu * D := mul_le_mul_of_nonneg_left rD.1 hu.le
  have huy : uu * ((Y : ℝ) / C) ≤ uu * D := mul_le_mul_of_nonneg_left (hyc.trans (by linarith)) hu.le
  have hη1 : rLo * uu ≤ 1 / 2 ^ 20 * uu := mul_le_mul_of_nonneg_right (rLo_le (le_refl _)) hu.le
  obtain ⟨z, w, W, hz, hw, hWv, he⟩ := C118_type4_line l (2 * uu) hl (by linarith) (by linarith) _ _ _
    _ _ y G A B C D Y hy n.vC (by linarith [n.C1]) (by rw [abs_of_nonneg rY0]; exact le_rHi (rY1.trans (by norm_num)))
    (by rw [abs_of_nonneg hyc0]; exact le_rHi (le_trans (show _ ≤ (1 : ℝ) by linarith) (by norm_num))) jp
    (by
      have := mul_pos hu hW
      have := mul_le_mul_of_nonneg_right hb1 hW.le
      linarith)
    (by rw [abs_of_nonneg hyc0]; linarith) (le_rHi (rC2.trans (by norm_num)))
  refine ⟨z, w, W, hz, hw, hWv, he.trans ?_⟩
  rw [abs_of_nonneg rY0]
  have h2 : 0 ≤ uu * (Y : ℝ) := mul_nonneg hu.le rY0
  have h3 := mul_le_mul_of_nonneg_right rC2 hη.le
  linarith

/-- **C118** for the sRGB curve, away from the joint. -/
theorem C118_srgb (l : Libm) (hl : AccuratePow l (2 * uu)) (y : F64) (Y : ℚ) (hy : F64.val y = some Y) (h0 : 0 ≤ Y)
    (h1 : Y ≤ 1) (hj : let c : ℝ := F64.ratOf (F64.ofRat (100 / 1292))
      let d : ℝ := F64.ratOf (F64.ofRat (4045 / 100000))
      let J := ((F64.ratOf (F64.ofRat (1000 / 1055)) : ℝ) * d + F64.ratOf (F64.ofRat (55 / 1055))) ^
        (F64.ratOf (F64.ofRat (24 / 10)) : ℝ)
      (1 + 4000 * uu) * J ≤ Y ∨ Y ≤ (1 - 4000 * uu) * min J (c * d)) :
    ∃ z w W, eval (F64.ops l) (-4) srgb y = some z ∧ eval (F64.ops l) 4 srgb z = some w ∧ F64.val w = some W ∧
      |(W : ℝ) - Y| ≤ 540 * uu * Y + 3 * (rLo * uu) := by
  obtain ⟨G, A, B, C, D, J, n⟩ := srgb_nums
  simp only [ratOf_of_val n.vG, ratOf_of_val n.vA, ratOf_of_val n.vB, ratOf_of_val n.vC, ratOf_of_val n.vD] at hj
  rcases hj with hj | hj
  · exact n.forth_power l hl y Y hy h0 h1 hj
  · exact n.forth_line l hl y Y hy h0 h1 hj

/-! ### Instances -/

theorem two_forth {e : ℝ} (he : e ≤ 78 * uu) : forthErr 1 1 e 2 ≤ 48 * uu := by
  unfold forthErr
  push_cast
  rw [abs_one, div_le_iff₀ (by norm_num)]
  linarith

/-- Type 1: the root of 3, and its square. -/
example (l : Libm) (hl : AccuratePow l (2 * uu)) :
    ∃ z w W, eval (F64.ops l) (-1) [F64.ofRat 2] (F64.ofRat 3) = some z ∧ eval (F64.ops l) 1 [F64.ofRat 2] z = some w ∧
      F64.val w = some W ∧ |(W : ℝ) - 3| ≤ 204 * uu := by
  have hu := uu_pos
  have hu' := uu_le_tiny
  have s1 : (1 : ℝ) ≤ 3 ^ (1 / 2 : ℝ) := Real.one_le_rpow (by norm_num) (by norm_num)
  have s2 : (3 : ℝ) ^ (1 / 2 : ℝ) ≤ 3 := by
    have := Real.rpow_le_rpow_of_exponent_le (show (1 : ℝ) ≤ 3 by norm_num) (show (1 / 2 : ℝ) ≤ 1 by norm_num)
    rwa [Real.rpow_one] at this
  have e3 : ((3 : ℚ) : ℝ) = 3 := by norm_num
  have e2 : ((2 : ℚ) : ℝ) = 2 := by norm_num
  have hlog : |Real.log (3 : ℝ)| ≤ 2 := by
    rw [abs_of_nonneg (Real.log_nonneg (by norm_num))]
    have := Real.log_le_sub_one_of_pos (show (0 : ℝ) < 3 by norm_num)
    linarith
  have hul : uu * |Real.log (3 : ℝ)| ≤ uu * 2 := mul_le_mul_of_nonneg_left hlog hu.le
  obtain ⟨z, w, W, h1, h2, h3, h4⟩ := C118_type1 l (2 * uu) hl (by linarith) (F64.ofRat 2) (F64.ofRat 3) 2 3 val_two'
    (by decide +kernel) (by norm_num) (by norm_num) (by rw [e3]; exact inRange_small (by norm_num) (by norm_num))
    (by rw [e3, e2]; exact inRange_small (by linarith) (by linarith)) (by rw [e3, e2]; linarith)
    (by rw [e3, e2]; linarith)
  rw [e3, e2] at h4
  exact ⟨z, w, W, h1, h2, h3, h4.trans (by linarith)⟩

/-- Type 2: `(x + 1)^2` is 4 at 1. -/
example (l : Libm) (hl : AccuratePow l (2 * uu)) :
    ∃ z w W, eval (F64.ops l) (-2) [F64.ofRat 2, F64.ofRat 1, F64.ofRat 1] (F64.ofRat 4) = some z ∧
      eval (F64.ops l) 2 [F64.ofRat 2, F64.ofRat 1, F64.ofRat 1] z = some w ∧
      F64.val w = some W ∧ |(W : ℝ) - 4| ≤ 1552 * uu := by
  have hu := uu_pos
  have hu' := uu_le_tiny
  have e : ((4 : ℚ) : ℝ) ^ (1 / ((2 : ℚ) : ℝ)) = 2 := by push_cast; exact root_four
  have hk := two_forth (two_err (κ := 0) hu.le)
  obtain ⟨z, w, W, h1, h2, h3, h4⟩ := C118_type2 l (2 * uu) hl (by linarith) (by linarith) _ _ _ (F64.ofRat 4) 2 1 1 4
    (by decide +kernel) (by push_cast; exact inRange_small (by norm_num) (by norm_num)) 2 e.symm two_piece
    (by push_cast; norm_num) _ rfl (by linarith) (by push_cast; linarith)
  push_cast at h4
  exact ⟨z, w, W, h1, h2, h3, h4.trans (by linarith)⟩

theorem seven_root : (((7 : ℚ) : ℝ) - ((3 : ℚ) : ℝ)) ^ (1 / ((2 : ℚ) : ℝ)) = 2 := by
  push_cast
  rw [show (7 : ℝ) - 3 = 4 by norm_num, root_four]

theorem seven_sum {N : ℝ} (hN : N ≤ 48 * uu) :
    2 * (4 * N * ((2 : ℚ) : ℝ) + 2 * (2 * uu)) * (((7 : ℚ) : ℝ) - ((3 : ℚ) : ℝ)) + uu * |((7 : ℚ) : ℝ)| + rLo * uu ≤
      3112 * uu := by
  have hlo : rLo * uu ≤ 1 / 2 ^ 20 * uu := mul_le_mul_of_nonneg_right (rLo_le (le_refl _)) uu_pos.le
  have hu := uu_pos
  push_cast
  rw [abs_of_nonneg (by norm_num)]
  linarith

/-- Type 3: `(x + 1)^2 + 3` is 7 at 1. -/
example (l : Libm) (hl : AccuratePow l (2 * uu)) :
    ∃ z w W, eval (F64.ops l) (-3) [F64.ofRat 2, F64.ofRat 1, F64.ofRat 1, F64.ofRat 3] (F64.ofRat 7) = some z ∧
      eval (F64.ops l) 3 [F64.ofRat 2, F64.ofRat 1, F64.ofRat 1, F64.ofRat 3] z = some w ∧
      F64.val w = some W ∧ |(W : ℝ) - 7| ≤ 3112 * uu := by
  have hu := uu_pos
  have hu' := uu_le_tiny
  have hb := two_err (κ := uu) le_rfl
  have hk := two_forth hb
  obtain ⟨z, w, W, h1, h2, h3, h4⟩ := C118_type3 l (2 * uu) hl (by linarith) (by linarith) _ _ _ (F64.ofRat 3)
    (F64.ofRat 7) 2 1 1 3 7 (by decide +kernel) (by decide +kernel) (inRange_small (by norm_num) (by norm_num))
    (by push_cast; rw [abs_of_nonneg] <;> first | exact le_rHi (by norm_num) | norm_num) 2 seven_root.symm two_piece
    (by push_cast; linarith) _ rfl (by linarith) (by push_cast; linarith)
  exact ⟨z, w, W, h1, h2, h3, h4.trans (seven_sum hk)⟩

/-- Type 6 likewise. -/
example (l : Libm) (hl : AccuratePow l (2 * uu)) :
    ∃ z w W, eval (F64.ops l) (-6) [F64.ofRat 2, F64.ofRat 1, F64.ofRat 1, F64.ofRat 3] (F64.ofRat 7) = some z ∧
      eval (F64.ops l) 6 [F64.ofRat 2, F64.ofRat 1, F64.ofRat 1, F64.ofRat 3] z = some w ∧
      F64.val w = some W ∧ |(W : ℝ) - 7| ≤ 3112 * uu := by
  have hu := uu_pos
  have hu' := uu_le_tiny
  have hb := two_err (κ := uu) le_rfl
  have hk := two_forth hb
  obtain ⟨z, w, W, h1, h2, h3, h4⟩ := C118_type6 l (2 * uu) hl (by linarith) (by linarith) _ _ _ (F64.ofRat 3)
    (F64.ofRat 7) 2 1 1 3 7 (by decide +kernel) (by decide +kernel) (inRange_small (by norm_num) (by norm_num))
    (by push_cast; rw [abs_of_nonneg] <;> first | exact le_rHi (by norm_num) | norm_num) 2 seven_root.symm two_piece
    _ rfl (by linarith) (by push_cast; linarith)
  exact ⟨z, w, W, h1, h2, h3, h4.trans (seven_sum hk)⟩

/-- Type 4: `(x + 1)^2` from 1/2 on and `3 * x` below: from 4, and from 1. -/
example (l : Libm) (hl : AccuratePow l (2 * uu)) :
    let ps := [F64.ofRat 2, F64.ofRat 1, F64.ofRat 1, F64.ofRat 3, F64.ofRat (1 / 2)]
    (∃ z w W, eval (F64.ops l) (-4) ps (F64.ofRat 4) = some z ∧ eval (F64.ops l) 4 ps z = some w ∧
      F64.val w = some W ∧ |(W : ℝ) - 4| ≤ 1552 * uu) ∧
    (∃ z w W, eval (F64.ops l) (-4) ps (F64.ofRat 1) = some z ∧ eval (F64.ops l) 4 ps z = some w ∧
      F64.val w = some W ∧ |(W : ℝ) - 1| ≤ 4 * uu) := by
  intro ps
  have hu := uu_pos
  have hu' := uu_le_tiny
  have v2 : F64.val (F64.ofRat (1 / 2)) = some (1 / 2) := by decide +kernel
  have b : ((1 : ℚ) : ℝ) * ((1 / 2 : ℚ) : ℝ) + ((1 : ℚ) : ℝ) = 3 / 2 := by norm_num
  have p' : (3 / 2 : ℝ) ^ (2 : ℝ) = 9 / 4 := by
    rw [show (2 : ℝ) = ((2 : ℕ) : ℝ) by norm_num, Real.rpow_natCast]
    norm_num
  have p : (((1 : ℚ) : ℝ) * ((1 / 2 : ℚ) : ℝ) + ((1 : ℚ) : ℝ)) ^ ((2 : ℚ) : ℝ) = 9 / 4 := by
    rw [b, show ((2 : ℚ) : ℝ) = 2 by norm_num, p']
  have j : PowerPiece (F64.ofRat 2) (F64.ofRat 1) (F64.ofRat 1) (F64.ofRat (1 / 2)) 2 1 1 (1 / 2) :=
    ⟨val_two', val_one1, val_one1, v2, by norm_num, by norm_num, by norm_num, by norm_num, by norm_num,
      by rw [b]; exact inRange_small (by norm_num) (by norm_num), by rw [p]; exact inRange_small (by norm_num) (by norm_num)⟩
  have hlo : rLo * uu ≤ 1 / 2 ^ 20 * uu := mul_le_mul_of_nonneg_right (rLo_le (le_refl _)) hu.le
  constructor
  · have e : ((4 : ℚ) : ℝ) ^ (1 / ((2 : ℚ) : ℝ)) = 2 := by push_cast; exact root_four
    have hb := two_err (κ := 0) hu.le
    have hk := two_forth hb
    obtain ⟨z, w, W, h1, h2, h3, h4⟩ := C118_type4_power l (2 * uu) hl (by linarith) (by linarith) _ _ _ (F64.ofRat 3) _
      (F64.ofRat 4) 2 1 1 (1 / 2) 4 (by decide +kernel) (by push_cast; exact inRange_small (by norm_num) (by norm_num)) j
      (by rw [p, one_bound]; push_cast; linarith) 2 e.symm two_piece (by push_cast; linarith) _ rfl (by linarith)
      (by push_cast; linarith)
    push_cast at h4
    exact ⟨z, w, W, h1, h2, h3, h4.trans (by linarith)⟩
  · obtain ⟨z, w, W, h1, h2, h3, h4⟩ := C118_type4_line l (2 * uu) hl (by linarith) (by linarith) _ _ _ (F64.ofRat 3) _
      (F64.ofRat 1) 2 1 1 3 (1 / 2) 1 val_one1 (by decide +kernel) (by norm_num)
      (by push_cast; rw [abs_one]; exact le_rHi (by norm_num))
      (by push_cast; rw [abs_of_nonneg] <;> first | exact le_rHi (by norm_num) | norm_num) j
      (by rw [p, one_bound]; push_cast; linarith)
      (by push_cast; rw [abs_of_nonneg (by norm_num)]; linarith) (by push_cast; exact le_rHi (by norm_num))
    push_cast at h4
    rw [abs_one] at h4
    exact ⟨z, w, W, h1, h2, h3, h4.trans (by linarith)⟩

/-- Type 5: `(x + 1)^2 + 3` from 1/2 on, and `x / 4 + 2` below: from 7, and from 33/16. -/
example (l : Libm) (hl : AccuratePow l (2 * uu)) :
    let ps := [F64.ofRat 2, F64.ofRat 1, F64.ofRat 1, F64.ofRat (1 / 4), F64.ofRat (1 / 2), F64.ofRat 3, F64.ofRat 2]
    (∃ z w W, eval (F64.ops l) (-5) ps (F64.ofRat 7) = some z ∧ eval (F64.ops l) 5 ps z = some w ∧
      F64.val w = some W ∧ |(W : ℝ) - 7| ≤ 3112 * uu) ∧
    (∃ z w W, eval (F64.ops l) (-5) ps (F64.ofRat (33 / 16)) = some z ∧ eval (F64.ops l) 5 ps z = some w ∧
      F64.val w = some W ∧ |(W : ℝ) - 33 / 16| ≤ 3 * uu) := by
  intro ps
  have hu := uu_pos
  have hu' := uu_le_tiny
  have v4 : F64.val (F64.ofRat (1 / 4)) = some (1 / 4) := by decide +kernel
  have v2 : F64.val (F64.ofRat (1 / 2)) = some (1 / 2) := by decide +kernel
  have hJ : InRange (((1 / 4 : ℚ) : ℝ) * ((1 / 2 : ℚ) : ℝ) + ((2 : ℚ) : ℝ)) :=
    inRange_small (by norm_num) (by norm_num)
  have hlo : rLo * uu ≤ 1 / 2 ^ 20 * uu := mul_le_mul_of_nonneg_right (rLo_le (le_refl _)) hu.le
  constructor
  · have hb := two_err (κ := uu) le_rfl
    have hk := two_forth hb
    obtain ⟨z, w, W, h1, h2, h3, h4⟩ := C118_type5_power l (2 * uu) hl (by linarith) (by linarith) (F64.ofRat 2)
      (F64.ofRat 1) (F64.ofRat 1) (F64.ofRat (1 / 4)) (F64.ofRat (1 / 2)) (F64.ofRat 3) (F64.ofRat 2) (F64.ofRat 7)
      2 1 1 (1 / 4) (1 / 2) 3 2 7 (by decide +kernel) v4 v2 (by decide +kernel) val_two' (by norm_num) (by norm_num)
      (by norm_num) hJ (by push_cast; nlinarith) (inRange_small (by norm_num) (by norm_num))
      (by push_cast; rw [abs_of_nonneg] <;> first | exact le_rHi (by norm_num) | norm_num) 2 seven_root.symm two_piece
      (by push_cast; linarith) _ rfl (by linarith) (by push_cast; linarith)
    exact ⟨z, w, W, h1, h2, h3, h4.trans (seven_sum hk)⟩
  · obtain ⟨z, w, W, h1, h2, h3, h4⟩ := C118_type5_line l (2 * uu) hl (by linarith) (by linarith) (F64.ofRat 2)
      (F64.ofRat 1) (F64.ofRat 1) (F64.ofRat (1 / 4)) (F64.ofRat (1 / 2)) (F64.ofRat 3) (F64.ofRat 2) (F64.ofRat (33 / 16))
      (1 / 4) (1 / 2) 2 (33 / 16) (by decide +kernel) v4 v2 val_two' (by norm_num)
      (by push_cast; exact le_rHi (by norm_num)) (by norm_num) (by norm_num) hJ (by push_cast; nlinarith)
      (le_half_rHi (by push_cast; rw [abs_of_nonneg] <;> norm_num))
      (le_half_rHi (by push_cast; rw [abs_of_nonneg] <;> norm_num))
      (by push_cast; rw [abs_of_nonneg] <;> first | exact le_rHi (by norm_num) | norm_num)
      (by push_cast; rw [abs_of_nonneg (by norm_num)]; linarith)
    push_cast at h4
    rw [abs_of_nonneg (show (0 : ℝ) ≤ 33 / 16 - 2 by norm_num), abs_of_nonneg (show (0 : ℝ) ≤ 33 / 16 by norm_num)] at h4
    exact ⟨z, w, W, h1, h2, h3, h4.trans (by linarith)⟩

/-- The sRGB curve from 1/2. -/
example (l : Libm) (hl : AccuratePow l (2 * uu)) :
    ∃ z w W, eval (F64.ops l) (-4) srgb (F64.ofRat (1 / 2)) = some z ∧ eval (F64.ops l) 4 srgb z = some w ∧
      F64.val w = some W ∧ |(W : ℝ) - 1 / 2| ≤ 271 * uu := by
  have hu := uu_pos
  have hu' := uu_le_tiny
  have hlo : rLo * uu ≤ 1 / 2 ^ 20 * uu := mul_le_mul_of_nonneg_right (rLo_le (le_refl _)) hu.le
  obtain ⟨G, A, B, C, D, J, n⟩ := srgb_nums
  obtain ⟨⟨rG1, rG2⟩, ⟨rA1, rA2⟩, ⟨rB1, rB2⟩, -, -, ⟨rS1, -⟩, -⟩ := n.real
  have hD : D ≤ 1 / 20 := by
    rw [← ratOf_of_val n.vD]
    decide +kernel
  have hD' : (D : ℝ) ≤ 1 / 20 := by
    have := (Rat.cast_le (K := ℝ)).mpr hD
    push_cast at this
    exact this
  have hb : (A : ℝ) * D + B ≤ 11 / 100 := by nlinarith
  have hJ : ((A : ℝ) * D + B) ^ (G : ℝ) ≤ 11 / 100 := by
    refine le_trans ?_ hb
    have := Real.rpow_le_rpow_of_exponent_ge (show 0 < (A : ℝ) * D + B by linarith) (by linarith)
      (show (1 : ℝ) ≤ G by linarith)
    rwa [Real.rpow_one] at this
  have hJ0 : 0 ≤ ((A : ℝ) * D + B) ^ (G : ℝ) := Real.rpow_nonneg (by linarith) _
  obtain ⟨z, w, W, h1, h2, h3, h4⟩ := n.forth_power l hl (F64.ofRat (1 / 2)) (1 / 2) (by decide +kernel) (by norm_num)
    (by norm_num) (by push_cast; nlinarith)
  push_cast at h4
  exact ⟨z, w, W, h1, h2, h3, h4.trans (by linarith)⟩

end Lcms.Props
