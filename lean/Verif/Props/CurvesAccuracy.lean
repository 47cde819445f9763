import Mathlib.Analysis.Convex.SpecificFunctions.Basic
import Verif.Lemmas.CurvesReal
import Verif.Props.CurvesNearest

/-! # Property C105: how far the binary64 curves are from the exact ones -/

namespace Lcms.Props

open Lcms.Curves

/-- Half a unit in the last place, relatively. -/
noncomputable def uu : ℝ := 1 / 2 ^ 53

/-- Twice the smallest normal number. -/
noncomputable def rLo : ℝ := 1 / 2 ^ 1021

/-- A quarter of the first power of two that is too large. -/
noncomputable def rHi : ℝ := 2 ^ 1022

/-- Comfortably inside the range of normal numbers. -/
def InRange (x : ℝ) : Prop := rLo ≤ x ∧ x ≤ rHi

/-- The platform's `powf` has relative error at most `ε` on positive bases, results being normal numbers. -/
def AccuratePow (l : Libm) (ε : ℝ) : Prop :=
  ∀ (x y : F64) (X Y : ℚ), F64.val x = some X → F64.val y = some Y → 0 < X →
    rLo / 2 ≤ (X : ℝ) ^ (Y : ℝ) → (X : ℝ) ^ (Y : ℝ) ≤ 3 / 2 * rHi →
    ∃ P : ℚ, F64.val (l.powf x y) = some P ∧ |(P : ℝ) - (X : ℝ) ^ (Y : ℝ)| ≤ ε * (X : ℝ) ^ (Y : ℝ)

theorem uu_pos : 0 < uu := by unfold uu; positivity

theorem rLo_pos : 0 < rLo := by unfold rLo; positivity

theorem rHi_pos : 0 < rHi := by unfold rHi; positivity

theorem two_rHi : (2 : ℝ) ^ 1023 = 2 * rHi := pow_succ' _ _

theorem below_top {x T : ℚ} (h : x ≤ 2 ^ 1023) (hT : T = 2 ^ 1024 - 2 ^ 970) : x < T := by
  have h1 : (2 : ℚ) ^ 1024 = 2 ^ 1023 * 2 := pow_succ _ _
  have h2 : (2 : ℚ) ^ 970 < 2 ^ 1023 := pow_lt_pow_right₀ (by norm_num) (by norm_num)
  rw [h1] at hT
  generalize (2 : ℚ) ^ 1023 = a at *
  generalize (2 : ℚ) ^ 970 = b at *
  linarith

/-- The absolute rounding error near zero. -/
theorem tiny_le : (1 : ℝ) / 2 ^ 1075 = rLo * (uu / 2) := by
  unfold uu rLo
  rw [show (1075 : ℕ) = 1021 + 53 + 1 from rfl, pow_succ, pow_add, div_div, div_mul_div_comm, one_mul, mul_assoc]

/-- One correctly rounded operation. -/
theorem rd_step {z : F64} {q : ℚ} (h : Correct z q) (hb : |(q : ℝ)| ≤ 2 * rHi) :
    ∃ v : ℚ, F64.val z = some v ∧ (|(v : ℝ) - q| ≤ |(q : ℝ)| * uu ∨ |(v : ℝ) - q| ≤ rLo * (uu / 2)) := by
  have hb' : |q| ≤ 2 ^ 1023 := by
    have : ((|q| : ℚ) : ℝ) ≤ ((2 ^ 1023 : ℚ) : ℝ) := by
      rw [Rat.cast_abs, Rat.cast_pow, Rat.cast_ofNat, two_rHi]
      exact hb
    exact Rat.cast_le.mp this
  have hlt := below_top hb' rfl
  rcases h with ⟨-, v, hv, hn⟩ | ⟨hge, -⟩
  · refine ⟨v, hv, ?_⟩
    have hc : Correct z q := .inl ⟨hlt, v, hv, hn⟩
    have up : ∀ K : ℚ, |v - q| ≤ K → |(v : ℝ) - q| ≤ (K : ℝ) := by
      intro K h
      have := (Rat.cast_le (K := ℝ)).mpr h
      rwa [Rat.cast_abs, Rat.cast_sub] at this
    rcases le_total (1 / 2 ^ 1022) |q| with h1 | h1
    · left
      have h2 := up _ (C104_relative z q v hc hv h1)
      rw [Rat.cast_div, Rat.cast_abs, Rat.cast_pow, Rat.cast_ofNat] at h2
      unfold uu
      rwa [mul_one_div]
    · right
      have h2 := up _ (C104_absolute z q v hc hv h1)
      rwa [Rat.cast_div, Rat.cast_one, Rat.cast_pow, Rat.cast_ofNat, tiny_le] at h2
  · exact absurd hlt (not_lt.mpr hge)

theorem uu_small : uu ≤ 1 / 1000000 := by unfold uu; norm_num

/-- A rounded result at least half the smallest admissible value is relatively accurate. -/
theorem rd_rel {z : F64} {q : ℚ} (h : Correct z q) (h1 : rLo ≤ 2 * (q : ℝ)) (h2 : (q : ℝ) ≤ 2 * rHi) :
    ∃ v : ℚ, F64.val z = some v ∧ |(v : ℝ) - q| ≤ q * uu := by
  have h0 := rLo_pos
  have hq : (0 : ℝ) < q := by linarith
  obtain ⟨v, hv, he⟩ := rd_step h (by rwa [abs_of_pos hq])
  rw [abs_of_pos hq] at he
  refine ⟨v, hv, ?_⟩
  rcases he with he | he
  · exact he
  · refine he.trans ?_
    have := uu_pos
    nlinarith

/-- `a * r + b` without cancellation. -/
theorem affine_acc {a b r : F64} {A B R : ℚ} (ha : F64.val a = some A) (hb : F64.val b = some B)
    (hr : F64.val r = some R) (hA : 0 ≤ A) (hB : 0 ≤ B) (hR : 0 ≤ R) (hS : InRange (A * R + B)) :
    ∃ E : ℚ, F64.val (F64.add (F64.mul a r) b) = some E ∧
      (1 - uu) ^ 2 * ((A : ℝ) * R + B) ≤ E ∧ (E : ℝ) ≤ (1 + uu) ^ 2 * ((A : ℝ) * R + B) := by
  have hA' : (0 : ℝ) ≤ A := by exact_mod_cast hA
  have hB' : (0 : ℝ) ≤ B := by exact_mod_cast hB
  have hR' : (0 : ℝ) ≤ R := by exact_mod_cast hR
  have hAR : (0 : ℝ) ≤ A * R := mul_nonneg hA' hR'
  obtain ⟨hS1, hS2⟩ := hS
  have h0 := rLo_pos
  have hu := uu_pos
  have hu' := uu_small
  have hT := rHi_pos
  obtain ⟨M, hM, he⟩ := rd_step ((C104_operations a r A R ha hr).2.2.1) (by
    rw [Rat.cast_mul, abs_of_nonneg hAR]
    linarith)
  rw [Rat.cast_mul, abs_of_nonneg hAR] at he
  set S : ℝ := A * R + B with hS
  have he' : |(M : ℝ) - A * R| ≤ S * uu := by
    rcases he with he | he
    · refine he.trans (mul_le_mul_of_nonneg_right (by linarith) hu.le)
    · refine he.trans ?_
      nlinarith
  have he2 := abs_le.mp he'
  have hs1 : (1 - uu) * S ≤ (M : ℝ) + B := by
    have : (1 - uu) * S = A * R + B - S * uu := by rw [hS]; ring
    linarith [he2.1]
  have hs2 : (M : ℝ) + B ≤ (1 + uu) * S := by
    have : (1 + uu) * S = A * R + B + S * uu := by rw [hS]; ring
    linarith [he2.2]
  obtain ⟨E, hE, hEe⟩ := rd_rel ((C104_operations (F64.mul a r) b M B hM hb).1)
    (by rw [Rat.cast_add]; nlinarith) (by rw [Rat.cast_add]; nlinarith)
  rw [Rat.cast_add] at hEe
  have h3 := abs_le.mp hEe
  refine ⟨E, hE, ?_, ?_⟩
  · have : (1 - uu) ^ 2 * S ≤ (1 - uu) * ((M : ℝ) + B) := by
      rw [pow_two, mul_assoc]
      exact mul_le_mul_of_nonneg_left hs1 (by linarith)
    linarith [h3.1]
  · have : (1 + uu) * ((M : ℝ) + B) ≤ (1 + uu) ^ 2 * S := by
      rw [pow_two, mul_assoc]
      exact mul_le_mul_of_nonneg_left hs2 (by linarith)
    linarith [h3.2]

/-- The power of a base known to within two roundings. -/
theorem pow_acc {l : Libm} {ε : ℝ} (hl : AccuratePow l ε) (hε : 0 ≤ ε) {x g : F64} {E G : ℚ} {S : ℝ}
    (hx : F64.val x = some E) (hg : F64.val g = some G) (hS : 0 < S) (h1 : (1 - uu) ^ 2 * S ≤ E)
    (h2 : (E : ℝ) ≤ (1 + uu) ^ 2 * S) (hG : 0 < G) (hG' : G ≤ 1024) (hr : InRange (S ^ (G : ℝ))) :
    ∃ P : ℚ, F64.val (l.powf x g) = some P ∧
      |(P : ℝ) - S ^ (G : ℝ)| ≤ (3 * max (G : ℝ) 1 * uu + 2 * ε) * S ^ (G : ℝ) := by
  have hu := uu_pos
  have hu' := uu_small
  have hG0 : (0 : ℝ) < G := by exact_mod_cast hG
  have hG1 : (G : ℝ) ≤ 1024 := by exact_mod_cast hG'
  set p : ℝ := max (G : ℝ) 1 with hp
  have hp1 : 1 ≤ p := le_max_right _ _
  have hpG : (G : ℝ) ≤ p := le_max_left _ _
  have hp2 : p ≤ 1024 := max_le hG1 (by norm_num)
  have hpu : p * uu ≤ 1 / 100 := by
    have : p * uu ≤ 1024 * uu := mul_le_mul_of_nonneg_right hp2 hu.le
    linarith
  have hE0 : (0 : ℝ) < E := lt_of_lt_of_le (mul_pos (pow_pos (by linarith) 2) hS) h1
  have hSG : 0 < S ^ (G : ℝ) := Real.rpow_pos_of_pos hS _
  have up : (E : ℝ) ^ (G : ℝ) ≤ (1 + 5 / 2 * (p * uu)) * S ^ (G : ℝ) := by
    have e1 : (E : ℝ) ^ (G : ℝ) ≤ ((1 + uu) ^ 2 * S) ^ (G : ℝ) := Real.rpow_le_rpow hE0.le h2 hG0.le
    rw [Real.mul_rpow (by positivity) hS.le] at e1
    refine e1.trans (mul_le_mul_of_nonneg_right ?_ hSG.le)
    have e2 : (1 + uu) ^ 2 ≤ Real.exp (2 * uu) := by
      rw [two_mul, Real.exp_add, pow_two]
      have := Real.add_one_le_exp uu
      exact mul_le_mul (by linarith) (by linarith) (by linarith) (Real.exp_pos _).le
    have e3 : ((1 + uu) ^ 2) ^ (G : ℝ) ≤ Real.exp (2 * uu) ^ (G : ℝ) :=
      Real.rpow_le_rpow (by positivity) e2 hG0.le
    rw [← Real.exp_mul] at e3
    have e4 : Real.exp (2 * uu * G) ≤ Real.exp (2 * (p * uu)) :=
      Real.exp_le_exp.mpr (by nlinarith)
    have e5 : |Real.exp (2 * (p * uu)) - 1 - 2 * (p * uu)| ≤ (2 * (p * uu)) ^ 2 :=
      Real.abs_exp_sub_one_sub_id_le (by rw [abs_of_nonneg (by positivity)]; linarith)
    have e6 := (abs_le.mp e5).2
    have : 0 ≤ p * uu := by positivity
    nlinarith
  have lo : (1 - 2 * (p * uu)) * S ^ (G : ℝ) ≤ (E : ℝ) ^ (G : ℝ) := by
    have hb0 : 0 < (1 - uu) ^ 2 := pow_pos (by linarith) 2
    have e1 : ((1 - uu) ^ 2 * S) ^ (G : ℝ) ≤ (E : ℝ) ^ (G : ℝ) := Real.rpow_le_rpow (by positivity) h1 hG0.le
    rw [Real.mul_rpow hb0.le hS.le] at e1
    refine le_trans (mul_le_mul_of_nonneg_right ?_ hSG.le) e1
    have e2 : ((1 - uu) ^ 2) ^ p ≤ ((1 - uu) ^ 2) ^ (G : ℝ) :=
      Real.rpow_le_rpow_of_exponent_ge hb0 (pow_le_one₀ (by linarith) (by linarith)) hpG
    have e3 : (1 + -(2 * uu)) ^ p ≤ ((1 - uu) ^ 2) ^ p :=
      Real.rpow_le_rpow (by linarith) (by nlinarith) (by linarith)
    have e4 := one_add_mul_self_le_rpow_one_add (s := -(2 * uu)) (by linarith) hp1
    linarith
  obtain ⟨P, hP, hPe⟩ := hl x g E G hx hg (by exact_mod_cast hE0)
    (by have := hr.1; nlinarith) (by have := hr.2; nlinarith)
  refine ⟨P, hP, ?_⟩
  have h5 : |(P : ℝ) - S ^ (G : ℝ)| ≤ |(P : ℝ) - (E : ℝ) ^ (G : ℝ)| + |(E : ℝ) ^ (G : ℝ) - S ^ (G : ℝ)| :=
    abs_sub_le _ _ _
  have h6 : |(E : ℝ) ^ (G : ℝ) - S ^ (G : ℝ)| ≤ 5 / 2 * (p * uu) * S ^ (G : ℝ) := by
    have : 0 ≤ p * uu := by positivity
    rw [abs_le]
    constructor <;> nlinarith
  have h7 : ε * (E : ℝ) ^ (G : ℝ) ≤ 2 * ε * S ^ (G : ℝ) := by
    have : (E : ℝ) ^ (G : ℝ) ≤ 2 * S ^ (G : ℝ) := by nlinarith
    nlinarith
  have h8 : 0 ≤ p * uu * S ^ (G : ℝ) := by positivity
  linarith

/-! ### The branches taken in binary64 -/

theorem val_ofRat0 : F64.val (F64.ofRat 0) = some 0 := by decide +kernel

theorem not_tiny64 (l : Libm) {a : F64} {A : ℚ} (ha : F64.val a = some A) (hA : 1 / 1000 ≤ A) :
    tiny (F64.ops l) a = false := by
  obtain ⟨s, m, k, rfl, hv⟩ := F64.val_eq_some ha
  have h1 : F64.val (F64.abs (F64.fin s m k)) = some |A| := by
    show F64.val (F64.fin false m k) = _
    rw [F64.val_fin, hv]
    have := F64.magVal_nonneg m k
    cases s <;> simp [abs_of_nonneg this]
  by_contra hcon
  have h2 := (F64.lt_val h1 (show F64.val (F64.ofRat tolerance) =
    some (F64.ratOf (F64.ofRat tolerance)) by decide +kernel)).mp (by simpa [tiny, F64.ops] using hcon)
  have h3 : F64.ratOf (F64.ofRat tolerance) < 1 / 1000 := by decide +kernel
  have := le_abs_self A
  linarith

/-- `-b / a` is not above a non-negative number. -/
theorem disc_le {a b r : F64} {A B R : ℚ} (ha : F64.val a = some A) (hb : F64.val b = some B)
    (hr : F64.val r = some R) (hA : 0 < A) (hB : 0 ≤ B) (hR : 0 ≤ R) :
    F64.le (F64.div (F64.neg b) a) r = true := by
  have h1 : F64.le (F64.div (F64.neg b) a) (F64.ofRat 0) = true := by
    refine F64.le_of_rd (F64.div_rd (F64.val_neg hb) ha hA.ne') (F64.round_cases 0) ?_
    rw [neg_div, neg_nonpos]
    positivity
  exact F64.le_trans h1 ((F64.le_val val_ofRat0 hr).mpr hR)

theorem max_le_f64 {x y z : F64} (hx : F64.le x z = true) (hy : F64.le y z = true) :
    F64.le (F64.max x y) z = true := by
  have hxn := (F64.le_nn hx).1
  have hyn := (F64.le_nn hy).1
  have : F64.max x y = if F64.lt x y then y else x := by
    cases x <;> cases y <;> first | rfl | exact absurd rfl hxn
  rw [this]
  split
  · exact hy
  · exact hx

/-- The hypotheses common to the curves: a base `A * R + B` without cancellation, base and power in range. -/
structure PowerPiece (g a b r : F64) (G A B R : ℚ) : Prop where
  hg : F64.val g = some G
  ha : F64.val a = some A
  hb : F64.val b = some B
  hr : F64.val r = some R
  hG : 0 < G
  hG' : G ≤ 1024
  hA : 0 ≤ A
  hB : 0 ≤ B
  hR : 0 ≤ R
  base : InRange (A * R + B)
  power : InRange (((A : ℝ) * R + B) ^ (G : ℝ))

/-- The bound for one power. -/
noncomputable def bound (G : ℚ) (ε : ℝ) : ℝ := 3 * max (G : ℝ) 1 * uu + 2 * ε

theorem PowerPiece.pos {g a b r : F64} {G A B R : ℚ} (h : PowerPiece g a b r G A B R) : (0 : ℝ) < A * R + B :=
  lt_of_lt_of_le rLo_pos h.base.1

theorem PowerPiece.value {l : Libm} {ε : ℝ} (hl : AccuratePow l ε) (hε : 0 ≤ ε) {g a b r : F64} {G A B R : ℚ}
    (h : PowerPiece g a b r G A B R) :
    F64.lt (F64.ofRat 0) (F64.add (F64.mul a r) b) = true ∧
    F64.lt (F64.add (F64.mul a r) b) (F64.ofRat 0) = false ∧
    ∃ P : ℚ, F64.val (l.powf (F64.add (F64.mul a r) b) g) = some P ∧
      |(P : ℝ) - ((A : ℝ) * R + B) ^ (G : ℝ)| ≤ bound G ε * ((A : ℝ) * R + B) ^ (G : ℝ) := by
  obtain ⟨E, hE, h1, h2⟩ := affine_acc h.ha h.hb h.hr h.hA h.hB h.hR h.base
  have hu := uu_small
  have hE0 : 0 < E := by
    have : (0 : ℝ) < E := lt_of_lt_of_le (mul_pos (pow_pos (by linarith) 2) h.pos) h1
    exact_mod_cast this
  refine ⟨(F64.lt_val val_ofRat0 hE).mpr hE0, ?_, pow_acc hl hε hE h.hg h.pos h1 h2 h.hG h.hG' h.power⟩
  by_contra hc
  have := (F64.lt_val hE val_ofRat0).mp (by simpa using hc)
  linarith

theorem bound_nonneg {G : ℚ} {ε : ℝ} (hε : 0 ≤ ε) : 0 ≤ bound G ε := by
  unfold bound
  have := uu_pos
  have : (1 : ℝ) ≤ max (G : ℝ) 1 := le_max_right _ _
  positivity

theorem bound_small {G : ℚ} {ε : ℝ} (hG : G ≤ 1024) (hε : ε ≤ 1 / 8) : bound G ε ≤ 1 / 2 := by
  unfold bound
  have hu := uu_small
  have hu0 := uu_pos
  have : max (G : ℝ) 1 ≤ 1024 := max_le (by exact_mod_cast hG) (by norm_num)
  nlinarith

/-- A constant added to the power. -/
theorem PowerPiece.plus {l : Libm} {ε : ℝ} (hl : AccuratePow l ε) (hε : 0 ≤ ε) (hε' : ε ≤ 1 / 8) {g a b r c : F64}
    {G A B R C : ℚ} (h : PowerPiece g a b r G A B R) (hc : F64.val c = some C) (hC : 0 ≤ C)
    (hC' : (C : ℝ) ≤ rHi / 2) (hp : ((A : ℝ) * R + B) ^ (G : ℝ) ≤ rHi / 2) :
    ∃ Z : ℚ, F64.val (F64.add (l.powf (F64.add (F64.mul a r) b) g) c) = some Z ∧
      |(Z : ℝ) - (((A : ℝ) * R + B) ^ (G : ℝ) + C)| ≤
        (bound G ε + 2 * uu) * (((A : ℝ) * R + B) ^ (G : ℝ) + C) := by
  obtain ⟨-, -, P, hP, hPe⟩ := h.value hl hε
  set W := ((A : ℝ) * R + B) ^ (G : ℝ) with hW
  have hW0 : rLo ≤ W := h.power.1
  have hb0 := bound_nonneg (G := G) hε
  have hb1 := bound_small h.hG' hε'
  have hlo := rLo_pos
  have hC0 : (0 : ℝ) ≤ C := by exact_mod_cast hC
  have hu0 := uu_pos
  have hu1 := uu_small
  have h1 := abs_le.mp hPe
  have hbW : bound G ε * W ≤ W / 2 := by nlinarith
  obtain ⟨Z, hZ, hZe⟩ := rd_rel ((C104_operations _ c P C hP hc).1)
    (by rw [Rat.cast_add]; linarith) (by rw [Rat.cast_add]; linarith)
  refine ⟨Z, hZ, ?_⟩
  rw [Rat.cast_add] at hZe
  have h2 : |(Z : ℝ) - (W + C)| ≤ |(Z : ℝ) - (P + C)| + |((P : ℝ) + C) - (W + C)| := abs_sub_le _ _ _
  have h3 : |((P : ℝ) + C) - (W + C)| = |(P : ℝ) - W| := by congr 1; ring
  rw [h3] at h2
  have h4 : ((P : ℝ) + C) * uu ≤ 2 * uu * (W + C) := by nlinarith
  have h5 : bound G ε * W ≤ bound G ε * (W + C) := mul_le_mul_of_nonneg_left (by linarith) hb0
  have h6 : (bound G ε + 2 * uu) * (W + C) = bound G ε * (W + C) + 2 * uu * (W + C) := by ring
  rw [h6]
  linarith

/-! ### The theorems -/

/-- Type 1 is as accurate as `powf`. -/
theorem C105_type1 (l : Libm) (ε : ℝ) (hl : AccuratePow l ε) (g r : F64) (G R : ℚ) (hg : F64.val g = some G)
    (hr : F64.val r = some R) (hR : 0 < R) (hG : 0 < G) (hp : InRange ((R : ℝ) ^ (G : ℝ))) :
    ∃ z Z Y, eval (F64.ops l) 1 [g] r = some z ∧ F64.val z = some Z ∧ Maps 1 [(G : ℝ)] R Y ∧
      |(Z : ℝ) - Y| ≤ ε * Y := by
  have hR' : (0 : ℝ) < R := by exact_mod_cast hR
  have hG' : (0 : ℝ) < G := by exact_mod_cast hG
  have h0 := rLo_pos
  have h1 := rHi_pos
  obtain ⟨P, hP, hPe⟩ := hl r g R G hr hg hR (by linarith [hp.1]) (by linarith [hp.2])
  refine ⟨l.powf r g, P, _, ?_, hP, maps1 hG'.le hR'.le, hPe⟩
  show some (f1 (F64.ops l) g r) = _
  have : F64.lt r (F64.ofRat 0) = false := by
    by_contra hc
    have := (F64.lt_val hr val_ofRat0).mp (by simpa using hc)
    linarith
  unfold f1
  simp only [F64.ops, this, Bool.false_eq_true, if_false]

/-- Type 2. -/
theorem C105_type2 (l : Libm) (ε : ℝ) (hl : AccuratePow l ε) (hε : 0 ≤ ε) (g a b r : F64) (G A B R : ℚ)
    (h : PowerPiece g a b r G A B R) (hA : 1 / 1000 ≤ A) :
    ∃ z Z Y, eval (F64.ops l) 2 [g, a, b] r = some z ∧ F64.val z = some Z ∧
      Maps 2 [(G : ℝ), (A : ℝ), (B : ℝ)] R Y ∧ |(Z : ℝ) - Y| ≤ bound G ε * Y := by
  obtain ⟨h1, -, P, hP, hPe⟩ := h.value hl hε
  have hG : (0 : ℝ) < G := by exact_mod_cast h.hG
  have hA' : (1 / 1000 : ℝ) ≤ A := by
    have := (Rat.cast_le (K := ℝ)).mpr hA
    push_cast at this
    exact this
  have hm := maps2 hG (a := A) (b := B) (by linarith) (R : ℝ)
  rw [max_eq_right h.pos.le] at hm
  refine ⟨_, P, _, ?_, hP, hm, hPe⟩
  show some (f2 (F64.ops l) g a b r) = _
  have hd := disc_le h.ha h.hb h.hr (by linarith) h.hB h.hR
  unfold f2
  simp only [not_tiny64 l h.ha hA, Bool.false_eq_true, if_false]
  simp only [F64.ops, hd, h1, if_true]

/-- Type 3. -/
theorem C105_type3 (l : Libm) (ε : ℝ) (hl : AccuratePow l ε) (hε : 0 ≤ ε) (hε' : ε ≤ 1 / 8) (g a b c r : F64)
    (G A B C R : ℚ) (h : PowerPiece g a b r G A B R) (hA : 1 / 1000 ≤ A) (hc : F64.val c = some C) (hC : 0 ≤ C)
    (hC' : (C : ℝ) ≤ rHi / 2) (hp : ((A : ℝ) * R + B) ^ (G : ℝ) ≤ rHi / 2) :
    ∃ z Z Y, eval (F64.ops l) 3 [g, a, b, c] r = some z ∧ F64.val z = some Z ∧
      Maps 3 [(G : ℝ), (A : ℝ), (B : ℝ), (C : ℝ)] R Y ∧ |(Z : ℝ) - Y| ≤ (bound G ε + 2 * uu) * Y := by
  obtain ⟨h1, -, -⟩ := h.value hl hε
  obtain ⟨Z, hZ, hZe⟩ := h.plus hl hε hε' hc hC hC' hp
  have hA' : (1 / 1000 : ℝ) ≤ A := by
    have := (Rat.cast_le (K := ℝ)).mpr hA
    push_cast at this
    exact this
  have hB' : (0 : ℝ) ≤ B := by exact_mod_cast h.hB
  have hR' : (0 : ℝ) ≤ R := by exact_mod_cast h.hR
  refine ⟨_, Z, _, ?_, hZ, ?_, hZe⟩
  · show some (f3 (F64.ops l) g a b c r) = _
    have hd := max_le_f64 (disc_le h.ha h.hb h.hr (by linarith) h.hB h.hR) ((F64.le_val val_ofRat0 h.hr).mpr h.hR)
    unfold f3
    simp only [not_tiny64 l h.ha hA, Bool.false_eq_true, if_false]
    simp only [F64.ops, hd, h1, if_true]
  · show some (f3 realOps (some (G : ℝ)) (some (A : ℝ)) (some (B : ℝ)) (some (C : ℝ)) (some (R : ℝ))) = _
    have hA0 : (A : ℝ) ≠ 0 := by linarith
    have hd : max (-(B : ℝ) / A) 0 ≤ R := by
      refine max_le ?_ hR'
      rw [div_le_iff₀ (by linarith)]
      nlinarith
    unfold f3
    rw [not_tiny' (by linarith)]
    simp only [Bool.false_eq_true, if_false, r_neg, r_div _ hA0, r_lit0, r_max, r_mul, r_add, r_le, r_lt]
    rw [if_pos hd, if_pos h.pos, r_pow_pos h.pos, r_add]

/-- Type 4: the power from the joint on, the line below it. -/
theorem C105_type4 (l : Libm) (ε : ℝ) (hl : AccuratePow l ε) (hε : 0 ≤ ε) (g a b c d r : F64) (G A B C D R : ℚ)
    (hc : F64.val c = some C) (hd : F64.val d = some D) (hr : F64.val r = some R)
    (hG : 0 < G) (h : D ≤ R → PowerPiece g a b r G A B R)
    (h' : R < D → R * C = 0 ∨ InRange (R * C)) :
    ∃ z Z Y, eval (F64.ops l) 4 [g, a, b, c, d] r = some z ∧ F64.val z = some Z ∧
      Maps 4 [(G : ℝ), (A : ℝ), (B : ℝ), (C : ℝ), (D : ℝ)] R Y ∧ |(Z : ℝ) - Y| ≤ bound G ε * Y := by
  have hG' : (0 : ℝ) < G := by exact_mod_cast hG
  have hm := maps4 hG' A B C D R
  rcases le_or_gt D R with hD | hD
  · obtain ⟨h1, -, P, hP, hPe⟩ := (h hD).value hl hε
    have hD' : (D : ℝ) ≤ R := by exact_mod_cast hD
    rw [if_pos hD', max_eq_right (h hD).pos.le] at hm
    refine ⟨_, P, _, ?_, hP, hm, hPe⟩
    show some (f4 (F64.ops l) g a b c d r) = _
    unfold f4
    simp only [F64.ops, (F64.le_val hd hr).mpr hD, h1, if_true]
  · have hD' : ¬ (D : ℝ) ≤ R := by
      rw [not_le]; exact_mod_cast hD
    rw [if_neg hD'] at hm
    obtain ⟨z, hz, hzc⟩ := C104_line4 l g a b c d r C R hc hr ((F64.lt_val hr hd).mpr hD)
    rcases h' hD with h0 | hin
    · obtain ⟨v, hv, he⟩ := rd_step hzc (by
        have : (((R * C : ℚ)) : ℝ) = 0 := by rw [h0]; norm_num
        rw [this, abs_zero]
        have := rHi_pos
        linarith)
      have hv0 : v = 0 := by
        rw [correct_val hzc hv, h0]
        exact le_antisymm (F64.rq_nonpos (le_refl _)) (F64.rq_nonneg (le_refl _))
      refine ⟨z, v, _, hz, hv, hm, ?_⟩
      have h0' : (R : ℝ) * C = 0 := by exact_mod_cast h0
      rw [hv0, h0']
      norm_num
    · have h0 := rLo_pos
      have h1 := rHi_pos
      have hRC : (((R * C : ℚ)) : ℝ) = R * C := Rat.cast_mul _ _
      obtain ⟨v, hv, he⟩ := rd_rel hzc (by rw [hRC]; linarith [hin.1]) (by rw [hRC]; linarith [hin.2])
      refine ⟨z, v, _, hz, hv, hm, ?_⟩
      rw [hRC] at he
      refine he.trans ?_
      rw [_root_.mul_comm]
      refine mul_le_mul_of_nonneg_right ?_ (by linarith [hin.1])
      unfold bound
      have hu := uu_pos
      have : (1 : ℝ) ≤ max (G : ℝ) 1 := le_max_right _ _
      nlinarith

/-- Type 5: the same with constants added on both sides. -/
theorem C105_type5 (l : Libm) (ε : ℝ) (hl : AccuratePow l ε) (hε : 0 ≤ ε) (hε' : ε ≤ 1 / 8)
    (g a b c d e f r : F64) (G A B C D E F R : ℚ) (hc : F64.val c = some C)
    (hd : F64.val d = some D) (he : F64.val e = some E) (hf : F64.val f = some F) (hr : F64.val r = some R)
    (hG : 0 < G)
    (h : D ≤ R → PowerPiece g a b r G A B R ∧ 0 ≤ E ∧ (E : ℝ) ≤ rHi / 2 ∧
      ((A : ℝ) * R + B) ^ (G : ℝ) ≤ rHi / 2)
    (h' : R < D → 0 ≤ C ∧ 0 ≤ F ∧ 0 ≤ R ∧ InRange (R * C + F)) :
    ∃ z Z Y, eval (F64.ops l) 5 [g, a, b, c, d, e, f] r = some z ∧ F64.val z = some Z ∧
      Maps 5 [(G : ℝ), (A : ℝ), (B : ℝ), (C : ℝ), (D : ℝ), (E : ℝ), (F : ℝ)] R Y ∧
      |(Z : ℝ) - Y| ≤ (bound G ε + 2 * uu) * Y := by
  have hG' : (0 : ℝ) < G := by exact_mod_cast hG
  have hm := maps5 hG' A B C D E F R
  rcases le_or_gt D R with hD | hD
  · obtain ⟨hp, hE, hE', hW⟩ := h hD
    obtain ⟨h1, -, -⟩ := hp.value hl hε
    obtain ⟨Z, hZ, hZe⟩ := hp.plus hl hε hε' he hE hE' hW
    have hD' : (D : ℝ) ≤ R := by exact_mod_cast hD
    rw [if_pos hD', max_eq_right hp.pos.le] at hm
    refine ⟨_, Z, _, ?_, hZ, hm, hZe⟩
    show some (f5 (F64.ops l) g a b c d e f r) = _
    unfold f5
    simp only [F64.ops, (F64.le_val hd hr).mpr hD, h1, if_true]
  · have hD' : ¬ (D : ℝ) ≤ R := by
      rw [not_le]; exact_mod_cast hD
    rw [if_neg hD'] at hm
    obtain ⟨hC, hF, hR, hin⟩ := h' hD
    obtain ⟨Z, hZ, h1, h2⟩ := affine_acc hr hf hc hR hF hC hin
    refine ⟨_, Z, _, ?_, hZ, hm, ?_⟩
    · show some (f5 (F64.ops l) g a b c d e f r) = _
      have hle : F64.le d r = false := by
        by_contra hcon
        have := (F64.le_val hd hr).mp (by simpa using hcon)
        linarith
      unfold f5
      simp only [F64.ops, hle, Bool.false_eq_true, if_false]
    · have h3 := hin.1
      have h4 := rLo_pos
      set S : ℝ := R * C + F
      have hu := uu_pos
      have hu' := uu_small
      have h5 : (1 : ℝ) ≤ max (G : ℝ) 1 := le_max_right _ _
      have h6 : 5 * uu ≤ bound G ε + 2 * uu := by
        unfold bound
        nlinarith
      have h7 : 5 * uu * S ≤ (bound G ε + 2 * uu) * S := mul_le_mul_of_nonneg_right h6 (by linarith)
      have h8 : uu * uu * S ≤ uu * S := mul_le_mul_of_nonneg_right (by nlinarith) (by linarith)
      rw [abs_le]
      constructor <;> nlinarith

/-- Type 6. -/
theorem C105_type6 (l : Libm) (ε : ℝ) (hl : AccuratePow l ε) (hε : 0 ≤ ε) (hε' : ε ≤ 1 / 8) (g a b c r : F64)
    (G A B C R : ℚ) (h : PowerPiece g a b r G A B R) (hc : F64.val c = some C) (hC : 0 ≤ C)
    (hC' : (C : ℝ) ≤ rHi / 2) (hp : ((A : ℝ) * R + B) ^ (G : ℝ) ≤ rHi / 2) :
    ∃ z Z Y, eval (F64.ops l) 6 [g, a, b, c] r = some z ∧ F64.val z = some Z ∧
      Maps 6 [(G : ℝ), (A : ℝ), (B : ℝ), (C : ℝ)] R Y ∧ |(Z : ℝ) - Y| ≤ (bound G ε + 2 * uu) * Y := by
  obtain ⟨-, h1, -⟩ := h.value hl hε
  obtain ⟨Z, hZ, hZe⟩ := h.plus hl hε hε' hc hC hC' hp
  have hG : (0 : ℝ) < G := by exact_mod_cast h.hG
  have hm := maps6 hG A B C R
  rw [max_eq_right h.pos.le] at hm
  refine ⟨_, Z, _, ?_, hZ, hm, hZe⟩
  show some (f6 (F64.ops l) g a b c r) = _
  unfold f6
  simp only [F64.ops, h1, Bool.false_eq_true, if_false]

/-! ### Instances -/

/-- There are such implementations of `powf`, with a relative error of 2^-52. -/
theorem C105_accurate_pow_exists : ∃ l : Libm, AccuratePow l (2 * uu) := by
  have key : ∀ x y : F64, ∃ z : F64, ∀ X Y : ℚ, F64.val x = some X → F64.val y = some Y → 0 < X →
      rLo / 2 ≤ (X : ℝ) ^ (Y : ℝ) → (X : ℝ) ^ (Y : ℝ) ≤ 3 / 2 * rHi →
      ∃ P : ℚ, F64.val z = some P ∧ |(P : ℝ) - (X : ℝ) ^ (Y : ℝ)| ≤ 2 * uu * (X : ℝ) ^ (Y : ℝ) := by
    intro x y
    by_cases h : ∃ X Y : ℚ, F64.val x = some X ∧ F64.val y = some Y ∧ 0 < X
    · obtain ⟨X, Y, hx, hy, hX⟩ := h
      have hX' : (0 : ℝ) < X := by exact_mod_cast hX
      have hW : 0 < (X : ℝ) ^ (Y : ℝ) := Real.rpow_pos_of_pos hX' _
      have hu := uu_pos
      have hu' := uu_small
      set W := (X : ℝ) ^ (Y : ℝ) with hWd
      obtain ⟨q, hq1, hq2⟩ := exists_rat_btwn (show W < (1 + uu / 2) * W by nlinarith)
      refine ⟨F64.round q, fun X1 Y1 hx1 hy1 _ hlo hhi => ?_⟩
      rw [hx] at hx1
      rw [hy] at hy1
      obtain rfl := Option.some.inj hx1
      obtain rfl := Option.some.inj hy1
      have h1 := rHi_pos
      obtain ⟨P, hP, hPe⟩ := rd_rel (correct_of_rd (F64.round_cases q)) (by linarith) (by nlinarith)
      refine ⟨P, hP, ?_⟩
      have h2 := abs_le.mp hPe
      rw [abs_le]
      constructor <;> nlinarith
    · exact ⟨.nan, fun X Y hx hy hX => absurd ⟨X, Y, hx, hy, hX⟩ h⟩
  choose f hf using key
  exact ⟨⟨f, id, id⟩, fun x y X Y => hf x y X Y⟩

/-- The parameters of the sRGB curve, as binary64 numbers. -/
def srgb : List F64 := [F64.ofRat (24 / 10), F64.ofRat (1000 / 1055), F64.ofRat (55 / 1055), F64.ofRat (100 / 1292),
  F64.ofRat (4045 / 100000)]

theorem rLo_le {x : ℝ} (h : 1 / 2 ^ 20 ≤ x) : rLo ≤ x := by
  refine le_trans ?_ h
  unfold rLo
  exact one_div_le_one_div_of_le (by positivity) (pow_le_pow_right₀ (by norm_num) (by norm_num))

theorem le_rHi {x : ℝ} (h : x ≤ 2 ^ 20) : x ≤ rHi :=
  h.trans (pow_le_pow_right₀ (by norm_num) (by norm_num))

/-- The sRGB curve (type 4) from 2^-1000 to 1 and at 0: with a `powf` of relative error at most 2^-52, the relative
error is at most 12 * 2^-53. -/
theorem C105_srgb (l : Libm) (hl : AccuratePow l (2 * uu)) (r : F64) (R : ℚ) (hr : F64.val r = some R)
    (h0 : R = 0 ∨ 1 / 2 ^ 1000 ≤ R) (h1 : R ≤ 1) :
    ∃ z Z Y, eval (F64.ops l) 4 srgb r = some z ∧ F64.val z = some Z ∧
      Maps 4 (srgb.map fun p => ((F64.ratOf p : ℚ) : ℝ)) R Y ∧ |(Z : ℝ) - Y| ≤ 12 * uu * Y := by
  set G := F64.ratOf (F64.ofRat (24 / 10)) with hG
  set A := F64.ratOf (F64.ofRat (1000 / 1055)) with hA
  set B := F64.ratOf (F64.ofRat (55 / 1055)) with hB
  set C := F64.ratOf (F64.ofRat (100 / 1292)) with hC
  set D := F64.ratOf (F64.ofRat (4045 / 100000)) with hD
  have vG : F64.val (F64.ofRat (24 / 10)) = some G := by decide +kernel
  have vA : F64.val (F64.ofRat (1000 / 1055)) = some A := by decide +kernel
  have vB : F64.val (F64.ofRat (55 / 1055)) = some B := by decide +kernel
  have vC : F64.val (F64.ofRat (100 / 1292)) = some C := by decide +kernel
  have vD : F64.val (F64.ofRat (4045 / 100000)) = some D := by decide +kernel
  have bG : 2 ≤ G ∧ G ≤ 5 / 2 := by decide +kernel
  have bA : 0 ≤ A ∧ A ≤ 1 := by decide +kernel
  have bB : 1 / 20 ≤ B ∧ B ≤ 1 := by decide +kernel
  have bC : 1 / 16 ≤ C ∧ C ≤ 1 := by decide +kernel
  clear_value G A B C D
  have hR0 : 0 ≤ R := by
    rcases h0 with rfl | h0
    · exact le_refl _
    · exact le_trans (by positivity) h0
  have cast2 : ∀ {p q : ℚ}, p ≤ q → (p : ℝ) ≤ q := fun h => by exact_mod_cast h
  have rG1 : (2 : ℝ) ≤ G := by have := cast2 bG.1; push_cast at this; exact this
  have rG2 : (G : ℝ) ≤ 5 / 2 := by have := cast2 bG.2; push_cast at this; exact this
  have rA1 : (0 : ℝ) ≤ A := by exact_mod_cast bA.1
  have rA2 : (A : ℝ) ≤ 1 := by exact_mod_cast bA.2
  have rB1 : (1 / 20 : ℝ) ≤ B := by have := cast2 bB.1; push_cast at this; exact this
  have rB2 : (B : ℝ) ≤ 1 := by exact_mod_cast bB.2
  have rC1 : (1 / 16 : ℝ) ≤ C := by have := cast2 bC.1; push_cast at this; exact this
  have rC2 : (C : ℝ) ≤ 1 := by exact_mod_cast bC.2
  have rR1 : (0 : ℝ) ≤ R := by exact_mod_cast hR0
  have rR2 : (R : ℝ) ≤ 1 := by exact_mod_cast h1
  have hu := uu_pos
  obtain ⟨z, Z, Y, hz, hZ, hY, he⟩ := C105_type4 l (2 * uu) hl (by linarith) (F64.ofRat (24 / 10))
    (F64.ofRat (1000 / 1055)) (F64.ofRat (55 / 1055)) _ _ r G A B C D R vC vD hr
    (by linarith [bG.1])
    (fun hDR => by
      have s1 : (1 / 20 : ℝ) ≤ A * R + B := by nlinarith
      have s2 : (A : ℝ) * R + B ≤ 2 := by nlinarith
      refine ⟨vG, vA, vB, hr, by linarith [bG.1], by linarith [bG.2], bA.1, by linarith [bB.1], hR0, ⟨?_, ?_⟩, ?_, ?_⟩
      · refine rLo_le (le_trans ?_ s1)
        norm_num
      · refine le_rHi (s2.trans ?_)
        norm_num
      · refine rLo_le ?_
        have e1 : ((1 / 20 : ℝ)) ^ (3 : ℝ) ≤ (1 / 20 : ℝ) ^ (G : ℝ) :=
          Real.rpow_le_rpow_of_exponent_ge (by norm_num) (by norm_num) (by linarith)
        have e2 : (1 / 20 : ℝ) ^ (G : ℝ) ≤ ((A : ℝ) * R + B) ^ (G : ℝ) :=
          Real.rpow_le_rpow (by norm_num) s1 (by linarith)
        have e3 : ((1 / 20 : ℝ)) ^ (3 : ℝ) = (1 / 20) ^ 3 := by exact_mod_cast Real.rpow_natCast (1 / 20 : ℝ) 3
        rw [e3] at e1
        refine le_trans ?_ (e1.trans e2)
        norm_num
      · refine le_rHi ?_
        have e1 : ((A : ℝ) * R + B) ^ (G : ℝ) ≤ 2 ^ (G : ℝ) := Real.rpow_le_rpow (by linarith) s2 (by linarith)
        have e2 : (2 : ℝ) ^ (G : ℝ) ≤ 2 ^ (3 : ℝ) := Real.rpow_le_rpow_of_exponent_le (by norm_num) (by linarith)
        have e3 : (2 : ℝ) ^ (3 : ℝ) = 2 ^ 3 := by exact_mod_cast Real.rpow_natCast (2 : ℝ) 3
        rw [e3] at e2
        refine (e1.trans e2).trans ?_
        norm_num)
    (fun _ => by
      rcases h0 with rfl | h0
      · left
        rw [zero_mul]
      · right
        have h2 : (1 : ℝ) / 2 ^ 1000 ≤ R := by
          have := cast2 h0
          rwa [Rat.cast_div, Rat.cast_one, Rat.cast_pow, Rat.cast_ofNat] at this
        constructor
        · have h3 : rLo ≤ 1 / 2 ^ 1000 * (1 / 16) := by
            unfold rLo
            rw [div_mul_div_comm, one_mul, show (16 : ℝ) = 2 ^ 4 by norm_num, ← pow_add]
            exact one_div_le_one_div_of_le (by positivity) (pow_le_pow_right₀ (by norm_num) (by norm_num))
          refine h3.trans (mul_le_mul h2 rC1 (by norm_num) rR1)
        · refine le_rHi (le_trans (mul_le_one₀ rR2 (by linarith) rC2) ?_)
          norm_num)
  refine ⟨z, Z, Y, hz, hZ, ?_, he.trans ?_⟩
  · simp only [srgb, List.map_cons, List.map_nil, ← hG, ← hA, ← hB, ← hC, ← hD]
    exact hY
  · have hY0 : 0 ≤ Y := by
      have hm := maps4 (show (0 : ℝ) < G by linarith) A B C D R
      rw [hY.unique hm]
      split
      · exact Real.rpow_nonneg (le_max_left _ _) _
      · exact mul_nonneg rR1 (by linarith)
    refine mul_le_mul_of_nonneg_right ?_ hY0
    unfold bound
    rw [max_eq_left (by linarith)]
    nlinarith

/-- The bound is met with room to spare by a correctly rounded square: 0.1² is off by less than half a unit. -/
example : |F64.ratOf (F64.mul (F64.ofRat (1 / 10)) (F64.ofRat (1 / 10))) - F64.ratOf (F64.ofRat (1 / 10)) ^ 2| ≤
    F64.ratOf (F64.ofRat (1 / 10)) ^ 2 / 2 ^ 53 := by
  decide +kernel

/-! One instance of each theorem, with `(x + 1)^2` at 1 for the power. -/

theorem one_base : ((1 : ℚ) : ℝ) * ((1 : ℚ) : ℝ) + ((1 : ℚ) : ℝ) = 2 := by norm_num

theorem one_power : (((1 : ℚ) : ℝ) * ((1 : ℚ) : ℝ) + ((1 : ℚ) : ℝ)) ^ ((2 : ℚ) : ℝ) = 4 := by
  rw [one_base, show ((2 : ℚ) : ℝ) = ((2 : ℕ) : ℝ) by norm_num, Real.rpow_natCast]
  norm_num

theorem inRange_small {x : ℝ} (h1 : 1 / 4 ≤ x) (h2 : x ≤ 16) : InRange x :=
  ⟨rLo_le (le_trans (by norm_num) h1), le_rHi (h2.trans (by norm_num))⟩

theorem le_half_rHi {x : ℝ} (h : x ≤ 16) : x ≤ rHi / 2 := by
  have := le_rHi (show (32 : ℝ) ≤ 2 ^ 20 by norm_num)
  linarith

theorem val_two' : F64.val (F64.ofRat 2) = some 2 := by decide +kernel

theorem val_one1 : F64.val (F64.ofRat 1) = some 1 := by decide +kernel

theorem one_piece : PowerPiece (F64.ofRat 2) (F64.ofRat 1) (F64.ofRat 1) (F64.ofRat 1) 2 1 1 1 :=
  ⟨val_two', val_one1, val_one1, val_one1, by norm_num, by norm_num, by norm_num, by norm_num, by norm_num,
    by rw [one_base]; exact inRange_small (by norm_num) (by norm_num),
    by rw [one_power]; exact inRange_small (by norm_num) (by norm_num)⟩

theorem one_bound : bound 2 (2 * uu) = 10 * uu := by
  unfold bound
  rw [max_eq_left (by norm_num)]
  push_cast
  ring

/-- Type 1: the square of 3. -/
example (l : Libm) (hl : AccuratePow l (2 * uu)) :
    ∃ z Z, eval (F64.ops l) 1 [F64.ofRat 2] (F64.ofRat 3) = some z ∧ F64.val z = some Z ∧ |(Z : ℝ) - 9| ≤ 18 * uu := by
  have e : ((3 : ℚ) : ℝ) ^ ((2 : ℚ) : ℝ) = 9 := by
    rw [show ((2 : ℚ) : ℝ) = ((2 : ℕ) : ℝ) by norm_num, Real.rpow_natCast]
    norm_num
  obtain ⟨z, Z, Y, h1, h2, h3, h4⟩ := C105_type1 l (2 * uu) hl (F64.ofRat 2) (F64.ofRat 3) 2 3 val_two'
    (by decide +kernel) (by norm_num) (by norm_num) (by rw [e]; exact inRange_small (by norm_num) (by norm_num))
  rw [h3.unique (maps1 (by norm_num) (by norm_num)), e] at h4
  exact ⟨z, Z, h1, h2, h4.trans (by linarith [uu_pos])⟩

/-- Type 2. -/
example (l : Libm) (hl : AccuratePow l (2 * uu)) :
    ∃ z Z, eval (F64.ops l) 2 [F64.ofRat 2, F64.ofRat 1, F64.ofRat 1] (F64.ofRat 1) = some z ∧
      F64.val z = some Z ∧ |(Z : ℝ) - 4| ≤ 40 * uu := by
  have hu := uu_pos
  obtain ⟨z, Z, Y, h1, h2, h3, h4⟩ := C105_type2 l (2 * uu) hl (by linarith) _ _ _ _ 2 1 1 1 one_piece (by norm_num)
  have hm := maps2 (g := ((2 : ℚ) : ℝ)) (a := ((1 : ℚ) : ℝ)) (b := ((1 : ℚ) : ℝ)) (by norm_num) (by norm_num) ((1 : ℚ) : ℝ)
  rw [max_eq_right (by norm_num), one_power] at hm
  rw [h3.unique hm, one_bound] at h4
  exact ⟨z, Z, h1, h2, h4.trans (by linarith)⟩

/-- Type 3: the same and 1. -/
example (l : Libm) (hl : AccuratePow l (2 * uu)) :
    ∃ z Z Y, eval (F64.ops l) 3 [F64.ofRat 2, F64.ofRat 1, F64.ofRat 1, F64.ofRat 1] (F64.ofRat 1) = some z ∧
      F64.val z = some Z ∧ Maps 3 [2, 1, 1, 1] 1 Y ∧ |(Z : ℝ) - Y| ≤ 12 * uu * Y := by
  have hu := uu_pos
  have hu' := uu_small
  obtain ⟨z, Z, Y, h1, h2, h3, h4⟩ := C105_type3 l (2 * uu) hl (by linarith) (by linarith) _ _ _ (F64.ofRat 1) _
    2 1 1 1 1 one_piece (by norm_num) val_one1 (by norm_num) (by push_cast; exact le_half_rHi (by norm_num))
    (by rw [one_power]; exact le_half_rHi (by norm_num))
  rw [one_bound] at h4
  push_cast at h3
  exact ⟨z, Z, Y, h1, h2, h3, h4.trans (le_of_eq (by ring))⟩

/-- Type 5: the same from the joint at 1 on, and the line `x + 2` below it. -/
example (l : Libm) (hl : AccuratePow l (2 * uu)) :
    (∃ z Z, eval (F64.ops l) 5 [F64.ofRat 2, F64.ofRat 1, F64.ofRat 1, F64.ofRat 1, F64.ofRat 1, F64.ofRat 1, F64.ofRat 2]
        (F64.ofRat 1) = some z ∧ F64.val z = some Z ∧ |(Z : ℝ) - 5| ≤ 60 * uu) ∧
    (∃ z Z, eval (F64.ops l) 5 [F64.ofRat 2, F64.ofRat 1, F64.ofRat 1, F64.ofRat 1, F64.ofRat 1, F64.ofRat 1, F64.ofRat 2]
        (F64.ofRat (1 / 2)) = some z ∧ F64.val z = some Z ∧ |(Z : ℝ) - 5 / 2| ≤ 30 * uu) := by
  have hu := uu_pos
  have hu' := uu_small
  constructor
  · obtain ⟨z, Z, Y, h1, h2, h3, h4⟩ := C105_type5 l (2 * uu) hl (by linarith) (by linarith) (F64.ofRat 2) (F64.ofRat 1)
      (F64.ofRat 1) (F64.ofRat 1) (F64.ofRat 1) (F64.ofRat 1) (F64.ofRat 2) (F64.ofRat 1) 2 1 1 1 1 1 2 1 val_one1
      val_one1 val_one1 val_two' val_one1 (by norm_num)
      (fun _ => ⟨one_piece, by norm_num, by push_cast; exact le_half_rHi (by norm_num),
        by rw [one_power]; exact le_half_rHi (by norm_num)⟩) (fun h => absurd h (by norm_num))
    have hm := maps5 (g := ((2 : ℚ) : ℝ)) (by norm_num) ((1 : ℚ) : ℝ) ((1 : ℚ) : ℝ) ((1 : ℚ) : ℝ) ((1 : ℚ) : ℝ)
      ((1 : ℚ) : ℝ) ((2 : ℚ) : ℝ) ((1 : ℚ) : ℝ)
    rw [if_pos (le_refl _), max_eq_right (by norm_num), one_power] at hm
    rw [h3.unique hm, one_bound] at h4
    push_cast at h4
    refine ⟨z, Z, h1, h2, ?_⟩
    norm_num at h4
    linarith
  · obtain ⟨z, Z, Y, h1, h2, h3, h4⟩ := C105_type5 l (2 * uu) hl (by linarith) (by linarith) (F64.ofRat 2) (F64.ofRat 1)
      (F64.ofRat 1) (F64.ofRat 1) (F64.ofRat 1) (F64.ofRat 1) (F64.ofRat 2) (F64.ofRat (1 / 2)) 2 1 1 1 1 1 2 (1 / 2)
      val_one1 val_one1 val_one1 val_two' (by decide +kernel) (by norm_num) (fun h => absurd h (by norm_num))
      (fun _ => ⟨by norm_num, by norm_num, by norm_num, inRange_small (by norm_num) (by norm_num)⟩)
    have hm := maps5 (g := ((2 : ℚ) : ℝ)) (by norm_num) ((1 : ℚ) : ℝ) ((1 : ℚ) : ℝ) ((1 : ℚ) : ℝ) ((1 : ℚ) : ℝ)
      ((1 : ℚ) : ℝ) ((2 : ℚ) : ℝ) ((1 / 2 : ℚ) : ℝ)
    rw [if_neg (by norm_num)] at hm
    rw [h3.unique hm, one_bound] at h4
    push_cast at h4
    refine ⟨z, Z, h1, h2, ?_⟩
    norm_num at h4
    linarith

/-- Type 6. -/
example (l : Libm) (hl : AccuratePow l (2 * uu)) :
    ∃ z Z, eval (F64.ops l) 6 [F64.ofRat 2, F64.ofRat 1, F64.ofRat 1, F64.ofRat 1] (F64.ofRat 1) = some z ∧
      F64.val z = some Z ∧ |(Z : ℝ) - 5| ≤ 60 * uu := by
  have hu := uu_pos
  have hu' := uu_small
  obtain ⟨z, Z, Y, h1, h2, h3, h4⟩ := C105_type6 l (2 * uu) hl (by linarith) (by linarith) _ _ _ (F64.ofRat 1) _
    2 1 1 1 1 one_piece val_one1 (by norm_num) (by push_cast; exact le_half_rHi (by norm_num))
    (by rw [one_power]; exact le_half_rHi (by norm_num))
  have hm := maps6 (g := ((2 : ℚ) : ℝ)) (by norm_num) ((1 : ℚ) : ℝ) ((1 : ℚ) : ℝ) ((1 : ℚ) : ℝ) ((1 : ℚ) : ℝ)
  rw [max_eq_right (by norm_num), one_power] at hm
  rw [h3.unique hm, one_bound] at h4
  push_cast at h4
  refine ⟨z, Z, h1, h2, ?_⟩
  norm_num at h4
  linarith

end Lcms.Props
