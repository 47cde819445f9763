import Verif.Props.CurvesRound
import Verif.Lemmas.F64Nearest

/-! # Property C104: the straight pieces of the curves are correctly rounded -/

namespace Lcms.Props

open Lcms.Curves

/-- `z` is what IEEE-754 prescribes for the exact value `q` (round to nearest, ties to even): a finite number than
which no other is nearer, with an even significand if another one is equally near; or, from the largest number and
half a unit in its last place on, infinity. -/
def Correct (z : F64) (q : ℚ) : Prop :=
  (|q| < 2 ^ 1024 - 2 ^ 970 ∧ ∃ v, F64.val z = some v ∧ ∀ w r, F64.val w = some r →
    |v - q| ≤ |r - q| ∧ (r ≠ v → |v - q| = |r - q| → F64.EvenSig v)) ∨
  (2 ^ 1024 - 2 ^ 970 ≤ |q| ∧ ∃ s, z = F64.inf s ∧ (s = true ↔ q < 0))

theorem abs_rq (q : ℚ) : |F64.rq q| = F64.rmag |q| := by
  unfold F64.rq
  split
  · rename_i h
    rw [abs_neg, abs_of_neg h, abs_of_nonneg (F64.rmag_nonneg _)]
  · rename_i h
    rw [abs_of_nonneg (not_lt.mp h), abs_of_nonneg (F64.rmag_nonneg _)]

theorem correct_of_rd {z : F64} {q : ℚ} (h : F64.IsRd z q) : Correct z q := by
  have hiff := F64.overflow_iff (abs_nonneg q)
  rcases h with h | ⟨s, h1, h2, h3⟩
  · left
    refine ⟨?_, _, h, fun w r hw => F64.rq_nearest (F64.srep_of_val hw)⟩
    by_contra hc
    have h1 := hiff.mpr (not_lt.mp hc)
    rw [← abs_rq] at h1
    exact absurd (F64.abs_val_lt h) (not_lt.mpr h1)
  · right
    rw [abs_rq] at h3
    exact ⟨hiff.mp h3, s, h1, h2⟩

/-- The four operations on finite numbers. -/
theorem C104_operations (x y : F64) (p q : ℚ) (hx : F64.val x = some p) (hy : F64.val y = some q) :
    Correct (F64.add x y) (p + q) ∧ Correct (F64.sub x y) (p - q) ∧ Correct (F64.mul x y) (p * q) ∧
    (q ≠ 0 → Correct (F64.div x y) (p / q)) := by
  refine ⟨correct_of_rd (F64.add_rd hx hy), ?_, correct_of_rd (F64.mul_rd hx hy),
    fun h0 => correct_of_rd (F64.div_rd hx hy h0)⟩
  have := F64.add_rd hx (F64.val_neg hy)
  rw [← sub_eq_add_neg] at this
  exact correct_of_rd this

/-- There is only one correct result (up to the sign of zero). -/
theorem C104_unique (x y : F64) (q : ℚ) (hx : Correct x q) (hy : Correct y q) :
    F64.val x = F64.val y ∧ (F64.val x = none → x = y) := by
  have key : ∀ z v, |q| < 2 ^ 1024 - 2 ^ 970 → F64.val z = some v → (∀ w r, F64.val w = some r →
      |v - q| ≤ |r - q| ∧ (r ≠ v → |v - q| = |r - q| → F64.EvenSig v)) → v = F64.rq q := by
    intro z v hlt hz hn
    by_contra hne
    have hR : F64.val (F64.round q) = some (F64.rq q) := by
      apply F64.val_round_of_lt
      by_contra hc
      have h1 := not_lt.mp hc
      rw [abs_rq] at h1
      exact absurd ((F64.overflow_iff (abs_nonneg q)).mp h1) (not_le.mpr hlt)
    obtain ⟨h1, h2⟩ := hn _ _ hR
    have h3 := (F64.rq_nearest (q := q) (F64.srep_of_val hz)).1
    have hEq := le_antisymm h1 h3
    exact F64.rq_unique (F64.srep_of_val hz) hne hEq.symm (h2 (Ne.symm hne) hEq)
  rcases hx with ⟨hlt, v, h1, h2⟩ | ⟨hge, s, h1, h2⟩
  · rcases hy with ⟨-, v', h3, h4⟩ | ⟨hge, -⟩
    · rw [h1, h3, key x v hlt h1 h2, key y v' hlt h3 h4]
      exact ⟨rfl, nofun⟩
    · exact absurd hlt (not_lt.mpr hge)
  · rcases hy with ⟨hlt, -⟩ | ⟨-, s', h3, h4⟩
    · exact absurd hlt (not_lt.mpr hge)
    · have : s = s' := by
        rw [Bool.eq_iff_iff, h2, h4]
      rw [h1, h3, this]
      exact ⟨rfl, fun _ => rfl⟩

theorem correct_val {z : F64} {q v : ℚ} (h : Correct z q) (hv : F64.val z = some v) : v = F64.rq q := by
  have hr : Correct (F64.round q) q := correct_of_rd (F64.round_cases q)
  have he := (C104_unique _ _ _ h hr).1
  rw [hv] at he
  rcases F64.round_cases q with h1 | ⟨s, h1, -⟩
  · rw [h1] at he
    exact Option.some.inj he
  · rw [h1] at he
    cases he

theorem rq_error {q : ℚ} (hq : q ≠ 0) : |F64.rq q - q| ≤ |q| / 2 ^ 53 ∨
    |F64.rq q - q| ≤ 1 / 2 ^ 1075 ∧ |q| < 1 / 2 ^ 1021 := by
  have h := F64.rmag_error (abs_pos.mpr hq)
  have e : |F64.rq q - q| = |(F64.rmag |q|) - (|q|)| := by
    rcases lt_or_gt_of_ne hq with h0 | h0
    · rw [abs_of_neg h0]
      unfold F64.rq
      rw [if_pos h0, show -F64.rmag (-q) - q = -(F64.rmag (-q) - -q) by ring, abs_neg]
    · rw [abs_of_pos h0]
      unfold F64.rq
      rw [if_neg (not_lt.mpr h0.le)]
  rwa [e]

/-- Type 4 below its joint. -/
theorem C104_line4 (l : Libm) (g a b c d r : F64) (C R : ℚ) (hc : F64.val c = some C) (hr : F64.val r = some R)
    (hd : F64.lt r d = true) :
    ∃ z, eval (F64.ops l) 4 [g, a, b, c, d] r = some z ∧ Correct z (R * C) := by
  refine ⟨f4 (F64.ops l) g a b c d r, rfl, ?_⟩
  have h : F64.le d r = false := by
    by_contra hc
    exact F64.lt_irrefl' (F64.lt_of_lt_of_le hd (by simpa using hc))
  unfold f4
  simp only [F64.ops, h, Bool.false_eq_true, if_false]
  exact (C104_operations r c R C hr hc).2.2.1

/-- Type 5 below its joint: two operations, each correctly rounded. -/
theorem C104_line5 (l : Libm) (g a b c d e f r : F64) (C F R : ℚ) (hc : F64.val c = some C)
    (hf : F64.val f = some F) (hr : F64.val r = some R) (hd : F64.lt r d = true) :
    ∃ y z, eval (F64.ops l) 5 [g, a, b, c, d, e, f] r = some z ∧ Correct y (R * C) ∧
      (∀ Y, F64.val y = some Y → Correct z (Y + F)) ∧ (F64.val y = none → z = y) := by
  refine ⟨F64.mul r c, f5 (F64.ops l) g a b c d e f r, rfl, (C104_operations r c R C hr hc).2.2.1, ?_⟩
  have h : F64.le d r = false := by
    by_contra hc
    exact F64.lt_irrefl' (F64.lt_of_lt_of_le hd (by simpa using hc))
  have e : f5 (F64.ops l) g a b c d e f r = F64.add (F64.mul r c) f := by
    unfold f5
    simp only [F64.ops, h, Bool.false_eq_true, if_false]
  rw [e]
  refine ⟨fun Y hY => (C104_operations _ f Y F hY hf).1, fun hn => ?_⟩
  have hnn := (F64.mul_rd hr hc).nn
  cases hm : F64.mul r c with
  | nan => exact absurd hm hnn
  | inf s =>
    obtain ⟨s', m', k', rfl, -⟩ := F64.val_eq_some hf
    rfl
  | fin s m k =>
    rw [hm, F64.val_fin] at hn
    cases hn

/-- Type −4 below the value of the joint. -/
theorem C104_line4_inverse (l : Libm) (g a b c d r : F64) (C R : ℚ) (hc : F64.val c = some C)
    (hr : F64.val r = some R) (hC : 1 / 1000 ≤ |C|) (hpos : F64.lt (F64.ofRat 0) (F64.add (F64.mul a d) b) = true)
    (hj : ∀ j, eval (F64.ops l) 4 [g, a, b, c, d] d = some j → F64.lt r j = true) :
    ∃ z, eval (F64.ops l) (-4) [g, a, b, c, d] r = some z ∧ Correct z (R / C) := by
  refine ⟨g4 (F64.ops l) g a b c d r, rfl, ?_⟩
  have hC0 : C ≠ 0 := by
    rintro rfl
    norm_num at hC
  have hn : F64.lt (F64.add (F64.mul a d) b) (F64.ofRat 0) = false := by
    by_contra hc
    exact F64.lt_irrefl' (F64.lt_of_lt_of_le hpos (F64.le_of_lt (by simpa using hc)))
  have hd : d ≠ .nan := by
    rintro rfl
    revert hpos
    rw [ofRat0]
    cases a <;> exact nofun
  have ef : f4 (F64.ops l) g a b c d d = l.powf (F64.add (F64.mul a d) b) g := by
    have h1 : F64.le d d = true := F64.le_refl hd
    unfold f4
    simp only [F64.ops, h1, hpos, if_true]
  have hlt := hj _ (show eval (F64.ops l) 4 [g, a, b, c, d] d = some _ from congrArg some ef)
  have hle : F64.le (l.powf (F64.add (F64.mul a d) b) g) r = false := by
    by_contra hc
    exact F64.lt_irrefl' (F64.lt_of_lt_of_le hlt (by simpa using hc))
  have ht : F64.lt (F64.abs c) (F64.ofRat tolerance) = false := by
    obtain ⟨s, m, k, rfl, hv⟩ := F64.val_eq_some hc
    have h1 : F64.val (F64.abs (F64.fin s m k)) = some |C| := by
      show F64.val (F64.fin false m k) = _
      rw [F64.val_fin, hv]
      have := F64.magVal_nonneg m k
      cases s <;> simp [abs_of_nonneg this]
    by_contra hcon
    have h2 := (F64.lt_val h1 (show F64.val (F64.ofRat tolerance) =
      some (F64.ratOf (F64.ofRat tolerance)) by decide +kernel)).mp (by simpa using hcon)
    have h3 : F64.ratOf (F64.ofRat tolerance) < 1 / 1000 := by decide +kernel
    linarith
  unfold g4
  simp only [F64.ops, tiny, hn, hle, ht, Bool.false_eq_true, if_false]
  exact (C104_operations r c R C hr hc).2.2.2 hC0

/-- Away from underflow a correct result is off by at most one part in 2^53. -/
theorem C104_relative (z : F64) (q v : ℚ) (h : Correct z q) (hv : F64.val z = some v)
    (hq : 1 / 2 ^ 1022 ≤ |q|) : |v - q| ≤ |q| / 2 ^ 53 := by
  have hq0 : q ≠ 0 := by
    rintro rfl
    rw [abs_zero] at hq
    exact absurd hq (not_le.mpr (by positivity))
  rw [correct_val h hv]
  rcases rq_error hq0 with h1 | ⟨h1, -⟩
  · exact h1
  · refine h1.trans ?_
    have e : (1 : ℚ) / 2 ^ 1075 = 1 / 2 ^ 1022 / 2 ^ 53 := by
      rw [div_div, ← pow_add]
    rw [e]
    exact div_le_div_of_nonneg_right hq (by positivity)

/-- Near zero it is off by at most half the smallest number. -/
theorem C104_absolute (z : F64) (q v : ℚ) (h : Correct z q) (hv : F64.val z = some v)
    (hq : |q| ≤ 1 / 2 ^ 1022) : |v - q| ≤ 1 / 2 ^ 1075 := by
  rw [correct_val h hv]
  by_cases hq0 : q = 0
  · subst hq0
    have e : F64.rq 0 = 0 := le_antisymm (F64.rq_nonpos (le_refl _)) (F64.rq_nonneg (le_refl _))
    rw [e, sub_zero, abs_zero]
    positivity
  · rcases rq_error hq0 with h1 | ⟨h1, -⟩
    · refine h1.trans ?_
      have e : (1 : ℚ) / 2 ^ 1075 = 1 / 2 ^ 1022 / 2 ^ 53 := by
        rw [div_div, ← pow_add]
      rw [e]
      exact div_le_div_of_nonneg_right hq (by positivity)
    · exact h1

/-- Ties: 1 + 2^-53 lies halfway between 1 and 1 + 2^-52 and becomes 1; 1 + 3 * 2^-53 becomes 1 + 2^-51. -/
example : F64.val (F64.add (F64.ofRat 1) (F64.ofRat (1 / 2 ^ 53))) = some 1 ∧
    F64.val (F64.add (F64.ofRat 1) (F64.ofRat (3 / 2 ^ 53))) = some (1 + 1 / 2 ^ 51) := by
  decide +kernel

/-- The straight piece of the sRGB curve: 1/12.92 rounded, times 1/32. -/
example : ∃ z, eval (F64.ops crudeLibm) 4 [F64.ofRat (24 / 10), F64.ofRat (1000 / 1055), F64.ofRat (55 / 1055),
      F64.ofRat (100 / 1292), F64.ofRat (4045 / 100000)] (F64.ofRat (1 / 32)) = some z ∧
    F64.val z = some (F64.ratOf (F64.ofRat (100 / 1292)) / 32) := by
  refine ⟨_, rfl, ?_⟩
  decide +kernel

/-- One half times a third and 1/10, rounded twice. -/
example : ∃ y z, eval (F64.ops crudeLibm) 5 [F64.ofRat 2, F64.ofRat 1, F64.ofRat 0, F64.ofRat (1 / 3), F64.ofRat 1,
      F64.ofRat 0, F64.ofRat (1 / 10)] (F64.ofRat (1 / 2)) = some z ∧
    Correct y (1 / 2 * F64.ratOf (F64.ofRat (1 / 3))) ∧
    ∀ Y, F64.val y = some Y → Correct z (Y + F64.ratOf (F64.ofRat (1 / 10))) := by
  obtain ⟨y, z, h1, h2, h3, -⟩ := C104_line5 crudeLibm (F64.ofRat 2) (F64.ofRat 1) (F64.ofRat 0) (F64.ofRat (1 / 3))
    (F64.ofRat 1) (F64.ofRat 0) (F64.ofRat (1 / 10)) (F64.ofRat (1 / 2)) (F64.ratOf (F64.ofRat (1 / 3)))
    (F64.ratOf (F64.ofRat (1 / 10))) (1 / 2) (by decide +kernel) (by decide +kernel) (by decide +kernel)
    (by decide +kernel)
  exact ⟨y, z, h1, h2, h3⟩

/-- One half divided by 3, below the value 1 of the joint; off by at most one part in 2^53, and not exact. -/
example : ∃ z, eval (F64.ops crudeLibm) (-4) [F64.ofRat 1, F64.ofRat 1, F64.ofRat 0, F64.ofRat 3, F64.ofRat 1]
      (F64.ofRat (1 / 2)) = some z ∧ Correct z (1 / 2 / 3) ∧ |F64.ratOf z - 1 / 6| ≤ 1 / 6 / 2 ^ 53 ∧
      F64.ratOf z ≠ 1 / 6 := by
  obtain ⟨z, h1, h2⟩ := C104_line4_inverse crudeLibm (F64.ofRat 1) (F64.ofRat 1) (F64.ofRat 0) (F64.ofRat 3)
    (F64.ofRat 1) (F64.ofRat (1 / 2)) 3 (1 / 2) (by decide +kernel) (by decide +kernel) (by norm_num) (by decide +kernel)
    (by
      intro j hj
      have e : eval (F64.ops crudeLibm) 4 [F64.ofRat 1, F64.ofRat 1, F64.ofRat 0, F64.ofRat 3, F64.ofRat 1]
        (F64.ofRat 1) = some (F64.ofRat 1) := by decide +kernel
      rw [e] at hj
      cases hj
      decide +kernel)
  have e : eval (F64.ops crudeLibm) (-4) [F64.ofRat 1, F64.ofRat 1, F64.ofRat 0, F64.ofRat 3, F64.ofRat 1]
      (F64.ofRat (1 / 2)) = some (F64.div (F64.ofRat (1 / 2)) (F64.ofRat 3)) := by decide +kernel
  have hz := Option.some.inj (h1.symm.trans e)
  have hv : F64.val z = some (F64.ratOf z) := by rw [hz]; decide +kernel
  have hr := C104_relative z (1 / 2 / 3) _ h2 hv (by
    rw [abs_of_nonneg (by norm_num)]
    refine le_trans (one_div_le_one_div_of_le (by norm_num) (pow_le_pow_right₀ (by norm_num) (show 3 ≤ 1022 by norm_num))) ?_
    norm_num)
  refine ⟨z, h1, h2, ?_, by rw [hz]; decide +kernel⟩
  rw [abs_of_nonneg (show (0 : ℚ) ≤ 1 / 2 / 3 by norm_num)] at hr
  norm_num at hr ⊢
  exact hr

end Lcms.Props
