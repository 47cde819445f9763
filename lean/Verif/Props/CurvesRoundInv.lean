import Verif.Props.CurvesRound

/-! # Property C103, the inverse types -3 and -109 -/

namespace Lcms.Props

open Lcms.Curves

/-- Two different finite numbers have a difference that does not round to zero. -/
theorem sub_pos_of_lt {x c : F64} {p q : ℚ} (ex : F64.val x = some p) (ec : F64.val c = some q) (h : q < p) :
    F64.lt (F64.ofRat 0) (F64.sub x c) = true := by
  have grid : ∀ r : ℚ, F64.SRep r → ∃ n : ℤ, r * 2 ^ F64.bias = n := by
    intro r hr
    obtain ⟨n, j, -, hn⟩ := hr
    rcases abs_cases r with ⟨h1, -⟩ | ⟨h1, -⟩
    · exact ⟨n * 2 ^ j, by rw [h1] at hn; push_cast; exact hn⟩
    · exact ⟨-(n * 2 ^ j), by rw [h1] at hn; push_cast; linarith⟩
  obtain ⟨n, hn⟩ := grid p (F64.srep_of_val ex)
  obtain ⟨m, hm⟩ := grid q (F64.srep_of_val ec)
  have hB : (0 : ℚ) < 2 ^ F64.bias := by positivity
  have hnm : m < n := by
    have : (m : ℚ) < n := by rw [← hn, ← hm]; exact mul_lt_mul_of_pos_right h hB
    exact_mod_cast this
  have hstep : (1 : ℚ) / 2 ^ F64.bias ≤ p + -q := by
    rw [div_le_iff₀ hB, add_mul, neg_mul, hn, hm]
    have : (m : ℚ) + 1 ≤ n := by exact_mod_cast hnm
    linarith
  have hrep : F64.SRep (1 / 2 ^ F64.bias) := by
    refine ⟨1, 0, by norm_num, ?_⟩
    rw [abs_of_pos (by positivity)]
    field_simp
    norm_num
  have hrq : (1 : ℚ) / 2 ^ F64.bias ≤ F64.rq (p + -q) := F64.le_rq hrep hstep
  have hpos : (0 : ℚ) < F64.rq (p + -q) := lt_of_lt_of_le (by positivity) hrq
  rcases F64.add_rd ex (F64.val_neg ec) with h1 | ⟨s, h1, h2, -⟩
  · exact (F64.lt_val val_zero h1).mpr hpos
  · show F64.lt (F64.ofRat 0) (F64.add x (F64.neg c)) = true
    rw [h1]
    have : s = false := by
      cases s with
      | false => rfl
      | true => exact absurd (h2.mp rfl) (by linarith)
    rw [this]
    decide +kernel

/-- Type -3 with a positive exponent and slope, away from the joint. -/
theorem C103_type3_inverse (l : Libm) (hl : MonoLibm l) (g a b c x y : F64) (hg : FinPos g) (ha : FinPos a)
    (hb : Finite b) (hc : Finite c) (hx : Finite x) (hy : Finite y) (hxc : F64.val x ≠ F64.val c)
    (hyc : F64.val y ≠ F64.val c) (h : F64.le x y = true) : Ordered l (-3) [g, a, b, c] x y := by
  refine ⟨g3 (F64.ops l) g a b c x, g3 (F64.ops l) g a b c y, rfl, rfl, ?_⟩
  obtain ⟨qa, ea, pa⟩ := ha.val
  obtain ⟨qb, eb⟩ := fin_val hb
  obtain ⟨qc, ec⟩ := fin_val hc
  have hr := recip_nonneg hg
  have hrn := (F64.le_nn hr).2
  have e : ∀ z, g3 (F64.ops l) g a b c z = if tiny (F64.ops l) a = true then F64.ofRat 0
      else if F64.le c z = true then
        if F64.lt (F64.ofRat 0) (F64.sub z c) = true then
          F64.div (F64.sub (l.powf (F64.sub z c) (F64.div (F64.ofRat 1) g)) b) a else F64.ofRat 0
      else F64.div (F64.neg b) a := fun _ => rfl
  have harg : ∀ z, Finite z → F64.val z ≠ F64.val c → F64.le c z = true →
      F64.lt (F64.ofRat 0) (F64.sub z c) = true := by
    intro z hz hne hle
    obtain ⟨q, eq⟩ := fin_val hz
    rw [F64.le_val ec eq] at hle
    refine sub_pos_of_lt eq ec (lt_of_le_of_ne hle ?_)
    rintro rfl
    exact hne (by rw [eq, ec])
  rw [e, e]
  split
  · exact zero_le_zero
  · by_cases h1 : F64.le c x = true
    · have hp := harg x hx hxc h1
      rw [if_pos h1, if_pos (F64.le_trans h1 h), if_pos hp, if_pos (harg y hy hyc (F64.le_trans h1 h))]
      exact F64.div_mono (F64.sub_mono (hl.pow_base _ _ _ (F64.le_of_lt hp) (F64.sub_mono h ec) hr) eb) ea pa
    · rw [if_neg h1]
      split
      · rename_i h2
        have hp := harg y hy hyc h2
        rw [if_pos hp]
        refine F64.div_mono ?_ ea pa
        have h3 := F64.sub_mono (hl.pow_nonneg _ _ (F64.le_of_lt hp) hrn) eb
        refine F64.le_trans ?_ h3
        have h4 : F64.val (F64.add (F64.ofRat 0) (F64.neg b)) = some (-qb) := by
          have := F64.add_exact val_zero (F64.val_neg eb)
            (by rw [zero_add]; exact F64.srep_of_val (F64.val_neg eb))
            (by rw [zero_add]; exact F64.abs_val_lt (F64.val_neg eb))
          rwa [zero_add] at this
        exact (F64.le_val (F64.val_neg eb) h4).mpr (le_refl _)
      · exact F64.le_refl (F64.div_rd (F64.val_neg eb) ea pa.ne').nn

/-- At the joint itself type -3 drops, on any platform: with a = 1, b = -1, c = 0 it is 1 below zero and 0 at
zero. -/
theorem C103_type3_inverse_drops (l : Libm) (g : F64) :
    eval (F64.ops l) (-3) [g, F64.ofRat 1, F64.ofRat (-1), F64.ofRat 0] (F64.ofRat (-1)) = some (F64.ofRat 1) ∧
    eval (F64.ops l) (-3) [g, F64.ofRat 1, F64.ofRat (-1), F64.ofRat 0] (F64.ofRat 0) = some (F64.ofRat 0) := by
  have ht : tiny (F64.ops l) (F64.ofRat 1) = false := by
    show F64.lt (F64.abs (F64.ofRat 1)) (F64.ofRat tolerance) = false
    decide +kernel
  constructor
  · show some (g3 (F64.ops l) g (F64.ofRat 1) (F64.ofRat (-1)) (F64.ofRat 0) (F64.ofRat (-1))) = _
    unfold g3
    rw [ht]
    have h1 : F64.le (F64.ofRat 0) (F64.ofRat (-1)) = false := by decide +kernel
    have h2 : F64.div (F64.neg (F64.ofRat (-1))) (F64.ofRat 1) = F64.ofRat 1 := by decide +kernel
    simp only [F64.ops, h1, h2, Bool.false_eq_true, if_false]
  · show some (g3 (F64.ops l) g (F64.ofRat 1) (F64.ofRat (-1)) (F64.ofRat 0) (F64.ofRat 0)) = _
    unfold g3
    rw [ht]
    have h1 : F64.le (F64.ofRat 0) (F64.ofRat 0) = true := by decide +kernel
    have h2 : F64.lt (F64.ofRat 0) (F64.sub (F64.ofRat 0) (F64.ofRat 0)) = false := by decide +kernel
    simp only [F64.ops, h1, h2, Bool.false_eq_true, if_false, if_true]

/-- Type -109 with a positive parameter and a finite correction, for arguments whose inner values, `1/(u + 1/2) - 1`
and before it `u + 1/2`, are positive. -/
theorem C103_type109_inverse (l : Libm) (hl : MonoLibm l) (k x y corr : F64) (hk : FinPos k) (hcorr : FinPos corr)
    (hc : corr = F64.div (F64.ofRat (1 / 2)) (F64.sub (F64.div (F64.ofRat 1)
      (F64.add (F64.ofRat 1) (l.exp (F64.mul (F64.neg k) (F64.ofRat 1))))) (F64.ofRat (1 / 2))))
    (hlo : F64.lt (F64.ofRat 0)
      (F64.add (F64.div (F64.sub x (F64.ofRat (1 / 2))) corr) (F64.ofRat (1 / 2))) = true)
    (hhi : F64.lt (F64.ofRat 0) (F64.sub (F64.div (F64.ofRat 1)
      (F64.add (F64.div (F64.sub y (F64.ofRat (1 / 2))) corr) (F64.ofRat (1 / 2)))) (F64.ofRat 1)) = true)
    (h : F64.le x y = true) : Ordered l (-109) [k] x y := by
  refine ⟨invertedSigmoidFactory (F64.ops l) k x, invertedSigmoidFactory (F64.ops l) k y, rfl, rfl, ?_⟩
  obtain ⟨qk, ek, pk⟩ := hk.val
  obtain ⟨qc, ec, pc⟩ := hcorr.val
  have e : ∀ z, invertedSigmoidFactory (F64.ops l) k z =
      F64.div (F64.add (F64.div (F64.neg (l.log10 (F64.sub (F64.div (F64.ofRat 1)
        (F64.add (F64.div (F64.sub z (F64.ofRat (1 / 2))) corr) (F64.ofRat (1 / 2)))) (F64.ofRat 1)))) k)
        (F64.ofRat 1)) (F64.ofRat 2) := by
    intro z
    rw [hc]
    rfl
  rw [e, e]
  have hu := F64.add_mono (F64.div_mono (F64.sub_mono h val_half) ec pc) val_half
  revert hlo hhi hu
  generalize F64.add (F64.div (F64.sub x (F64.ofRat (1 / 2))) corr) (F64.ofRat (1 / 2)) = u
  generalize F64.add (F64.div (F64.sub y (F64.ofRat (1 / 2))) corr) (F64.ofRat (1 / 2)) = v
  intro hlo hhi hu
  have hfin : ∃ p, F64.val u = some p ∧ 0 < p := by
    cases u with
    | nan => cases hlo
    | inf s =>
      exfalso
      cases s with
      | true => revert hlo; decide +kernel
      | false =>
        cases v with
        | nan => cases hu
        | inf s' => cases s' with
          | true => cases hu
          | false => revert hhi; decide +kernel
        | fin _ _ _ => cases hu
    | fin s m j => exact ⟨_, F64.val_fin s m j, (F64.lt_val val_zero (F64.val_fin s m j)).mp hlo⟩
  obtain ⟨p, ep, hp⟩ := hfin
  have h1 := F64.sub_mono (F64.div_anti ep hp hu val_one (by norm_num)) val_one
  exact F64.div_mono (F64.add_mono (F64.div_mono (F64.neg_anti (hl.log_mono _ _ hhi h1)) ek pk) val_one) val_two
    (by norm_num)

/-- With a parameter so large that `1 + exp(-k)` rounds to 1 (from about 37 on) type -109 is infinite at both ends
of the unit interval, if the platform's `log10` is minus infinity at zero and plus infinity at plus infinity. -/
theorem C103_type109_inverse_infinite (l : Libm) (k : F64) (hk : FinPos k)
    (he : F64.add (F64.ofRat 1) (l.exp (F64.mul (F64.neg k) (F64.ofRat 1))) = F64.ofRat 1)
    (h0 : l.log10 (F64.ofRat 0) = .inf true) (hi : l.log10 (.inf false) = .inf false) :
    eval (F64.ops l) (-109) [k] (F64.ofRat 0) = some (.inf true) ∧
    eval (F64.ops l) (-109) [k] (F64.ofRat 1) = some (.inf false) := by
  obtain ⟨qk, ek, pk⟩ := hk.val
  obtain ⟨mk, jk, rfl, -⟩ := F64.pos_fin ek pk
  have e : ∀ z, eval (F64.ops l) (-109) [F64.fin false mk jk] z = some (
      F64.div (F64.add (F64.div (F64.neg (l.log10 (F64.sub (F64.div (F64.ofRat 1)
        (F64.add (F64.div (F64.sub z (F64.ofRat (1 / 2))) (F64.ofRat 1)) (F64.ofRat (1 / 2)))) (F64.ofRat 1))))
          (F64.fin false mk jk)) (F64.ofRat 1)) (F64.ofRat 2)) := by
    intro z
    have hcorr : F64.div (F64.ofRat (1 / 2)) (F64.sub (F64.div (F64.ofRat 1)
        (F64.add (F64.ofRat 1) (l.exp (F64.mul (F64.neg (F64.fin false mk jk)) (F64.ofRat 1))))) (F64.ofRat (1 / 2))) =
        F64.ofRat 1 := by
      rw [he]
      decide +kernel
    have e0 : eval (F64.ops l) (-109) [F64.fin false mk jk] z = some (
      F64.div (F64.add (F64.div (F64.neg (l.log10 (F64.sub (F64.div (F64.ofRat 1)
        (F64.add (F64.div (F64.sub z (F64.ofRat (1 / 2))) (F64.div (F64.ofRat (1 / 2)) (F64.sub (F64.div (F64.ofRat 1)
        (F64.add (F64.ofRat 1) (l.exp (F64.mul (F64.neg (F64.fin false mk jk)) (F64.ofRat 1)))))
          (F64.ofRat (1 / 2))))) (F64.ofRat (1 / 2)))) (F64.ofRat 1))))
          (F64.fin false mk jk)) (F64.ofRat 1)) (F64.ofRat 2)) := rfl
    rw [e0, hcorr]
  constructor
  · rw [e]
    have h : F64.sub (F64.div (F64.ofRat 1) (F64.add (F64.div (F64.sub (F64.ofRat 0) (F64.ofRat (1 / 2)))
        (F64.ofRat 1)) (F64.ofRat (1 / 2)))) (F64.ofRat 1) = .inf false := by decide +kernel
    rw [h, hi]
    have h2 : F64.div (F64.neg (.inf false)) (F64.fin false mk jk) = .inf true := rfl
    rw [h2]
    decide +kernel
  · rw [e]
    have h : F64.sub (F64.div (F64.ofRat 1) (F64.add (F64.div (F64.sub (F64.ofRat 1) (F64.ofRat (1 / 2)))
        (F64.ofRat 1)) (F64.ofRat (1 / 2)))) (F64.ofRat 1) = F64.ofRat 0 := by decide +kernel
    rw [h, h0]
    have h2 : F64.div (F64.neg (.inf true)) (F64.fin false mk jk) = .inf false := rfl
    rw [h2]
    decide +kernel

/-- Type -109 is ordered between 1/4 and 1/2 on the crude platform. -/
example : Ordered crudeLibm (-109) [F64.ofRat 2] (F64.ofRat (1 / 4)) (F64.ofRat (1 / 2)) := by
  have fin : ∀ q r, F64.val (F64.ofRat q) = some r → Finite (F64.ofRat q) := by
    intro q r h
    obtain ⟨s, m, k, h, -⟩ := F64.val_eq_some h
    exact ⟨s, m, k, h⟩
  refine C103_type109_inverse _ crude_mono _ _ _ (F64.ofRat 1) ⟨fin _ _ val_two, by decide +kernel⟩
    ⟨one_fin, by decide +kernel⟩ ?_ ?_ ?_ ?_ <;> decide +kernel

theorem finite_of_val {x : F64} (h : (F64.val x).isSome = true) : Finite x := by
  obtain ⟨r, hr⟩ := Option.isSome_iff_exists.mp h
  obtain ⟨s, m, k, e, -⟩ := F64.val_eq_some hr
  exact ⟨s, m, k, e⟩

theorem finNonneg_of {x : F64} (h : (F64.val x).isSome = true ∧ F64.le (F64.ofRat 0) x = true) : FinNonneg x :=
  ⟨finite_of_val h.1, h.2⟩

theorem finPos_of {x : F64} (h : (F64.val x).isSome = true ∧ F64.lt (F64.ofRat 0) x = true) : FinPos x :=
  ⟨finite_of_val h.1, h.2⟩

/-! One instance of each of the other orderings, with values that differ. -/

/-- Type 1 across zero. -/
example : Ordered crudeLibm 1 [F64.ofRat (1)] (F64.ofRat (-1)) (F64.ofRat (1/3)) ∧
    eval (F64.ops crudeLibm) 1 [F64.ofRat (1)] (F64.ofRat (-1)) ≠ eval (F64.ops crudeLibm) 1 [F64.ofRat (1)]
        (F64.ofRat (1/3)) := by
  refine ⟨C103_type1 _ crude_mono _ _ _ (finNonneg_of (by decide +kernel)) (by decide +kernel), by decide +kernel⟩

/-- Type 2 across the point where its argument vanishes. -/
example : Ordered crudeLibm 2 [F64.ofRat (1), F64.ofRat (2), F64.ofRat (-1)] (F64.ofRat (1/3)) (F64.ofRat (2/3)) ∧
    eval (F64.ops crudeLibm) 2 [F64.ofRat (1), F64.ofRat (2), F64.ofRat (-1)] (F64.ofRat (1/3))
        ≠ eval (F64.ops crudeLibm) 2 [F64.ofRat (1), F64.ofRat (2), F64.ofRat (-1)] (F64.ofRat (2/3)) := by
  refine ⟨C103_type2 _ crude_mono _ _ _ _ _ (finNonneg_of (by decide +kernel)) (finPos_of (by decide +kernel))
      (finite_of_val (by decide +kernel)) (finite_of_val (by decide +kernel)) (finite_of_val (by decide +kernel))
      (by decide +kernel), by decide +kernel⟩

/-- Type 3 across zero. -/
example : Ordered crudeLibm 3 [F64.ofRat (1), F64.ofRat (2), F64.ofRat (1), F64.ofRat (1/2)] (F64.ofRat (-1/3))
    (F64.ofRat (2/3)) ∧
    eval (F64.ops crudeLibm) 3 [F64.ofRat (1), F64.ofRat (2), F64.ofRat (1), F64.ofRat (1/2)] (F64.ofRat (-1/3))
        ≠ eval (F64.ops crudeLibm) 3 [F64.ofRat (1), F64.ofRat (2), F64.ofRat (1), F64.ofRat (1/2)]
        (F64.ofRat (2/3)) := by
  refine ⟨C103_type3 _ crude_mono _ _ _ _ _ _ (finNonneg_of (by decide +kernel)) (finPos_of (by decide +kernel))
      (finPos_of (by decide +kernel)) (finite_of_val (by decide +kernel)) (finite_of_val (by decide +kernel))
      (finite_of_val (by decide +kernel)) (by decide +kernel), by decide +kernel⟩

/-- Type 6 across the point where its argument vanishes. -/
example : Ordered crudeLibm 6 [F64.ofRat (1), F64.ofRat (2), F64.ofRat (-1), F64.ofRat (1/2)] (F64.ofRat (1/3))
    (F64.ofRat (2/3)) ∧
    eval (F64.ops crudeLibm) 6 [F64.ofRat (1), F64.ofRat (2), F64.ofRat (-1), F64.ofRat (1/2)] (F64.ofRat (1/3))
        ≠ eval (F64.ops crudeLibm) 6 [F64.ofRat (1), F64.ofRat (2), F64.ofRat (-1), F64.ofRat (1/2)]
        (F64.ofRat (2/3)) := by
  refine ⟨C103_type6 _ crude_mono _ _ _ _ _ _ (finNonneg_of (by decide +kernel)) (finNonneg_of (by decide +kernel))
      (finite_of_val (by decide +kernel)) (finite_of_val (by decide +kernel)) (finite_of_val (by decide +kernel))
      (finite_of_val (by decide +kernel)) (by decide +kernel), by decide +kernel⟩

/-- Type 7. -/
example : Ordered crudeLibm 7 [F64.ofRat (1), F64.ofRat (2), F64.ofRat (1), F64.ofRat (1), F64.ofRat (-1)]
    (F64.ofRat (1/3)) (F64.ofRat (2/3)) ∧
    eval (F64.ops crudeLibm) 7 [F64.ofRat (1), F64.ofRat (2), F64.ofRat (1), F64.ofRat (1), F64.ofRat (-1)]
        (F64.ofRat (1/3)) ≠ eval (F64.ops crudeLibm) 7 [F64.ofRat (1), F64.ofRat (2), F64.ofRat (1), F64.ofRat (1),
        F64.ofRat (-1)] (F64.ofRat (2/3)) := by
  refine ⟨C103_type7 _ crude_mono _ _ _ _ _ _ _ (finNonneg_of (by decide +kernel)) (finPos_of (by decide +kernel))
      (finPos_of (by decide +kernel)) (finite_of_val (by decide +kernel)) (finite_of_val (by decide +kernel))
      (by decide +kernel) (by decide +kernel) (by decide +kernel), by decide +kernel⟩

/-- Type 8 across the point where its exponent changes sign. -/
example : Ordered crudeLibm 8 [F64.ofRat (2), F64.ofRat (3), F64.ofRat (1), F64.ofRat (-1/2), F64.ofRat (1)]
    (F64.ofRat (1/3)) (F64.ofRat (2/3)) ∧
    eval (F64.ops crudeLibm) 8 [F64.ofRat (2), F64.ofRat (3), F64.ofRat (1), F64.ofRat (-1/2), F64.ofRat (1)]
        (F64.ofRat (1/3)) ≠ eval (F64.ops crudeLibm) 8 [F64.ofRat (2), F64.ofRat (3), F64.ofRat (1), F64.ofRat (-1/2),
        F64.ofRat (1)] (F64.ofRat (2/3)) := by
  refine ⟨C103_type8 _ crude_mono _ _ _ _ _ _ _ (finPos_of (by decide +kernel)) (by decide +kernel)
      (finNonneg_of (by decide +kernel)) (finite_of_val (by decide +kernel)) (finite_of_val (by decide +kernel))
      (finite_of_val (by decide +kernel)) (finite_of_val (by decide +kernel)) (by decide +kernel), by decide +kernel⟩

/-- Type 108. -/
example : Ordered crudeLibm 108 [F64.ofRat (1)] (F64.ofRat (1/3)) (F64.ofRat (2/3)) ∧
    eval (F64.ops crudeLibm) 108 [F64.ofRat (1)] (F64.ofRat (1/3)) ≠ eval (F64.ops crudeLibm) 108 [F64.ofRat (1)]
        (F64.ofRat (2/3)) := by
  refine ⟨C103_type108 _ crude_mono _ _ _ (finPos_of (by decide +kernel)) (by decide +kernel) (by decide +kernel)
      (by decide +kernel), by decide +kernel⟩

/-- Type -108. -/
example : Ordered crudeLibm (-108) [F64.ofRat (1)] (F64.ofRat (1/3)) (F64.ofRat (2/3)) ∧
    eval (F64.ops crudeLibm) (-108) [F64.ofRat (1)] (F64.ofRat (1/3)) ≠ eval (F64.ops crudeLibm)
        (-108) [F64.ofRat (1)] (F64.ofRat (2/3)) := by
  refine ⟨C103_type108_inverse _ crude_mono _ _ _ (finNonneg_of (by decide +kernel)) (by decide +kernel)
      (by decide +kernel) (by decide +kernel), by decide +kernel⟩

/-- Type -1 across zero. -/
example : Ordered crudeLibm (-1) [F64.ofRat (2)] (F64.ofRat (-1/3)) (F64.ofRat (2/3)) ∧
    eval (F64.ops crudeLibm) (-1) [F64.ofRat (2)] (F64.ofRat (-1/3)) ≠ eval (F64.ops crudeLibm) (-1) [F64.ofRat (2)]
        (F64.ofRat (2/3)) := by
  refine ⟨C103_type1_inverse _ crude_mono _ _ _ (finPos_of (by decide +kernel)) (by decide +kernel),
      by decide +kernel⟩

/-- Type -2 across zero. -/
example : Ordered crudeLibm (-2) [F64.ofRat (2), F64.ofRat (3), F64.ofRat (-1)] (F64.ofRat (-1/3)) (F64.ofRat (2/3)) ∧
    eval (F64.ops crudeLibm) (-2) [F64.ofRat (2), F64.ofRat (3), F64.ofRat (-1)] (F64.ofRat (-1/3))
        ≠ eval (F64.ops crudeLibm) (-2) [F64.ofRat (2), F64.ofRat (3), F64.ofRat (-1)] (F64.ofRat (2/3)) := by
  refine ⟨C103_type2_inverse _ crude_mono _ _ _ _ _ (finPos_of (by decide +kernel)) (finPos_of (by decide +kernel))
      (finite_of_val (by decide +kernel)) (by decide +kernel), by decide +kernel⟩

/-- Type -3 across its joint. -/
example : Ordered crudeLibm (-3) [F64.ofRat (2), F64.ofRat (3), F64.ofRat (1), F64.ofRat (1/2)] (F64.ofRat (1/3))
    (F64.ofRat (2/3)) ∧
    eval (F64.ops crudeLibm) (-3) [F64.ofRat (2), F64.ofRat (3), F64.ofRat (1), F64.ofRat (1/2)] (F64.ofRat (1/3))
        ≠ eval (F64.ops crudeLibm) (-3) [F64.ofRat (2), F64.ofRat (3), F64.ofRat (1), F64.ofRat (1/2)]
        (F64.ofRat (2/3)) := by
  refine ⟨C103_type3_inverse _ crude_mono _ _ _ _ _ _ (finPos_of (by decide +kernel)) (finPos_of (by decide +kernel))
      (finite_of_val (by decide +kernel)) (finite_of_val (by decide +kernel)) (finite_of_val (by decide +kernel))
      (finite_of_val (by decide +kernel)) (by decide +kernel) (by decide +kernel) (by decide +kernel),
      by decide +kernel⟩

/-- Type -6 across its joint. -/
example : Ordered crudeLibm (-6) [F64.ofRat (2), F64.ofRat (3), F64.ofRat (-1), F64.ofRat (1/2)] (F64.ofRat (1/3))
    (F64.ofRat (2/3)) ∧
    eval (F64.ops crudeLibm) (-6) [F64.ofRat (2), F64.ofRat (3), F64.ofRat (-1), F64.ofRat (1/2)] (F64.ofRat (1/3))
        ≠ eval (F64.ops crudeLibm) (-6) [F64.ofRat (2), F64.ofRat (3), F64.ofRat (-1), F64.ofRat (1/2)]
        (F64.ofRat (2/3)) := by
  refine ⟨C103_type6_inverse _ crude_mono _ _ _ _ _ _ (finPos_of (by decide +kernel)) (finPos_of (by decide +kernel))
      (finite_of_val (by decide +kernel)) (by decide +kernel) (finite_of_val (by decide +kernel)) (by decide +kernel),
      by decide +kernel⟩

/-- Type -7 across the point where its exponent changes sign. -/
example : Ordered crudeLibm (-7) [F64.ofRat (2), F64.ofRat (3), F64.ofRat (1), F64.ofRat (0), F64.ofRat (1/2)]
    (F64.ofRat (1/3)) (F64.ofRat (2/3)) ∧
    eval (F64.ops crudeLibm) (-7) [F64.ofRat (2), F64.ofRat (3), F64.ofRat (1), F64.ofRat (0), F64.ofRat (1/2)]
        (F64.ofRat (1/3)) ≠ eval (F64.ops crudeLibm) (-7) [F64.ofRat (2), F64.ofRat (3), F64.ofRat (1), F64.ofRat (0),
        F64.ofRat (1/2)] (F64.ofRat (2/3)) := by
  refine ⟨C103_type7_inverse _ crude_mono _ _ _ _ _ _ _ (finPos_of (by decide +kernel))
      (finPos_of (by decide +kernel)) (finPos_of (by decide +kernel)) (finite_of_val (by decide +kernel))
      (finite_of_val (by decide +kernel)) (by decide +kernel) (by decide +kernel), by decide +kernel⟩

/-- Type -8. -/
example : Ordered crudeLibm (-8) [F64.ofRat (2), F64.ofRat (3), F64.ofRat (1), F64.ofRat (0), F64.ofRat (1/4)]
    (F64.ofRat (1/3)) (F64.ofRat (2/3)) ∧
    eval (F64.ops crudeLibm) (-8) [F64.ofRat (2), F64.ofRat (3), F64.ofRat (1), F64.ofRat (0), F64.ofRat (1/4)]
        (F64.ofRat (1/3)) ≠ eval (F64.ops crudeLibm) (-8) [F64.ofRat (2), F64.ofRat (3), F64.ofRat (1), F64.ofRat (0),
        F64.ofRat (1/4)] (F64.ofRat (2/3)) := by
  refine ⟨C103_type8_inverse _ crude_mono _ _ _ _ _ _ _ (finPos_of (by decide +kernel))
      (finPos_of (by decide +kernel)) (finPos_of (by decide +kernel)) (finite_of_val (by decide +kernel))
      (finite_of_val (by decide +kernel)) (by decide +kernel) (by decide +kernel), by decide +kernel⟩

/-- Type 5 across its joint at 1/2. -/
example : Ordered crudeLibm 5 [F64.ofRat (1), F64.ofRat (2), F64.ofRat (-1/2), F64.ofRat (1/4), F64.ofRat (1/2),
    F64.ofRat (1), F64.ofRat (1/2)] (F64.ofRat (1/3)) (F64.ofRat (2/3)) := by
  refine C103_type5 _ crude_mono _ _ _ _ _ _ _ _ _ (finNonneg_of (by decide +kernel))
      (finNonneg_of (by decide +kernel)) (finite_of_val (by decide +kernel)) (finNonneg_of (by decide +kernel))
      (finite_of_val (by decide +kernel))
    (finite_of_val (by decide +kernel)) (finite_of_val (by decide +kernel)) (finite_of_val (by decide +kernel))
        (finite_of_val (by decide +kernel)) ?_ (by decide +kernel)
  intro v hv
  have e : eval (F64.ops crudeLibm) 5 [F64.ofRat (1), F64.ofRat (2), F64.ofRat (-1/2), F64.ofRat (1/4),
      F64.ofRat (1/2), F64.ofRat (1), F64.ofRat (1/2)] (F64.ofRat (1/2)) = some (F64.ofRat (3/2)) := by decide +kernel
  rw [e] at hv
  cases hv
  decide +kernel

/-- Type -4 across its joint at 1/2. -/
example : Ordered crudeLibm (-4) [F64.ofRat (1), F64.ofRat (2), F64.ofRat (-1/2), F64.ofRat (1), F64.ofRat (1/2)]
    (F64.ofRat (1/3)) (F64.ofRat (2/3)) := by
  refine C103_type4_inverse _ crude_mono _ _ _ _ _ _ _ (finPos_of (by decide +kernel)) (finPos_of (by decide +kernel))
      (finite_of_val (by decide +kernel)) (finPos_of (by decide +kernel)) (by decide +kernel)
    ⟨by decide +kernel, by decide +kernel, by decide +kernel⟩ ?_ (by decide +kernel)
  intro j v hj hv
  have e : eval (F64.ops crudeLibm) 4 [F64.ofRat (1), F64.ofRat (2), F64.ofRat (-1/2), F64.ofRat (1), F64.ofRat (1/2)]
      (F64.ofRat (1/2)) = some (F64.ofRat (1/2)) := by decide +kernel
  rw [e] at hj
  cases hj
  have e' : eval (F64.ops crudeLibm) (-4) [F64.ofRat (1), F64.ofRat (2), F64.ofRat (-1/2), F64.ofRat (1),
      F64.ofRat (1/2)] (F64.ofRat (1/2)) = some (F64.ofRat (1/2)) := by decide +kernel
  rw [e'] at hv
  cases hv
  decide +kernel

/-- Type -5 across its joint. -/
example : Ordered crudeLibm (-5) [F64.ofRat (1), F64.ofRat (2), F64.ofRat (-1/2), F64.ofRat (1/4), F64.ofRat (1/2),
    F64.ofRat (1/8), F64.ofRat (1/2)] (F64.ofRat (1/3)) (F64.ofRat (5/3)) := by
  refine C103_type5_inverse _ crude_mono _ _ _ _ _ _ _ _ _ (finPos_of (by decide +kernel))
      (finPos_of (by decide +kernel)) (finite_of_val (by decide +kernel)) (finPos_of (by decide +kernel))
      (finite_of_val (by decide +kernel)) (finite_of_val (by decide +kernel)) (finite_of_val (by decide +kernel))
    ⟨by decide +kernel, by decide +kernel, by decide +kernel⟩ (by decide +kernel) ?_ (by decide +kernel)
  intro v hv
  have e := hv.symm.trans (show eval (F64.ops crudeLibm) (-5) [F64.ofRat (1), F64.ofRat (2), F64.ofRat (-1/2),
      F64.ofRat (1/4), F64.ofRat (1/2), F64.ofRat (1/8), F64.ofRat (1/2)]
    (F64.add (F64.mul (F64.ofRat (1/4)) (F64.ofRat (1/2)))
        (F64.ofRat (1/2))) = some (F64.ofRat (1/2)) by decide +kernel)
  cases e
  decide +kernel

/-- Type 109, on a platform whose `exp` has three values. -/
example : Ordered crudeLibm 109 [F64.ofRat (1 / 2)] (F64.ofRat (1 / 3)) (F64.ofRat (2 / 3)) := by
  refine C103_type109 _ crude_mono _ _ _ (finPos_of (by decide +kernel)) ?_ (by decide +kernel)
  intro v hv
  have e : (eval (F64.ops crudeLibm) 109 [F64.ofRat (1 / 2)] (F64.ofRat 1)).bind F64.val ≠ none := by decide +kernel
  rw [hv] at e
  exact finite_of_val (Option.isSome_iff_ne_none.mpr e)

end Lcms.Props
