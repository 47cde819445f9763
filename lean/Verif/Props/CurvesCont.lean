import Mathlib.Analysis.SpecialFunctions.Pow.Continuity
import Verif.Props.CurveValues

/-! # Properties C99 and C100: where the curves are continuous, and which keep the unit interval -/

namespace Lcms.Props

open Lcms Curves Spec

/-- The curve has a value everywhere and no jump. -/
def Unbroken (type : Int32) (ps : List ℝ) : Prop := ∃ f : ℝ → ℝ, Continuous f ∧ ∀ x, Maps type ps x (f x)

theorem unbroken_iff {type : Int32} {ps : List ℝ} {f : ℝ → ℝ} (h : ∀ x, Maps type ps x (f x)) :
    Unbroken type ps ↔ Continuous f := by
  constructor
  · rintro ⟨f', hc, hf⟩
    have : f = f' := funext fun x => (h x).unique (hf x)
    rwa [this]
  · exact fun hc => ⟨f, hc, h⟩

/-- Two continuous pieces make a continuous function if and only if they meet. -/
theorem pieces_meet {u v : ℝ → ℝ} (hu : Continuous u) (hv : Continuous v) (d : ℝ) :
    Continuous (fun x => if d ≤ x then v x else u x) ↔ u d = v d := by
  constructor
  · intro h
    have h1 : Filter.Tendsto (fun x => if d ≤ x then v x else u x) (nhdsWithin d (Set.Iio d)) (nhds (v d)) := by
      have := (h.tendsto d).mono_left (nhdsWithin_le_nhds (s := Set.Iio d))
      simpa using this
    have h2 : Filter.Tendsto u (nhdsWithin d (Set.Iio d)) (nhds (u d)) :=
      (hu.tendsto d).mono_left nhdsWithin_le_nhds
    refine tendsto_nhds_unique (h2.congr' ?_) h1
    filter_upwards [self_mem_nhdsWithin] with x hx
    rw [if_neg (not_le.mpr hx)]
  · intro h
    exact Continuous.if_le hv hu continuous_const continuous_id (fun x hx => by subst hx; exact h.symm)

theorem cont_power {g : ℝ} (hg : 0 < g) (a b : ℝ) : Continuous fun x : ℝ => (max 0 (a * x + b)) ^ g :=
  (continuous_const.max ((continuous_const.mul continuous_id).add continuous_const)).rpow_const
    fun _ => .inr hg.le

/-- **C99** For a positive exponent, types 1, 2 and 6 have no jumps for any parameters, type 8 none for a positive
base and type 109 none for `k ≠ 0`. -/
theorem C99_unbroken {g : ℝ} (hg : 0 < g) (a b c d e : ℝ) :
    Unbroken 1 [g] ∧ Unbroken 2 [g, a, b] ∧ Unbroken 6 [g, a, b, c] ∧ (0 < b → Unbroken 8 [a, b, c, d, e]) ∧
      (a ≠ 0 → Unbroken 109 [a]) := by
  refine ⟨?_, ?_, ?_, ?_, ?_⟩
  · refine (unbroken_iff fun x => (C97_values 1 (by decide) [g] rfl x _).mpr ⟨.inr hg.le, rfl⟩).mpr ?_
    show Continuous fun x : ℝ => if 0 ≤ x then x ^ g else if |g| < 10001 / 10000 then x else 0
    refine (pieces_meet ?_ (Real.continuous_rpow_const hg.le) 0).mpr ?_
    · by_cases h : |g| < 10001 / 10000
      · simp only [if_pos h]; exact continuous_id
      · simp only [if_neg h]; exact continuous_const
    · rw [Real.zero_rpow hg.ne']; split <;> rfl
  · refine (unbroken_iff fun x => (C97_values 2 (by decide) [g, a, b] rfl x _).mpr ⟨trivial, rfl⟩).mpr ?_
    show Continuous fun x : ℝ => if 1 / 10000 ≤ a ∧ 0 < a * x + b then (a * x + b) ^ g else 0
    by_cases ha : 1 / 10000 ≤ a
    · refine (cont_power hg a b).congr fun x => ?_
      by_cases he : 0 < a * x + b
      · rw [if_pos ⟨ha, he⟩, max_eq_right he.le]
      · rw [if_neg (fun h => he h.2), max_eq_left (not_lt.mp he), Real.zero_rpow hg.ne']
    · simp only [ha, false_and, if_false]
      exact continuous_const
  · exact (unbroken_iff (maps6 hg a b c)).mpr ((cont_power hg a b).add continuous_const)
  · intro hb
    refine (unbroken_iff fun x => (C97_values 8 (by decide) [a, b, c, d, e] rfl x _).mpr ⟨.inl hb, rfl⟩).mpr ?_
    show Continuous fun x : ℝ => a * b ^ (c * x + d) + e
    refine (continuous_const.mul (Continuous.rpow continuous_const
      ((continuous_const.mul continuous_id).add continuous_const) fun x => .inl hb.ne')).add continuous_const
  · intro ha
    refine (unbroken_iff fun x => (C97_values 109 (by decide) [a] rfl x _).mpr ⟨ha, rfl⟩).mpr ?_
    show Continuous fun x : ℝ => (1 + tanhHalf (a * (2 * x - 1)) / tanhHalf a) / 2
    have h : Continuous tanhHalf := by
      unfold tanhHalf
      refine Continuous.div (continuous_const.sub (Real.continuous_exp.comp continuous_neg))
        (continuous_const.add (Real.continuous_exp.comp continuous_neg)) fun x => ?_
      have := Real.exp_pos (-x)
      positivity
    exact ((continuous_const.add ((h.comp (continuous_const.mul ((continuous_const.mul continuous_id).sub
      continuous_const))).div_const _)).div_const _)

/-- **C99** Type 4 is without a jump exactly if the straight line meets the power at `d`. -/
theorem C99_type4 {g : ℝ} (hg : 0 < g) (a b c d : ℝ) :
    Unbroken 4 [g, a, b, c, d] ↔ c * d = (max 0 (a * d + b)) ^ g := by
  have hu : Continuous fun x : ℝ => x * c := continuous_id.mul continuous_const
  rw [unbroken_iff (maps4 hg a b c d), pieces_meet hu (cont_power hg a b), mul_comm]

/-- **C99** Type 5 likewise. -/
theorem C99_type5 {g : ℝ} (hg : 0 < g) (a b c d e f : ℝ) :
    Unbroken 5 [g, a, b, c, d, e, f] ↔ c * d + f = (max 0 (a * d + b)) ^ g + e := by
  have hu : Continuous fun x : ℝ => x * c + f := (continuous_id.mul continuous_const).add continuous_const
  have hv : Continuous fun x : ℝ => (max 0 (a * x + b)) ^ g + e := (cont_power hg a b).add continuous_const
  rw [unbroken_iff (maps5 hg a b c d e f), pieces_meet hu hv, mul_comm]

/-- **C99** Type 3 with a positive slope is without a jump only if it is type 2 with its joint in the
non-negative range. -/
theorem C99_type3 {g a : ℝ} (hg : 0 < g) (ha : 1 / 10000 ≤ a) (b c : ℝ) :
    Unbroken 3 [g, a, b, c] ↔ b ≤ 0 ∧ c = 0 := by
  have ha0 : 0 < a := by linarith
  rw [unbroken_iff fun x => (C97_values 3 (by decide) [g, a, b, c] rfl x _).mpr ⟨trivial, rfl⟩]
  have hval : ∀ x, Value 3 [g, a, b, c] x =
      if x < 0 ∨ a * x + b < 0 then c else if a * x + b = 0 then 0 else (a * x + b) ^ g + c := by
    intro x
    show (if 1 / 10000 ≤ a then _ else _) = _
    rw [if_pos ha]
  constructor
  · intro h
    -- just before `d` the value is `c`
    have left : ∀ d, (∀ x < d, x < 0 ∨ a * x + b < 0) → Value 3 [g, a, b, c] d = c := by
      intro d hd
      have h1 : Filter.Tendsto (Value 3 [g, a, b, c]) (nhdsWithin d (Set.Iio d)) (nhds (Value 3 [g, a, b, c] d)) :=
        (h.tendsto d).mono_left nhdsWithin_le_nhds
      refine tendsto_nhds_unique h1 ((tendsto_const_nhds (x := c)).congr' ?_)
      filter_upwards [self_mem_nhdsWithin] with x hx
      rw [hval, if_pos (hd x hx)]
    have hb : b ≤ 0 := by
      by_contra hb
      have hb := not_le.mp hb
      have e := left 0 fun x hx => .inl hx
      rw [hval, mul_zero, zero_add, if_neg (by push Not; exact ⟨le_rfl, hb.le⟩), if_neg hb.ne'] at e
      have := Real.rpow_pos_of_pos hb g
      linarith
    refine ⟨hb, ?_⟩
    have hj : a * (-b / a) + b = 0 := by field_simp; ring
    have e := left (-b / a) fun x hx => .inr (by rw [lt_div_iff₀ ha0] at hx; linarith)
    rw [hval, if_neg (by push Not; exact ⟨div_nonneg (by linarith) ha0.le, hj.ge⟩), if_pos hj] at e
    exact e.symm
  · rintro ⟨hb, rfl⟩
    refine (cont_power hg a b).congr fun x => ?_
    refine Eq.trans ?_ (hval x).symm
    by_cases he : 0 < a * x + b
    · have hx : 0 < x := by
        by_contra hx
        have := mul_nonpos_of_nonneg_of_nonpos ha0.le (not_lt.mp hx)
        linarith
      rw [if_neg (by push Not; exact ⟨hx.le, he.le⟩), if_neg he.ne', max_eq_right he.le, add_zero]
    · rw [max_eq_left (not_lt.mp he), Real.zero_rpow hg.ne']
      split
      · rfl
      · rename_i h
        push Not at h
        rw [if_pos (le_antisymm (not_lt.mp he) h.2)]

/-- The usual sRGB parameters give a curve with a (tiny) jump at 0.04045. -/
example : ¬ Unbroken 4 [12 / 5, 1 / 1.055, 0.055 / 1.055, 1 / 12.92, 0.04045] := by
  rw [C99_type4 (by norm_num)]
  intro h
  have h5 := congrArg (fun y : ℝ => y ^ (5 : ℕ)) h
  beta_reduce at h5
  have e : (max 0 ((1 : ℝ) / 1.055 * 0.04045 + 0.055 / 1.055)) = 0.09545 / 1.055 := by
    rw [max_eq_right (by norm_num)]; norm_num
  rw [e, ← Real.rpow_natCast (_ ^ (12 / 5 : ℝ)), ← Real.rpow_mul (by norm_num)] at h5
  rw [show (12 / 5 : ℝ) * ((5 : ℕ) : ℝ) = ((12 : ℕ) : ℝ) by norm_num, Real.rpow_natCast] at h5
  norm_num at h5

/-- A curve of type 4 without a jump. -/
example : Unbroken 4 [2, 1, 0, 1 / 2, 1 / 2] := by
  rw [C99_type4 (by norm_num), show (2 : ℝ) = ((2 : ℕ) : ℝ) by norm_num, Real.rpow_natCast]
  norm_num

/-! ### C100 -/

/-- The curve takes inputs between 0 and 1 to values between 0 and 1. -/
def KeepsUnit (type : Int32) (ps : List ℝ) : Prop := ∀ x, 0 ≤ x → x ≤ 1 → ∃ y, Maps type ps x y ∧ 0 ≤ y ∧ y ≤ 1

theorem unit_pow {x g : ℝ} (h0 : 0 ≤ x) (h1 : x ≤ 1) (hg : 0 ≤ g) : 0 ≤ x ^ g ∧ x ^ g ≤ 1 :=
  ⟨Real.rpow_nonneg h0 g, Real.rpow_le_one h0 h1 hg⟩

theorem max_line {a b x : ℝ} (ha : 0 ≤ a) (hx : x ≤ 1) : max 0 (a * x + b) ≤ max 0 (a + b) := by
  have : a * x ≤ a := by nlinarith
  exact max_le_max le_rfl (by linarith)

/-- **C100** Exponents and slopes of the usual signs, and values at the ends of the pieces between 0 and 1, keep
the whole curve between 0 and 1. -/
theorem C100_keeps {g : ℝ} (hg : 1 / 10000 ≤ g) {a b c d e f : ℝ} (ha : 1 / 10000 ≤ a) (hc : 0 ≤ c) :
    KeepsUnit 1 [g] ∧ KeepsUnit (-1) [g] ∧ KeepsUnit 108 [g] ∧ KeepsUnit (-108) [g] ∧
    (a + b ≤ 1 → KeepsUnit 2 [g, a, b] ∧ (c * d ≤ 1 → KeepsUnit 4 [g, a, b, c, d])) ∧
    (0 ≤ e → 0 ≤ f → (max 0 (a + b)) ^ g + e ≤ 1 → c * d + f ≤ 1 → KeepsUnit 5 [g, a, b, c, d, e, f]) ∧
    ((max 0 (a + b)) ^ g + c ≤ 1 → KeepsUnit 6 [g, a, b, c]) ∧
    ∀ k, k ≠ 0 → KeepsUnit 109 [k] := by
  have hg0 : 0 < g := by linarith
  have hig : 0 ≤ 1 / g := by positivity
  have ha0 : 0 ≤ a := by linarith
  refine ⟨?_, ?_, ?_, ?_, ?_, ?_, ?_, ?_⟩
  · exact fun x h0 h1 => ⟨_, maps1 hg0.le h0, unit_pow h0 h1 hg0.le⟩
  · exact fun x h0 h1 => ⟨_, maps_1 hg h0, unit_pow h0 h1 hig⟩
  · intro x h0 h1
    obtain ⟨p0, p1⟩ := unit_pow (x := 1 - x) (by linarith) (by linarith) hig
    have hp : ∀ z : ℝ, 0 ≤ z → HasPow z (1 / g) := fun z hz =>
      hz.lt_or_eq.elim .inl fun h => .inr (.inl ⟨h.symm, hig⟩)
    have ht : ¬ Tiny g := fun h => by linarith [(tiny_bounds h).2]
    refine ⟨_, (C97_values 108 (by decide) [g] rfl x _).mpr
      ⟨.inr ⟨hp _ (by linarith), hp _ (by linarith)⟩, rfl⟩, ?_⟩
    show 0 ≤ (if Tiny g then 0 else (1 - (1 - x) ^ (1 / g)) ^ (1 / g)) ∧ (if Tiny g then 0 else _) ≤ (1 : ℝ)
    rw [if_neg ht]
    exact unit_pow (by linarith) (by linarith) hig
  · intro x h0 h1
    obtain ⟨p0, p1⟩ := unit_pow h0 h1 hg0.le
    have hp : ∀ z : ℝ, 0 ≤ z → HasPow z g := fun z hz =>
      hz.lt_or_eq.elim .inl fun h => .inr (.inl ⟨h.symm, hg0.le⟩)
    refine ⟨_, (C97_values (-108) (by decide) [g] rfl x _).mpr ⟨⟨hp _ h0, hp _ (by linarith)⟩, rfl⟩, ?_⟩
    show 0 ≤ 1 - (1 - x ^ g) ^ g ∧ 1 - (1 - x ^ g) ^ g ≤ 1
    obtain ⟨q0, q1⟩ := unit_pow (x := 1 - x ^ g) (by linarith) (by linarith) hg0.le
    constructor <;> linarith
  · intro hab
    have key : ∀ x, x ≤ 1 → 0 ≤ (max 0 (a * x + b)) ^ g ∧ (max 0 (a * x + b)) ^ g ≤ 1 := fun x h1 =>
      unit_pow (le_max_left _ _) ((max_line ha0 h1).trans (max_le zero_le_one hab)) hg0.le
    refine ⟨fun x _ h1 => ⟨_, maps2 hg0 ha x, key x h1⟩, fun hcd x h0 h1 => ⟨_, maps4 hg0 a b c d x, ?_⟩⟩
    split
    · exact key x h1
    · rename_i h
      have : x * c ≤ d * c := mul_le_mul_of_nonneg_right (not_le.mp h).le hc
      exact ⟨mul_nonneg h0 hc, by linarith⟩
  · intro he hf hab hcd x h0 h1
    refine ⟨_, maps5 hg0 a b c d e f x, ?_⟩
    split
    · have := Real.rpow_nonneg (le_max_left 0 (a * x + b)) g
      have := Real.rpow_le_rpow (le_max_left 0 (a * x + b)) (max_line (b := b) ha0 h1) hg0.le
      constructor <;> linarith
    · rename_i h
      have : x * c ≤ d * c := mul_le_mul_of_nonneg_right (not_le.mp h).le hc
      have := mul_nonneg h0 hc
      constructor <;> linarith
  · intro hab x h0 h1
    refine ⟨_, maps6 hg0 a b c x, ?_⟩
    have := Real.rpow_nonneg (le_max_left 0 (a * x + b)) g
    have := Real.rpow_le_rpow (le_max_left 0 (a * x + b)) (max_line (b := b) ha0 h1) hg0.le
    constructor <;> linarith
  · intro k hk x h0 h1
    obtain ⟨-, -, -, h4, -, h6⟩ := C71_sigmoid hk
    obtain ⟨y, hy⟩ := h4 x
    exact ⟨y, hy, h6 x y h0 h1 hy⟩

/-- The usual sRGB parameters. -/
example : KeepsUnit 4 [12 / 5, 1 / 1.055, 0.055 / 1.055, 1 / 12.92, 0.04045] :=
  ((C100_keeps (g := 12 / 5) (a := 1 / 1.055) (b := 0.055 / 1.055) (c := 1 / 12.92) (d := 0.04045) (e := 0) (f := 0)
    (by norm_num) (by norm_num) (by norm_num)).2.2.2.2.1 (by norm_num)).2 (by norm_num)

/-- The bound at the end of the first piece is needed. -/
example : ¬ KeepsUnit 4 [1, 1, 0, 3, 1] := by
  intro h
  obtain ⟨y, hy, -, h1⟩ := h (1 / 2) (by norm_num) (by norm_num)
  have e := hy.unique (maps4 one_pos 1 0 3 1 (1 / 2))
  rw [if_neg (by norm_num)] at e
  linarith

/-- For instance type 2, even where its slope `a` is negative. -/
example : Unbroken 2 [12 / 5, -1, 1 / 2] ∧ Unbroken 109 [-3] :=
  ⟨(C99_unbroken (g := 12 / 5) (by norm_num) (-1) (1 / 2) 0 0 0).2.1,
    (C99_unbroken (g := 1) one_pos (-3) 0 0 0 0).2.2.2.2 (by norm_num)⟩

end Lcms.Props
