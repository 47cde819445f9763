import Verif.Props.CurvesRound

/-! # Property C92 continued: where types 7, 8, 108, 109 and their inverses turn finite numbers into NaN -/

namespace Lcms.Props

open Lcms.Curves

/-- What C99 (F.10.3.8) says about `log10`: a number from zero on, NaN of NaN. -/
structure LogNum (l : Libm) : Prop where
  nonneg : ∀ x, F64.le (F64.ofRat 0) x = true → l.log10 x ≠ .nan
  nan : l.log10 .nan = .nan

/-- Infinite of either sign. -/
def Infinite (x : F64) : Prop := ∃ s, x = .inf s

theorem fin_isZero {x : F64} (h : Finite x) : x.isZero = true ↔ F64.val x = some 0 := by
  obtain ⟨s, m, k, rfl⟩ := h
  have h2 : ((2 : ℚ) ^ F64.bias) ≠ 0 := by positivity
  cases s <;> simp [F64.isZero, F64.val, F64.magVal, h2]

/-- A finite factor gives NaN only as zero times infinity. -/
theorem mul_nan {x y : F64} (hx : Finite x) (hy : y ≠ .nan) :
    F64.mul x y = .nan ↔ F64.val x = some 0 ∧ Infinite y := by
  rw [← fin_isZero hx]
  cases y with
  | nan => exact absurd rfl hy
  | inf s =>
    obtain ⟨s', m', k', rfl⟩ := hx
    have e : F64.mul (F64.fin s' m' k') (F64.inf s) =
        if F64.isZero (F64.fin s' m' k') = true then F64.nan else F64.inf (s' != s) := rfl
    rw [e]
    split
    · rename_i h; exact ⟨fun _ => ⟨h, s, rfl⟩, fun _ => rfl⟩
    · rename_i h; exact ⟨fun h' => (by cases h'), fun h' => absurd h'.1 h⟩
  | fin s m k =>
    refine ⟨fun h => absurd h (mul_nn hx ⟨s, m, k, rfl⟩), ?_⟩
    rintro ⟨-, s', h⟩
    cases h

theorem add_nan_iff {x y : F64} (hy : Finite y) : F64.add x y = .nan ↔ x = .nan := by
  constructor
  · intro h
    by_contra hx
    exact add_nn hx hy h
  · rintro rfl
    rfl

theorem some_nan {x : F64} : some x = some F64.nan ↔ x = .nan := Option.some_inj

/-- **C92**, type 8 with a non-negative base: NaN exactly where zero is multiplied by an infinite power. -/
theorem C92_type8 (l : Libm) (hl : PowOnNonneg l) {a b c d e r : F64} (ha : Finite a) (hb : Finite b) (hc : Finite c)
    (hd : Finite d) (he : Finite e) (hr : Finite r) (hb0 : F64.le (F64.ofRat 0) b = true) :
    eval (F64.ops l) 8 [a, b, c, d, e] r = some .nan ↔
      F64.val a = some 0 ∧ Infinite (l.powf b (F64.add (F64.mul c r) d)) := by
  have hx : F64.add (F64.mul c r) d ≠ .nan := add_nn (mul_nn hc hr) hd
  have hp := hl b _ (fin_nn hb) hx hb0
  show some (F64.add (F64.mul a (l.powf b (F64.add (F64.mul c r) d))) e) = some F64.nan ↔ _
  rw [some_nan, add_nan_iff he, mul_nan ha hp]

/-- **C92**, type 7 from zero on: NaN exactly where zero is multiplied by an infinite power or an infinite
logarithm. -/
theorem C92_type7 (l : Libm) (hl : PowOnNonneg l) (hlog : LogNum l) {g a b c d r : F64} (hg : Finite g) (ha : Finite a)
    (hb : Finite b) (hc : Finite c) (hd : Finite d) (hr : FinNonneg r) :
    let e := F64.add (F64.mul b (l.powf r g)) c
    eval (F64.ops l) 7 [g, a, b, c, d] r = some .nan ↔
      (F64.val b = some 0 ∧ Infinite (l.powf r g)) ∨
      (F64.val a = some 0 ∧ F64.lt (F64.ofRat 0) e = true ∧ Infinite (l.log10 e)) := by
  intro e
  have hp := hl r g (fin_nn hr.1) (fin_nn hg) hr.2
  have he : e = .nan ↔ F64.val b = some 0 ∧ Infinite (l.powf r g) := by rw [add_nan_iff hc, mul_nan hb hp]
  rw [← he]
  show some (if F64.le e (F64.ofRat 0) = true then d else F64.add (F64.mul a (l.log10 e)) d) = some F64.nan ↔ _
  rw [some_nan]
  by_cases hn : e = .nan
  · rw [hn, hlog.nan]
    obtain ⟨s, m, k, rfl⟩ := ha
    refine ⟨fun _ => .inl rfl, fun _ => rfl⟩
  · by_cases h0 : F64.le e (F64.ofRat 0) = true
    · rw [if_pos h0]
      refine ⟨fun h => absurd h (fin_nn hd), ?_⟩
      rintro (h | ⟨-, h, -⟩)
      · exact absurd h hn
      · exact (F64.lt_irrefl' (F64.lt_of_lt_of_le h h0)).elim
    · rw [if_neg h0, add_nan_iff hd]
      have hlt := F64.lt_of_not_le hn zero_nn h0
      rw [mul_nan ha (hlog.nonneg e (F64.le_of_lt hlt))]
      refine ⟨fun h => .inr ⟨h.1, hlt, h.2⟩, ?_⟩
      rintro (h | h)
      · exact absurd h hn
      · exact ⟨h.1, h.2.2⟩

theorem tol_pos : F64.lt (F64.ofRat 0) (F64.ofRat tolerance) = true := by decide +kernel

/-- A finite number that is not below the tolerance is positive. -/
theorem pos_of_not_tiny {x : F64} (hx : Finite x) (h : ¬ F64.lt x (F64.ofRat tolerance) = true) : FinPos x := by
  refine ⟨hx, F64.lt_of_lt_of_le tol_pos (F64.le_of_not_lt (fin_nn hx) ?_ h)⟩
  exact round_nn _

theorem pos_not_zero {x : F64} (h : FinPos x) : x.isZero = false := by
  rw [Bool.eq_false_iff]
  intro h0
  rw [fin_isZero h.1] at h0
  have := h.2
  rw [F64.lt_val val_zero h0] at this
  exact lt_irrefl _ this

theorem div_nonneg {x y : F64} (hx : F64.le (F64.ofRat 0) x = true) (hy : FinPos y) :
    F64.le (F64.ofRat 0) (F64.div x y) = true := by
  obtain ⟨q, e, hq⟩ := hy.val
  have h := F64.div_mono hx e hq
  refine F64.le_trans ?_ h
  have hz : F64.IsRd (F64.div (F64.ofRat 0) y) 0 := by
    have := F64.div_rd val_zero e hq.ne'
    rwa [zero_div] at this
  exact F64.le_of_rd zero_rd hz (le_refl _)

/-- **C92**, type −7: a number wherever the base of the last power, `10^((r-d)/a) - c`, is not negative. -/
theorem C92_type7_inverse (l : Libm) (hl : PowOnNonneg l) {g a b c d r : F64} (hg : Finite g) (hb : Finite b)
    (h : F64.le (F64.ofRat 0) (F64.sub (l.powf (F64.ofRat 10) (F64.div (F64.sub r d) a)) c) = true) :
    eval (F64.ops l) (-7) [g, a, b, c, d] r ≠ some .nan := by
  show some (g7 (F64.ops l) g a b c d r) ≠ _
  rw [ne_eq, some_nan]
  unfold g7
  split
  · exact zero_nn
  · rename_i ht
    rw [Bool.or_eq_true, Bool.or_eq_true, not_or, not_or] at ht
    have hb' := pos_of_not_tiny hb ht.2
    exact hl _ _ (div_nn (F64.le_nn h).2 hb (pos_not_zero hb')) (recip_nn hg) (div_nonneg h hb')

/-- **C92**, type −8 with a positive factor and a base whose logarithm is a number other than zero: never NaN. -/
theorem C92_type8_inverse (l : Libm) (hlog : LogNum l) {a b c d e r : F64} (ha : FinPos a)
    (hlb : Finite (l.log10 b)) (hlb0 : F64.val (l.log10 b) ≠ some 0) (hc : Finite c) (hd : Finite d) (he : Finite e)
    (hr : Finite r) : eval (F64.ops l) (-8) [a, b, c, d, e] r ≠ some .nan := by
  show some (g8 (F64.ops l) a b c d e r) ≠ _
  rw [ne_eq, some_nan]
  unfold g8
  simp only
  have hdn : F64.sub r e ≠ .nan := sub_nn (fin_nn hr) he
  split
  · exact zero_nn
  · rename_i h0
    split
    · exact zero_nn
    · rename_i ht
      rw [Bool.or_eq_true, not_or] at ht
      have hq := div_nonneg (F64.le_of_not_lt hdn zero_nn h0) ha
      have hz : (l.log10 b).isZero = false := by
        rw [Bool.eq_false_iff]
        exact fun h => hlb0 ((fin_isZero hlb).mp h)
      exact div_nn (sub_nn (div_nn (hlog.nonneg _ hq) hlb hz) hd) hc (not_tiny_zero ht.2)

theorem one_sub_unit {x : F64} (h0 : F64.le (F64.ofRat 0) x = true) (h1 : F64.le x (F64.ofRat 1) = true) :
    F64.le (F64.ofRat 0) (F64.sub (F64.ofRat 1) x) = true ∧ F64.le (F64.sub (F64.ofRat 1) x) (F64.ofRat 1) = true := by
  have e1 : F64.sub (F64.ofRat 1) (F64.ofRat 1) = F64.ofRat 0 := by decide +kernel
  have e0 : F64.sub (F64.ofRat 1) (F64.ofRat 0) = F64.ofRat 1 := by decide +kernel
  have a1 := F64.sub_anti h1 val_one
  have a0 := F64.sub_anti h0 val_one
  rw [e1] at a1
  rw [e0] at a0
  exact ⟨a1, a0⟩

/-- **C92**, types 108 and −108 with a non-negative parameter: a number everywhere on the unit interval. -/
theorem C92_type108 (l : Libm) (hl : MonoLibm l) {g r : F64} (hg : FinNonneg g)
    (h0 : F64.le (F64.ofRat 0) r = true) (h1 : F64.le r (F64.ofRat 1) = true) :
    eval (F64.ops l) 108 [g] r ≠ some .nan ∧ eval (F64.ops l) (-108) [g] r ≠ some .nan := by
  have unit : ∀ {x y : F64}, F64.le (F64.ofRat 0) x = true → F64.le x (F64.ofRat 1) = true →
      F64.le (F64.ofRat 0) y = true →
      F64.le (F64.ofRat 0) (l.powf x y) = true ∧ F64.le (l.powf x y) (F64.ofRat 1) = true := by
    intro x y hx0 hx1 hy
    refine ⟨hl.pow_nonneg x y hx0 (F64.le_nn hy).2, ?_⟩
    have := hl.pow_base x (F64.ofRat 1) y hx0 hx1 hy
    rwa [hl.pow_one y hy] at this
  constructor
  · show some (f108 (F64.ops l) g r) ≠ _
    rw [ne_eq, some_nan]
    unfold f108
    split
    · exact zero_nn
    · rename_i ht
      have hz := not_tiny_zero ht
      have hgp : FinPos g := by
        refine ⟨hg.1, ?_⟩
        obtain ⟨q, e, hq⟩ := hg.val
        rw [F64.lt_val val_zero e]
        refine lt_of_le_of_ne hq fun h => ?_
        rw [← h] at e
        rw [(fin_isZero hg.1).mpr e] at hz
        cases hz
      have hrec := recip_nonneg hgp
      obtain ⟨u0, u1⟩ := one_sub_unit h0 h1
      obtain ⟨p0, p1⟩ := unit u0 u1 hrec
      obtain ⟨v0, v1⟩ := one_sub_unit p0 p1
      exact (F64.le_nn (unit v0 v1 hrec).1).2
  · show some (F64.sub (F64.ofRat 1) (l.powf (F64.sub (F64.ofRat 1) (l.powf r g)) g)) ≠ _
    rw [ne_eq, some_nan]
    obtain ⟨p0, p1⟩ := unit h0 h1 hg.2
    obtain ⟨u0, u1⟩ := one_sub_unit p0 p1
    obtain ⟨q0, q1⟩ := unit u0 u1 hg.2
    exact (F64.le_nn (one_sub_unit q0 q1).1).2

/-- The inner sigmoid is a number between -1/2 and 1/2. -/
theorem sigmoidBase_fin (l : Libm) (he : ∀ u, u ≠ .nan → F64.le (F64.ofRat 0) (l.exp u) = true) {k t : F64}
    (hk : Finite k) (ht : Finite t) : Finite (sigmoidBase (F64.ops l) k t) := by
  have hx := he _ (mul_nn (neg_fin hk) ht)
  show Finite (F64.sub (F64.div (F64.ofRat 1) (F64.add (F64.ofRat 1) (l.exp (F64.mul (F64.neg k) t)))) (F64.ofRat (1 / 2)))
  generalize l.exp (F64.mul (F64.neg k) t) = x at *
  have h1 := F64.add_mono hx val_one
  rw [F64.add_comm x] at h1
  have e1 : F64.add (F64.ofRat 0) (F64.ofRat 1) = F64.ofRat 1 := by decide +kernel
  have e2 : F64.div (F64.ofRat 1) (F64.ofRat 1) = F64.ofRat 1 := by decide +kernel
  rw [e1] at h1
  generalize F64.add (F64.ofRat 1) x = y at *
  have h2 : F64.le (F64.div (F64.ofRat 1) y) (F64.ofRat 1) = true := by
    have := F64.div_anti val_one (by norm_num) h1 val_one (by norm_num)
    rwa [e2] at this
  have h3 : F64.le (F64.ofRat 0) (F64.div (F64.ofRat 1) y) = true := by
    have h01 : F64.lt (F64.ofRat 0) (F64.ofRat 1) = true := by decide +kernel
    have hpos := F64.lt_of_lt_of_le h01 h1
    cases y with
    | nan => cases hpos
    | inf s =>
      cases s with
      | true => cases hpos
      | false => decide +kernel
    | fin s m k => exact div_nonneg (F64.le_of_lt h01) ⟨⟨s, m, k, rfl⟩, hpos⟩
  have h4 := F64.sub_mono h3 val_half
  have h5 := F64.sub_mono h2 val_half
  obtain ⟨r, hr, -⟩ := F64.val_between (p := -1 / 2) (q := 1 / 2) (by decide +kernel) (by decide +kernel) h4 h5
  obtain ⟨s, m, k, h, -⟩ := F64.val_eq_some hr
  exact ⟨s, m, k, h⟩

theorem mul_nan' {x y : F64} (hy : Finite y) (hx : x ≠ .nan) :
    F64.mul x y = .nan ↔ Infinite x ∧ F64.val y = some 0 := by
  rw [F64.mul_comm, mul_nan hy hx, and_comm]

theorem half_div_nn {x : F64} (hx : Finite x) : F64.div (F64.ofRat (1 / 2)) x ≠ .nan := by
  obtain ⟨s, m, k, h⟩ := hx
  cases hz : x.isZero with
  | false =>
    refine div_nn ?_ ⟨s, m, k, h⟩ hz
    exact fin_nn (by obtain ⟨s, m, k, h, -⟩ := F64.val_eq_some val_half; exact ⟨s, m, k, h⟩)
  | true =>
    subst h
    have hh : F64.isZero (F64.ofRat (1 / 2)) = false := by decide +kernel
    obtain ⟨s', m', k', h', -⟩ := F64.val_eq_some val_half
    rw [h'] at hh ⊢
    have hm : m.val = 0 := by simpa [F64.isZero] using hz
    have hm' : ¬ m'.val = 0 := by simpa [F64.isZero] using hh
    simp only [F64.div]
    rw [if_pos hm, if_neg hm']
    exact fun h => by cases h

/-- **C92**, type 109: NaN exactly where the correction `0.5 / base(k, 1)` is infinite and the sigmoid itself zero. -/
theorem C92_sigmoid (l : Libm) (he : ∀ u, u ≠ .nan → F64.le (F64.ofRat 0) (l.exp u) = true) {k r : F64}
    (hk : Finite k) (hr : Finite (F64.sub (F64.mul (F64.ofRat 2) r) (F64.ofRat 1))) :
    eval (F64.ops l) 109 [k] r = some .nan ↔
      Infinite (F64.div (F64.ofRat (1 / 2)) (sigmoidBase (F64.ops l) k (F64.ofRat 1))) ∧
      F64.val (sigmoidBase (F64.ops l) k (F64.sub (F64.mul (F64.ofRat 2) r) (F64.ofRat 1))) = some 0 := by
  have hh : Finite (F64.ofRat (1 / 2)) := by
    obtain ⟨s, m, k, h, -⟩ := F64.val_eq_some val_half; exact ⟨s, m, k, h⟩
  have b1 := sigmoidBase_fin l he hk one_fin
  have b2 := sigmoidBase_fin l he hk hr
  show some (F64.add (F64.mul (F64.div (F64.ofRat (1 / 2)) (sigmoidBase (F64.ops l) k (F64.ofRat 1)))
    (sigmoidBase (F64.ops l) k (F64.sub (F64.mul (F64.ofRat 2) r) (F64.ofRat 1)))) (F64.ofRat (1 / 2))) = some F64.nan ↔ _
  rw [some_nan, add_nan_iff hh, mul_nan' b2 (half_div_nn b1)]

/-- **C92**, type −109 with a non-zero parameter: a number wherever the argument of the logarithm is not negative. -/
theorem C92_sigmoid_inverse (l : Libm) (hlog : LogNum l) {k r : F64} (hk : Finite k) (hk0 : F64.val k ≠ some 0)
    (h : F64.le (F64.ofRat 0) (F64.sub (F64.div (F64.ofRat 1) (F64.add (F64.div (F64.sub r (F64.ofRat (1 / 2)))
      (F64.div (F64.ofRat (1 / 2)) (sigmoidBase (F64.ops l) k (F64.ofRat 1)))) (F64.ofRat (1 / 2)))) (F64.ofRat 1)) = true) :
    eval (F64.ops l) (-109) [k] r ≠ some .nan := by
  have h2 : Finite (F64.ofRat 2) := by
    obtain ⟨s, m, k, h, -⟩ := F64.val_eq_some val_two; exact ⟨s, m, k, h⟩
  have hz : k.isZero = false := by
    rw [Bool.eq_false_iff]
    exact fun h => hk0 ((fin_isZero hk).mp h)
  have hl := hlog.nonneg _ h
  rw [ne_eq]
  show ¬ some (F64.div (F64.add (F64.div (F64.neg (l.log10 (F64.sub (F64.div (F64.ofRat 1)
    (F64.add (F64.div (F64.sub r (F64.ofRat (1 / 2)))
      (F64.div (F64.ofRat (1 / 2)) (sigmoidBase (F64.ops l) k (F64.ofRat 1)))) (F64.ofRat (1 / 2)))) (F64.ofRat 1)))) k)
      (F64.ofRat 1)) (F64.ofRat 2)) = some F64.nan
  rw [some_nan]
  generalize l.log10 _ = x at hl ⊢
  refine div_nn (add_nn (div_nn ?_ hk hz) one_fin) h2 (by decide +kernel)
  cases x with
  | nan => exact absurd rfl hl
  | inf s => exact fun h => by cases h
  | fin s m k => exact fun h => by cases h

/-! ### The hypotheses are satisfiable, and both sides of each equivalence occur -/

theorem fin_of {x : F64} (h : (F64.val x).isSome = true) : Finite x := by
  obtain ⟨q, h⟩ := Option.isSome_iff_exists.mp h
  obtain ⟨s, m, k, h, -⟩ := F64.val_eq_some h
  exact ⟨s, m, k, h⟩

theorem crude_log : LogNum crudeLibm := ⟨fun _ h => (F64.le_nn h).2, rfl⟩

theorem crude_pow : PowOnNonneg crudeLibm := fun b e _ he hb => (F64.le_nn (crude_mono.pow_nonneg b e hb he)).2

/-- A platform whose powers overflow: type 8 with factor 0 is NaN there, with factor 1 infinite. -/
def hugeLibm : Libm := { crudeLibm with powf := fun _ _ => .inf false }

example : eval (F64.ops hugeLibm) 8 [F64.ofRat 0, F64.ofRat 10, F64.ofRat 400, F64.ofRat 0, F64.ofRat 1] (F64.ofRat 1) =
    some .nan :=
  (C92_type8 hugeLibm (fun _ _ _ _ _ h => by cases h) zero_fin (fin_of (by decide +kernel)) (fin_of (by decide +kernel)) zero_fin one_fin
    one_fin (by decide +kernel)).mpr ⟨by decide +kernel, false, rfl⟩

example : eval (F64.ops hugeLibm) 8 [F64.ofRat 1, F64.ofRat 10, F64.ofRat 400, F64.ofRat 0, F64.ofRat 1] (F64.ofRat 1) =
    some (.inf false) := by decide +kernel

/-- Type 7 with b = 0 and an overflowing power is NaN. -/
example : eval (F64.ops hugeLibm) 7 [F64.ofRat 2, F64.ofRat 1, F64.ofRat 0, F64.ofRat 1, F64.ofRat 0] (F64.ofRat 1) =
    some .nan :=
  (C92_type7 hugeLibm (fun _ _ _ _ _ h => by cases h) ⟨fun _ h => (F64.le_nn h).2, rfl⟩ (fin_of (by decide +kernel)) one_fin
    zero_fin one_fin zero_fin ⟨one_fin, by decide +kernel⟩).mpr (.inl ⟨by decide +kernel, false, rfl⟩)

/-- The same with a = 0: the logarithm is infinite and not taken as a limit. -/
example : eval (F64.ops hugeLibm) 7 [F64.ofRat 2, F64.ofRat 0, F64.ofRat 1, F64.ofRat 1, F64.ofRat 0] (F64.ofRat 1) =
    some .nan :=
  (C92_type7 hugeLibm (fun _ _ _ _ _ h => by cases h) ⟨fun _ h => (F64.le_nn h).2, rfl⟩ (fin_of (by decide +kernel)) zero_fin
    one_fin one_fin zero_fin ⟨one_fin, by decide +kernel⟩).mpr (.inr ⟨by decide +kernel, by decide +kernel, false, by
      decide +kernel⟩)

example : eval (F64.ops crudeLibm) (-7) [F64.ofRat 1, F64.ofRat 1, F64.ofRat 2, F64.ofRat 1, F64.ofRat 0] (F64.ofRat 1) ≠
    some .nan :=
  C92_type7_inverse crudeLibm crude_pow one_fin (fin_of (by decide +kernel)) (by decide +kernel)

example : eval (F64.ops crudeLibm) (-8) [F64.ofRat 1, F64.ofRat 2, F64.ofRat 1, F64.ofRat 0, F64.ofRat 0] (F64.ofRat 3) ≠
    some .nan :=
  C92_type8_inverse crudeLibm crude_log ⟨one_fin, by decide +kernel⟩ (fin_of (by decide +kernel)) (by decide +kernel) one_fin
    zero_fin zero_fin (fin_of (by decide +kernel))

/-- Without the bound on the argument type 108 has a NaN: a power of a negative number. -/
example : ∃ l : Libm, eval (F64.ops l) (-108) [F64.ofRat (1 / 2)] (F64.ofRat 2) = some .nan :=
  ⟨{ crudeLibm with powf := fun b _ => if F64.lt b (F64.ofRat 0) = true then .nan else b }, by decide +kernel⟩

example : eval (F64.ops crudeLibm) 108 [F64.ofRat 2] (F64.ofRat (1 / 3)) ≠ some .nan :=
  (C92_type108 crudeLibm crude_mono ⟨(fin_of (by decide +kernel)), by decide +kernel⟩ (by decide +kernel) (by decide +kernel)).1

/-- Parameter 0 at the middle: zero times infinity. -/
example : eval (F64.ops crudeLibm) 109 [F64.ofRat 0] (F64.ofRat (1 / 2)) = some .nan :=
  (C92_sigmoid crudeLibm crude_mono.exp_nonneg zero_fin (fin_of (by decide +kernel))).mpr
    ⟨⟨false, by decide +kernel⟩, by decide +kernel⟩

example : eval (F64.ops crudeLibm) 109 [F64.ofRat 1] (F64.ofRat (1 / 2)) ≠ some .nan := by
  rw [ne_eq, C92_sigmoid crudeLibm crude_mono.exp_nonneg one_fin (fin_of (by decide +kernel))]
  rintro ⟨⟨s, h⟩, -⟩
  revert h
  cases s <;> decide +kernel

example : eval (F64.ops crudeLibm) (-109) [F64.ofRat 1] (F64.ofRat (3 / 4)) ≠ some .nan :=
  C92_sigmoid_inverse crudeLibm crude_log one_fin (by decide +kernel) (by decide +kernel)

end Lcms.Props
