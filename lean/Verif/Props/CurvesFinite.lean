import Verif.Props.CurvesNaN

/-! # Property C92: finite numbers do not turn into NaN -/

namespace Lcms.Props

open Lcms.Curves

/-- Neither NaN nor infinite. -/
def Finite (x : F64) : Prop := ∃ s m k, x = F64.fin s m k

/-- What C99 (F.10.4.4) says about `pow` on non-negative bases: the result is a number. -/
def PowOnNonneg (l : Libm) : Prop :=
  ∀ x y, x ≠ .nan → y ≠ .nan → F64.le (F64.ofRat 0) x = true → l.powf x y ≠ .nan

theorem roundMag_nn (s : Bool) (q : ℚ) : F64.roundMag s q ≠ .nan := by
  unfold F64.roundMag
  split
  · simp
  · simp only
    split
    · simp
    · split <;> simp

theorem round_nn (q : ℚ) : F64.round q ≠ .nan := by
  unfold F64.round
  split <;> exact roundMag_nn _ _

theorem ofRat0 : F64.ofRat 0 = .fin false 0 0 := by decide +kernel

theorem fin_nn {x : F64} (h : Finite x) : x ≠ .nan := by
  obtain ⟨s, m, k, rfl⟩ := h
  simp

theorem zero_fin : Finite (F64.ofRat 0) := ⟨_, _, _, ofRat0⟩

theorem one_fin : Finite (F64.ofRat 1) := by
  have : F64.ofRat 1 = .fin false ⟨2 ^ 52, by decide⟩ ⟨1022, by decide⟩ := by decide +kernel
  exact ⟨_, _, _, this⟩

theorem neg_fin {x : F64} (h : Finite x) : Finite (F64.neg x) := by
  obtain ⟨s, m, k, rfl⟩ := h
  exact ⟨_, _, _, rfl⟩

theorem mul_nn {x y : F64} (hx : Finite x) (hy : Finite y) : F64.mul x y ≠ .nan := by
  obtain ⟨s, m, k, rfl⟩ := hx
  obtain ⟨s', m', k', rfl⟩ := hy
  exact roundMag_nn _ _

theorem add_nn {x y : F64} (hx : x ≠ .nan) (hy : Finite y) : F64.add x y ≠ .nan := by
  obtain ⟨s', m', k', rfl⟩ := hy
  cases x with
  | nan => exact absurd rfl hx
  | inf s => simp [F64.add]
  | fin s m k =>
    unfold F64.add
    simp only
    split
    · simp
    · exact round_nn _

theorem sub_nn {x y : F64} (hx : x ≠ .nan) (hy : Finite y) : F64.sub x y ≠ .nan := add_nn hx (neg_fin hy)

theorem isZero_tiny {l : Libm} {y : F64} (hy : y.isZero = true) : tiny (F64.ops l) y = true := by
  cases y with
  | nan => simp [F64.isZero] at hy
  | inf s => simp [F64.isZero] at hy
  | fin s m k =>
    have hm : m = 0 := by
      simp only [F64.isZero, decide_eq_true_eq] at hy
      exact Fin.ext hy
    subst hm
    unfold tiny
    show F64.lt (F64.fin false 0 k) (F64.ofRat tolerance) = true
    have e : F64.ofRat tolerance = F64.ofRat (1 / 10000) := rfl
    have hpos : ∃ m' k', F64.ofRat (1 / 10000) = F64.fin false m' k' ∧ 0 < F64.ratOf (F64.fin false m' k') := by
      refine ⟨⟨7378697629483821, by decide⟩, ⟨1008, by decide⟩, ?_, ?_⟩ <;> decide +kernel
    obtain ⟨m', k', h1, h2⟩ := hpos
    rw [e, h1]
    have : F64.ratOf (F64.fin false 0 k) = 0 := by simp [F64.ratOf, F64.val, F64.magVal]
    simp only [F64.lt, this, decide_eq_true_eq]
    exact h2

theorem div_nn {x y : F64} (hx : x ≠ .nan) (hy : Finite y) (h0 : y.isZero = false) : F64.div x y ≠ .nan := by
  obtain ⟨s', m', k', rfl⟩ := hy
  cases x with
  | nan => exact absurd rfl hx
  | inf s => simp [F64.div]
  | fin s m k =>
    unfold F64.div
    simp only
    rw [if_neg (by simpa [F64.isZero] using h0)]
    exact roundMag_nn _ _

/-- The reciprocal is a number, also of zero. -/
theorem recip_nn {y : F64} (hy : Finite y) : F64.div (F64.ofRat 1) y ≠ .nan := by
  by_cases h0 : y.isZero = true
  · obtain ⟨s', m', k', rfl⟩ := hy
    have : F64.ofRat 1 = .fin false ⟨2 ^ 52, by decide⟩ ⟨1022, by decide⟩ := by decide +kernel
    rw [this]
    unfold F64.div
    simp only
    rw [if_pos (by simpa [F64.isZero] using h0), if_neg (by decide)]
    simp
  · exact div_nn (fin_nn one_fin) hy (by simpa using h0)

theorem le_of_lt {x : F64} (h : F64.lt (F64.ofRat 0) x = true) : F64.le (F64.ofRat 0) x = true := by
  rw [ofRat0] at h ⊢
  cases x with
  | nan => simp [F64.lt] at h
  | inf s => simpa [F64.lt, F64.le] using h
  | fin s m k =>
    simp only [F64.lt, F64.le, decide_eq_true_eq] at h ⊢
    exact _root_.le_of_lt h

theorem le_of_not_lt {x : F64} (hx : x ≠ .nan) (h : ¬ F64.lt x (F64.ofRat 0) = true) :
    F64.le (F64.ofRat 0) x = true := by
  rw [ofRat0] at h ⊢
  cases x with
  | nan => exact absurd rfl hx
  | inf s => simpa [F64.lt, F64.le] using h
  | fin s m k =>
    simp only [F64.lt, F64.le, decide_eq_true_eq] at h ⊢
    exact not_lt.mp h

theorem lt_nn {x : F64} (h : F64.lt (F64.ofRat 0) x = true) : x ≠ .nan := by
  rintro rfl
  rw [ofRat0] at h
  simp [F64.lt] at h

theorem not_tiny_zero {l : Libm} {y : F64} (h : ¬ tiny (F64.ops l) y = true) : y.isZero = false := by
  by_contra h0
  exact h (isZero_tiny (by simpa using h0))

theorem zero_le_trans {x y : F64} (h : F64.le (F64.ofRat 0) x = true) (h' : F64.le x y = true) :
    F64.le (F64.ofRat 0) y = true := by
  rw [ofRat0] at h ⊢
  cases x with
  | nan => simp [F64.le] at h
  | inf s =>
    have hs : s = false := by simpa [F64.le] using h
    subst hs
    cases y with
    | nan => simp [F64.le] at h'
    | inf s' => simpa [F64.le] using h'
    | fin s' m' k' => simp [F64.le] at h'
  | fin s m k =>
    cases y with
    | nan => simp [F64.le] at h'
    | inf s' => simpa [F64.le] using h'
    | fin s' m' k' =>
      simp only [F64.le, decide_eq_true_eq] at h h' ⊢
      exact le_trans h h'

/-- **C92** Whatever `exp` and `log10` are, and whatever `powf` is as long as it gives numbers on non-negative bases:
with finite parameters and a finite input, types 1–6 and −1, −2, −3, −5, −6 never return NaN. -/
theorem C92_no_nan (l : Libm) (hl : PowOnNonneg l) {g a b c d e f r : F64} (hg : Finite g) (ha : Finite a)
    (hb : Finite b) (hc : Finite c) (he : Finite e) (hf : Finite f) (hr : Finite r) :
    eval (F64.ops l) 1 [g] r ≠ some .nan ∧
    eval (F64.ops l) (-1) [g] r ≠ some .nan ∧
    eval (F64.ops l) 2 [g, a, b] r ≠ some .nan ∧
    eval (F64.ops l) (-2) [g, a, b] r ≠ some .nan ∧
    eval (F64.ops l) 3 [g, a, b, c] r ≠ some .nan ∧
    eval (F64.ops l) (-3) [g, a, b, c] r ≠ some .nan ∧
    eval (F64.ops l) 4 [g, a, b, c, d] r ≠ some .nan ∧
    eval (F64.ops l) 5 [g, a, b, c, d, e, f] r ≠ some .nan ∧
    eval (F64.ops l) (-5) [g, a, b, c, d, e, f] r ≠ some .nan ∧
    eval (F64.ops l) 6 [g, a, b, c] r ≠ some .nan ∧
    eval (F64.ops l) (-6) [g, a, b, c] r ≠ some .nan := by
  have base : F64.add (F64.mul a r) b ≠ .nan := add_nn (mul_nn ha hr) hb
  have pw : ∀ {x y : F64}, y ≠ .nan → F64.lt (F64.ofRat 0) x = true → l.powf x y ≠ .nan :=
    fun hy h => hl _ _ (lt_nn h) hy (le_of_lt h)
  have pw' : ∀ {x y : F64}, x ≠ .nan → y ≠ .nan → ¬ F64.lt x (F64.ofRat 0) = true → l.powf x y ≠ .nan :=
    fun hx hy h => hl _ _ hx hy (le_of_not_lt hx h)
  have z := fin_nn zero_fin
  have some_ne : ∀ {x : F64}, x ≠ .nan → some x ≠ some F64.nan := fun h h' => h (Option.some.inj h')
  refine ⟨some_ne ?_, some_ne ?_, some_ne ?_, some_ne ?_, some_ne ?_, some_ne ?_, some_ne ?_, some_ne ?_, some_ne ?_,
    some_ne ?_, some_ne ?_⟩
  · unfold f1
    split
    · split
      · exact fin_nn hr
      · exact z
    · rename_i h; exact pw' (fin_nn hr) (fin_nn hg) h
  · unfold g1
    split
    · split
      · exact fin_nn hr
      · exact z
    · rename_i h
      split
      · exact round_nn (10 ^ 22)
      · exact pw' (fin_nn hr) (recip_nn hg) h
  · unfold f2
    simp only
    split
    · exact z
    · split
      · split
        · rename_i h; exact pw (fin_nn hg) h
        · exact z
      · exact z
  · unfold g2
    simp only
    split
    · exact z
    · rename_i ht
      rw [Bool.or_eq_true, not_or] at ht
      have hv : (if (F64.ops l).lt r ((F64.ops l).lit 0) = true then (F64.ops l).lit 0
          else (F64.ops l).div ((F64.ops l).sub ((F64.ops l).powf r ((F64.ops l).div ((F64.ops l).lit 1) g)) b) a) ≠
          F64.nan := by
        split
        · exact z
        · rename_i h
          exact div_nn (sub_nn (pw' (fin_nn hr) (recip_nn hg) h) hb) ha (not_tiny_zero ht.2)
      revert hv
      generalize (if (F64.ops l).lt r ((F64.ops l).lit 0) = true then (F64.ops l).lit 0
          else (F64.ops l).div ((F64.ops l).sub ((F64.ops l).powf r ((F64.ops l).div ((F64.ops l).lit 1) g)) b) a) = v
      intro hv
      split
      · exact z
      · exact hv
  · unfold f3
    simp only
    split
    · exact z
    · split
      · split
        · rename_i h; exact add_nn (pw (fin_nn hg) h) hc
        · exact z
      · exact fin_nn hc
  · unfold g3
    simp only
    split
    · exact z
    · rename_i ht
      split
      · split
        · rename_i h
          exact div_nn (sub_nn (pw (recip_nn hg) h) hb) ha (not_tiny_zero ht)
        · exact z
      · exact div_nn (fin_nn (neg_fin hb)) ha (not_tiny_zero ht)
  · unfold f4
    simp only
    split
    · split
      · rename_i h; exact pw (fin_nn hg) h
      · exact z
    · exact mul_nn hr hc
  · unfold f5
    simp only
    split
    · split
      · rename_i h; exact add_nn (pw (fin_nn hg) h) he
      · exact fin_nn he
    · exact add_nn (mul_nn hr hc) hf
  · unfold g5
    simp only
    split
    · split
      · exact z
      · rename_i h
        split
        · exact z
        · rename_i ht
          rw [Bool.or_eq_true, not_or] at ht
          exact div_nn (sub_nn (pw' (sub_nn (fin_nn hr) he) (recip_nn hg) h) hb) ha (not_tiny_zero ht.2)
    · split
      · exact z
      · rename_i ht
        exact div_nn (sub_nn (fin_nn hr) hf) hc (not_tiny_zero ht)
  · unfold f6
    simp only
    split
    · exact fin_nn hc
    · rename_i h; exact add_nn (pw' base (fin_nn hg) h) hc
  · unfold g6
    simp only
    split
    · exact z
    · rename_i ht
      split
      · exact z
      · rename_i h
        exact div_nn (sub_nn (pw' (sub_nn (fin_nn hr) hc) (recip_nn hg) h) hb) ha (not_tiny_zero ht)

/-- **C92**, type −4: the same if in addition `powf` is not negative for non-negative base and exponent, and the
exponent is not negative.  (For `γ = −3` and `a d + b = −0.0` it can be NaN: `powf(−0.0, −3.0)` is `−∞`.) -/
theorem C92_no_nan_m4 (l : Libm) (hl : PowOnNonneg l)
    (hn : ∀ x y, F64.le (F64.ofRat 0) x = true → F64.le (F64.ofRat 0) y = true →
      F64.le (F64.ofRat 0) (l.powf x y) = true)
    {g a b c d r : F64} (hg : Finite g) (ha : Finite a) (hb : Finite b) (hc : Finite c) (hd : Finite d)
    (hr : Finite r) (hg0 : F64.le (F64.ofRat 0) g = true) :
    eval (F64.ops l) (-4) [g, a, b, c, d] r ≠ some .nan := by
  have base : F64.add (F64.mul a d) b ≠ .nan := add_nn (mul_nn ha hd) hb
  have z := fin_nn zero_fin
  intro h
  have h := Option.some.inj h
  revert h
  change g4 (F64.ops l) g a b c d r ≠ _
  unfold g4
  simp only
  have hdisc : F64.le (F64.ofRat 0) (if (F64.ops l).lt ((F64.ops l).add ((F64.ops l).mul a d) b) ((F64.ops l).lit 0) = true
      then (F64.ops l).lit 0 else (F64.ops l).powf ((F64.ops l).add ((F64.ops l).mul a d) b) g) = true := by
    split
    · show F64.le (F64.ofRat 0) (F64.ofRat 0) = true
      rw [ofRat0]
      simp [F64.le]
    · rename_i h
      exact hn _ _ (le_of_not_lt base h) hg0
  revert hdisc
  generalize (if (F64.ops l).lt ((F64.ops l).add ((F64.ops l).mul a d) b) ((F64.ops l).lit 0) = true
      then (F64.ops l).lit 0 else (F64.ops l).powf ((F64.ops l).add ((F64.ops l).mul a d) b) g) = disc
  intro hdisc
  split
  · rename_i h
    have hr0 : F64.le (F64.ofRat 0) r = true := zero_le_trans hdisc h
    split
    · exact z
    · rename_i ht
      rw [Bool.or_eq_true, not_or] at ht
      exact div_nn (sub_nn (hl _ _ (fin_nn hr) (recip_nn hg) hr0) hb) ha (not_tiny_zero ht.2)
  · split
    · exact z
    · rename_i ht
      exact div_nn (fin_nn hr) hc (not_tiny_zero ht)

/-- An instance: a `powf` that is constantly 1 satisfies the assumption; type 2 at `a r` overflowing. -/
example : let l : Libm := ⟨fun _ _ => F64.ofRat 1, fun x => x, fun x => x⟩
    PowOnNonneg l ∧ eval (F64.ops l) 2 [F64.ofRat 1, F64.ofRat (2 ^ 1000), F64.ofRat 0] (F64.ofRat (2 ^ 1000)) =
      some (F64.ofRat 1) := by
  intro l
  refine ⟨fun _ _ _ _ _ => fin_nn one_fin, ?_⟩
  have : eval (F64.ops l) 2 [F64.ofRat 1, F64.ofRat (2 ^ 1000), F64.ofRat 0] (F64.ofRat (2 ^ 1000)) =
    some (F64.ofRat 1) := by decide +kernel
  exact this

/-- The other types can: the sigmoid of a `k` so small that `exp` rounds to 1 is NaN at 1 (over the reals it is 1,
C71), whatever else `exp` does. -/
theorem C92_sigmoid_nan (l : Libm) (k : F64)
    (h : l.exp (F64.mul (F64.neg k) (F64.ofRat 1)) = F64.ofRat 1) :
    eval (F64.ops l) 109 [k] (F64.ofRat 1) = some .nan := by
  show some (sigmoidFactory (F64.ops l) k (F64.ofRat 1)) = _
  have hb : sigmoidBase (F64.ops l) k (F64.ofRat 1) = F64.ofRat 0 := by
    show F64.sub (F64.div (F64.ofRat 1) (F64.add (F64.ofRat 1) (l.exp (F64.mul (F64.neg k) (F64.ofRat 1)))))
      (F64.ofRat (1 / 2)) = _
    rw [h]
    decide +kernel
  have ht : (F64.ops l).sub ((F64.ops l).mul ((F64.ops l).lit 2) (F64.ofRat 1)) ((F64.ops l).lit 1) = F64.ofRat 1 := by
    show F64.sub (F64.mul (F64.ofRat 2) (F64.ofRat 1)) (F64.ofRat 1) = _
    decide +kernel
  unfold sigmoidFactory
  simp only
  rw [ht]
  change some (F64.add (F64.mul (F64.div (F64.ofRat (1 / 2)) (sigmoidBase (F64.ops l) k (F64.ofRat 1)))
    (sigmoidBase (F64.ops l) k (F64.ofRat 1))) (F64.ofRat (1 / 2))) = _
  rw [hb]
  have : F64.add (F64.mul (F64.div (F64.ofRat (1 / 2)) (F64.ofRat 0)) (F64.ofRat 0)) (F64.ofRat (1 / 2)) = .nan := by
    decide +kernel
  rw [this]

/-- So can type −8 with base one, where it divides the logarithms 0 by 0. -/
theorem C92_base_one_nan (l : Libm) (h : l.log10 (F64.ofRat 1) = F64.ofRat 0) :
    eval (F64.ops l) (-8) [F64.ofRat 1, F64.ofRat 1, F64.ofRat 1, F64.ofRat 0, F64.ofRat 0] (F64.ofRat 1) =
      some .nan := by
  show some (g8 (F64.ops l) (F64.ofRat 1) (F64.ofRat 1) (F64.ofRat 1) (F64.ofRat 0) (F64.ofRat 0) (F64.ofRat 1)) = _
  have e1 : F64.sub (F64.ofRat 1) (F64.ofRat 0) = F64.ofRat 1 := by decide +kernel
  have e2 : F64.lt (F64.ofRat 1) (F64.ofRat 0) = false := by decide +kernel
  have e3 : F64.lt (F64.abs (F64.ofRat 1)) (F64.ofRat tolerance) = false := by decide +kernel
  have e4 : F64.div (F64.ofRat 1) (F64.ofRat 1) = F64.ofRat 1 := by decide +kernel
  have e5 : F64.div (F64.ofRat 0) (F64.ofRat 0) = .nan := by decide +kernel
  unfold g8
  simp only [F64.ops, tiny, e1, e2, e3, e4, h, e5, Bool.or_false, Bool.false_eq_true, if_false]
  rfl

/-- The parameters have to be finite: with an offset of −∞, type 6 adds +∞ and −∞ wherever the power overflows. -/
theorem C92_infinite_offset_nan (l : Libm) (h : l.powf (F64.ofRat (2 ^ 1000)) (F64.ofRat 2) = .inf false) :
    eval (F64.ops l) 6 [F64.ofRat 2, F64.ofRat 1, F64.ofRat 0, .inf true] (F64.ofRat (2 ^ 1000)) = some .nan := by
  show some (f6 (F64.ops l) (F64.ofRat 2) (F64.ofRat 1) (F64.ofRat 0) (.inf true) (F64.ofRat (2 ^ 1000))) = _
  have e1 : F64.add (F64.mul (F64.ofRat 1) (F64.ofRat (2 ^ 1000))) (F64.ofRat 0) = F64.ofRat (2 ^ 1000) := by
    decide +kernel
  have e2 : F64.lt (F64.ofRat (2 ^ 1000)) (F64.ofRat 0) = false := by decide +kernel
  have e3 : F64.add (.inf false) (.inf true) = .nan := by decide +kernel
  unfold f6
  simp only [F64.ops, e1, e2, h, e3, Bool.false_eq_true, if_false]

/-- With an `exp` that is 1 at `-2^-60`, as the nearest binary64 number is. -/
example : let l : Libm := ⟨fun x _ => x, fun _ => F64.ofRat 1, fun _ => F64.ofRat 0⟩
    eval (F64.ops l) 109 [F64.ofRat (1 / 2 ^ 60)] (F64.ofRat 1) = some .nan ∧
    eval (F64.ops l) (-8) [F64.ofRat 1, F64.ofRat 1, F64.ofRat 1, F64.ofRat 0, F64.ofRat 0] (F64.ofRat 1) = some .nan :=
  ⟨C92_sigmoid_nan _ _ rfl, C92_base_one_nan _ rfl⟩

/-- With a `powf` that overflows. -/
example : let l : Libm := ⟨fun _ _ => .inf false, fun x => x, fun x => x⟩
    eval (F64.ops l) 6 [F64.ofRat 2, F64.ofRat 1, F64.ofRat 0, .inf true] (F64.ofRat (2 ^ 1000)) = some .nan :=
  C92_infinite_offset_nan _ rfl

end Lcms.Props
