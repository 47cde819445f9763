import Verif.Props.CurvesFinite
import Verif.Lemmas.F64Order

/-!
# Property C103: the curves as computed, with every rounding, are monotone

C90 and C91 speak about real numbers.  Here the evaluator runs in binary64 arithmetic, and the only thing
known about the platform's `pow`, `exp` and `log10` is that they are monotone where the mathematical functions
are.
-/

namespace Lcms.Props

open Lcms.Curves

/-- What is used of the platform: each function is monotone where the mathematical one is, and takes the exact
values named. -/
structure MonoLibm (l : Libm) : Prop where
  pow_base : ∀ u v g, F64.le (F64.ofRat 0) u = true → F64.le u v = true → F64.le (F64.ofRat 0) g = true →
    F64.le (l.powf u g) (l.powf v g) = true
  pow_nonneg : ∀ u g, F64.le (F64.ofRat 0) u = true → g ≠ .nan → F64.le (F64.ofRat 0) (l.powf u g) = true
  pow_one : ∀ g, F64.le (F64.ofRat 0) g = true → l.powf (F64.ofRat 1) g = F64.ofRat 1
  pow_exponent : ∀ b u v, F64.le (F64.ofRat 1) b = true → F64.le u v = true →
    F64.le (l.powf b u) (l.powf b v) = true
  exp_mono : ∀ u v, F64.le u v = true → F64.le (l.exp u) (l.exp v) = true
  exp_nonneg : ∀ u, u ≠ .nan → F64.le (F64.ofRat 0) (l.exp u) = true
  exp_nonpos : ∀ u, F64.le u (F64.ofRat 0) = true → F64.le (l.exp u) (F64.ofRat 1) = true
  log_mono : ∀ u v, F64.lt (F64.ofRat 0) u = true → F64.le u v = true → F64.le (l.log10 u) (l.log10 v) = true

/-- Both values are computed, and they are in order. -/
def Ordered (l : Libm) (type : Int32) (ps : List F64) (x y : F64) : Prop :=
  ∃ u v, eval (F64.ops l) type ps x = some u ∧ eval (F64.ops l) type ps y = some v ∧ F64.le u v = true

/-- A finite non-negative number. -/
def FinNonneg (x : F64) : Prop := Finite x ∧ F64.le (F64.ofRat 0) x = true

/-- A finite positive number. -/
def FinPos (x : F64) : Prop := Finite x ∧ F64.lt (F64.ofRat 0) x = true

/-! ### Auxiliary facts -/

theorem fin_val {x : F64} (h : Finite x) : ∃ q, F64.val x = some q := by
  obtain ⟨s, m, k, rfl⟩ := h
  exact ⟨_, F64.val_fin s m k⟩

theorem val_zero : F64.val (F64.ofRat 0) = some 0 := by decide +kernel

theorem val_one : F64.val (F64.ofRat 1) = some 1 := by decide +kernel

theorem val_half : F64.val (F64.ofRat (1 / 2)) = some (1 / 2) := by decide +kernel

theorem val_two : F64.val (F64.ofRat 2) = some 2 := by decide +kernel

theorem FinNonneg.val {x : F64} (h : FinNonneg x) : ∃ q, F64.val x = some q ∧ 0 ≤ q := by
  obtain ⟨q, hq⟩ := fin_val h.1
  exact ⟨q, hq, (F64.le_val val_zero hq).mp h.2⟩

theorem FinPos.val {x : F64} (h : FinPos x) : ∃ q, F64.val x = some q ∧ 0 < q := by
  obtain ⟨q, hq⟩ := fin_val h.1
  exact ⟨q, hq, (F64.lt_val val_zero hq).mp h.2⟩

theorem FinPos.nonneg {x : F64} (h : FinPos x) : FinNonneg x := ⟨h.1, F64.le_of_lt h.2⟩

theorem zero_nn : F64.ofRat 0 ≠ .nan := fin_nn zero_fin

theorem zero_le_zero : F64.le (F64.ofRat 0) (F64.ofRat 0) = true := F64.le_refl zero_nn

theorem zero_rd : F64.IsRd (F64.ofRat 0) 0 := by
  left
  rw [val_zero]
  have : F64.rq 0 = 0 := le_antisymm (F64.rq_nonpos (le_refl _)) (F64.rq_nonneg (le_refl _))
  rw [this]

/-- The linear argument `a x + b` grows with `x`. -/
theorem lin_mono {a b x y : F64} (ha : FinNonneg a) (hb : Finite b) (hx : Finite x) (hy : Finite y)
    (h : F64.le x y = true) : F64.le (F64.add (F64.mul a x) b) (F64.add (F64.mul a y) b) = true := by
  obtain ⟨qa, ea, pa⟩ := ha.val
  obtain ⟨qb, eb⟩ := fin_val hb
  obtain ⟨p, ep⟩ := fin_val hx
  obtain ⟨q, eq⟩ := fin_val hy
  refine F64.add_mono ?_ eb
  rw [F64.mul_comm a, F64.mul_comm a]
  exact F64.mul_mono ep eq ea ((F64.le_val ep eq).mp h) pa

/-- The segment `x c`. -/
theorem seg_mono {c x y : F64} (hc : FinNonneg c) (hx : Finite x) (hy : Finite y) (h : F64.le x y = true) :
    F64.le (F64.mul x c) (F64.mul y c) = true := by
  obtain ⟨qc, ec, pc⟩ := hc.val
  obtain ⟨p, ep⟩ := fin_val hx
  obtain ⟨q, eq⟩ := fin_val hy
  exact F64.mul_mono ep eq ec ((F64.le_val ep eq).mp h) pc

theorem recip_nonneg {g : F64} (h : FinPos g) : F64.le (F64.ofRat 0) (F64.div (F64.ofRat 1) g) = true := by
  obtain ⟨q, e, hq⟩ := h.val
  have hz : F64.IsRd (F64.ofRat 0) 0 := by
    left
    rw [val_zero]
    have : F64.rq 0 = 0 := le_antisymm (F64.rq_nonpos (le_refl _)) (F64.rq_nonneg (le_refl _))
    rw [this]
  exact F64.le_of_rd hz (F64.div_rd val_one e hq.ne') (by positivity)

/-- The power of the clamped argument: `if 0 < e then e^g else 0`. -/
theorem clamp_mono {l : Libm} (hl : MonoLibm l) {g u v : F64} (hg : F64.le (F64.ofRat 0) g = true)
    (h : F64.le u v = true) :
    F64.le (if F64.lt (F64.ofRat 0) u = true then l.powf u g else F64.ofRat 0)
      (if F64.lt (F64.ofRat 0) v = true then l.powf v g else F64.ofRat 0) = true := by
  have hgn := (F64.le_nn hg).2
  by_cases hu : F64.lt (F64.ofRat 0) u = true
  · rw [if_pos hu, if_pos (F64.lt_of_lt_of_le hu h)]
    exact hl.pow_base _ _ _ (F64.le_of_lt hu) h hg
  · rw [if_neg hu]
    split
    · rename_i hv
      exact hl.pow_nonneg _ _ (F64.le_of_lt hv) hgn
    · exact zero_le_zero

theorem clamp_nonneg {l : Libm} (hl : MonoLibm l) {g u : F64} (hg : F64.le (F64.ofRat 0) g = true) :
    F64.le (F64.ofRat 0) (if F64.lt (F64.ofRat 0) u = true then l.powf u g else F64.ofRat 0) = true := by
  split
  · rename_i hu
    exact hl.pow_nonneg _ _ (F64.le_of_lt hu) (F64.le_nn hg).2
  · exact zero_le_zero

/-! ### The types -/

/-- Type 1, for every finite argument. -/
theorem C103_type1 (l : Libm) (hl : MonoLibm l) (g x y : F64) (hg : FinNonneg g) (h : F64.le x y = true) :
    Ordered l 1 [g] x y := by
  refine ⟨f1 (F64.ops l) g x, f1 (F64.ops l) g y, rfl, rfl, ?_⟩
  have hx := (F64.le_nn h).1
  have hy := (F64.le_nn h).2
  show F64.le (if F64.lt x (F64.ofRat 0) = true then
      if F64.lt (F64.sub (F64.abs g) (F64.ofRat 1)) (F64.ofRat tolerance) = true then x else F64.ofRat 0
      else l.powf x g)
    (if F64.lt y (F64.ofRat 0) = true then
      if F64.lt (F64.sub (F64.abs g) (F64.ofRat 1)) (F64.ofRat tolerance) = true then y else F64.ofRat 0
      else l.powf y g) = true
  by_cases hy0 : F64.lt y (F64.ofRat 0) = true
  · rw [if_pos hy0, if_pos (F64.lt_of_le_of_lt h hy0)]
    split
    · exact h
    · exact zero_le_zero
  · rw [if_neg hy0]
    have hy1 := F64.le_of_not_lt hy zero_nn hy0
    by_cases hx0 : F64.lt x (F64.ofRat 0) = true
    · rw [if_pos hx0]
      have hp := hl.pow_nonneg _ g hy1 (fin_nn hg.1)
      split
      · exact F64.le_trans (F64.le_of_lt hx0) hp
      · exact hp
    · rw [if_neg hx0]
      exact hl.pow_base _ _ _ (F64.le_of_not_lt hx zero_nn hx0) h hg.2

/-- Type 2 with a positive slope. -/
theorem C103_type2 (l : Libm) (hl : MonoLibm l) (g a b x y : F64) (hg : FinNonneg g) (ha : FinPos a)
    (hb : Finite b) (hx : Finite x) (hy : Finite y) (h : F64.le x y = true) : Ordered l 2 [g, a, b] x y := by
  refine ⟨f2 (F64.ops l) g a b x, f2 (F64.ops l) g a b y, rfl, rfl, ?_⟩
  unfold f2
  split
  · exact zero_le_zero
  · show F64.le (if F64.le (F64.div (F64.neg b) a) x = true then
        if F64.lt (F64.ofRat 0) (F64.add (F64.mul a x) b) = true then
          l.powf (F64.add (F64.mul a x) b) g else F64.ofRat 0 else F64.ofRat 0)
      (if F64.le (F64.div (F64.neg b) a) y = true then
        if F64.lt (F64.ofRat 0) (F64.add (F64.mul a y) b) = true then
          l.powf (F64.add (F64.mul a y) b) g else F64.ofRat 0 else F64.ofRat 0) = true
    by_cases hd : F64.le (F64.div (F64.neg b) a) x = true
    · rw [if_pos hd, if_pos (F64.le_trans hd h)]
      exact clamp_mono hl hg.2 (lin_mono ha.nonneg hb hx hy h)
    · rw [if_neg hd]
      split
      · exact clamp_nonneg hl hg.2
      · exact zero_le_zero

/-- Type 3 with a positive slope and a positive offset. -/
theorem C103_type3 (l : Libm) (hl : MonoLibm l) (g a b c x y : F64) (hg : FinNonneg g) (ha : FinPos a)
    (hb : FinPos b) (hc : Finite c) (hx : Finite x) (hy : Finite y) (h : F64.le x y = true) :
    Ordered l 3 [g, a, b, c] x y := by
  refine ⟨f3 (F64.ops l) g a b c x, f3 (F64.ops l) g a b c y, rfl, rfl, ?_⟩
  obtain ⟨qa, ea, pa⟩ := ha.val
  obtain ⟨qb, eb, pb⟩ := hb.val
  obtain ⟨qc, ec⟩ := fin_val hc
  have hz : F64.IsRd (F64.ofRat 0) 0 := by
    left
    rw [val_zero]
    have : F64.rq 0 = 0 := le_antisymm (F64.rq_nonpos (le_refl _)) (F64.rq_nonneg (le_refl _))
    rw [this]
  have e : ∀ z, f3 (F64.ops l) g a b c z = if tiny (F64.ops l) a = true then F64.ofRat 0
      else if F64.le (F64.max (F64.div (F64.neg b) a) (F64.ofRat 0)) z = true then
        if F64.lt (F64.ofRat 0) (F64.add (F64.mul a z) b) = true then
          F64.add (l.powf (F64.add (F64.mul a z) b) g) c else F64.ofRat 0
      else c := fun _ => rfl
  have hq : F64.le (F64.div (F64.neg b) a) (F64.ofRat 0) = true :=
    F64.le_of_rd (F64.div_rd (F64.val_neg eb) ea pa.ne') hz
      (div_nonpos_of_nonpos_of_nonneg (by linarith) pa.le)
  have hmax : ∀ z, F64.le (F64.max (F64.div (F64.neg b) a) (F64.ofRat 0)) z = true →
      F64.le (F64.ofRat 0) z = true := by
    intro z hz'
    exact F64.le_trans (F64.le_max_right (F64.le_nn hq).1 zero_nn) hz'
  have harg : ∀ z, Finite z → F64.le (F64.ofRat 0) z = true →
      F64.lt (F64.ofRat 0) (F64.add (F64.mul a z) b) = true := by
    intro z hfz hz0
    have h1 := lin_mono ha.nonneg hb.1 zero_fin hfz hz0
    refine F64.lt_of_lt_of_le ?_ h1
    have h2 : F64.val (F64.mul a (F64.ofRat 0)) = some 0 := by
      have := F64.mul_exact ea val_zero (by rw [mul_zero]; exact F64.srep_of_val val_zero)
        (by rw [mul_zero, abs_zero]; positivity)
      rwa [mul_zero] at this
    have h3 : F64.val (F64.add (F64.mul a (F64.ofRat 0)) b) = some qb := by
      have hr : F64.SRep qb := F64.srep_of_val eb
      have := F64.add_exact h2 eb (by rwa [zero_add]) (by rw [zero_add]; exact F64.abs_val_lt eb)
      rwa [zero_add] at this
    exact (F64.lt_val val_zero h3).mpr pb
  rw [e, e]
  split
  · exact zero_le_zero
  · by_cases h1 : F64.le (F64.max (F64.div (F64.neg b) a) (F64.ofRat 0)) x = true
    · have hx0 := hmax x h1
      have hp := harg x hx hx0
      rw [if_pos h1, if_pos (F64.le_trans h1 h), if_pos hp, if_pos (harg y hy (F64.le_trans hx0 h))]
      exact F64.add_mono (hl.pow_base _ _ _ (F64.le_of_lt hp) (lin_mono ha.nonneg hb.1 hx hy h) hg.2) ec
    · rw [if_neg h1]
      split
      · rename_i h2
        have hp := harg y hy (hmax y h2)
        rw [if_pos hp]
        refine F64.le_trans ?_ (F64.add_mono (hl.pow_nonneg _ g (F64.le_of_lt hp) (fin_nn hg.1)) ec)
        have h3 : F64.val (F64.add (F64.ofRat 0) c) = some qc := by
          have hr : F64.SRep qc := F64.srep_of_val ec
          have := F64.add_exact val_zero ec (by rwa [zero_add]) (by rw [zero_add]; exact F64.abs_val_lt ec)
          rwa [zero_add] at this
        exact (F64.le_val ec h3).mpr (le_refl _)
      · exact F64.le_refl (fin_nn hc)

/-- Type 4 with non-negative slopes, if the segment computed at the joint does not exceed the power there. -/
theorem C103_type4 (l : Libm) (hl : MonoLibm l) (g a b c d x y : F64) (hg : FinNonneg g) (ha : FinNonneg a)
    (hb : Finite b) (hc : FinNonneg c) (hd : Finite d) (hx : Finite x) (hy : Finite y)
    (hj : ∀ v, eval (F64.ops l) 4 [g, a, b, c, d] d = some v → F64.le (F64.mul d c) v = true)
    (h : F64.le x y = true) : Ordered l 4 [g, a, b, c, d] x y := by
  refine ⟨f4 (F64.ops l) g a b c d x, f4 (F64.ops l) g a b c d y, rfl, rfl, ?_⟩
  have hj := hj _ rfl
  have hdd := F64.le_refl (fin_nn hd)
  have e : ∀ z, f4 (F64.ops l) g a b c d z = if F64.le d z = true then
      if F64.lt (F64.ofRat 0) (F64.add (F64.mul a z) b) = true then
          l.powf (F64.add (F64.mul a z) b) g else F64.ofRat 0 else F64.mul z c := fun _ => rfl
  have hj' : F64.le (F64.mul d c) (f4 (F64.ops l) g a b c d d) = true := hj
  rw [e, if_pos hdd] at hj'
  rw [e, e]
  by_cases h1 : F64.le d x = true
  · rw [if_pos h1, if_pos (F64.le_trans h1 h)]
    exact clamp_mono hl hg.2 (lin_mono ha hb hx hy h)
  · rw [if_neg h1]
    have hxd := F64.le_of_lt (F64.lt_of_not_le (fin_nn hd) (fin_nn hx) h1)
    by_cases h2 : F64.le d y = true
    · rw [if_pos h2]
      exact F64.le_trans (F64.le_trans (seg_mono hc hx hd hxd) hj')
        (clamp_mono hl hg.2 (lin_mono ha hb hd hy h2))
    · rw [if_neg h2]
      exact seg_mono hc hx hy h

/-- Type 5, the same. -/
theorem C103_type5 (l : Libm) (hl : MonoLibm l) (g a b c d e f x y : F64) (hg : FinNonneg g) (ha : FinNonneg a)
    (hb : Finite b) (hc : FinNonneg c) (hd : Finite d) (he : Finite e) (hf : Finite f) (hx : Finite x)
    (hy : Finite y)
    (hj : ∀ v, eval (F64.ops l) 5 [g, a, b, c, d, e, f] d = some v → F64.le (F64.add (F64.mul d c) f) v = true)
    (h : F64.le x y = true) : Ordered l 5 [g, a, b, c, d, e, f] x y := by
  refine ⟨f5 (F64.ops l) g a b c d e f x, f5 (F64.ops l) g a b c d e f y, rfl, rfl, ?_⟩
  obtain ⟨qe, ee⟩ := fin_val he
  obtain ⟨qf, ef⟩ := fin_val hf
  have hdd := F64.le_refl (fin_nn hd)
  have eq : ∀ z, f5 (F64.ops l) g a b c d e f z = if F64.le d z = true then
      if F64.lt (F64.ofRat 0) (F64.add (F64.mul a z) b) = true then
          F64.add (l.powf (F64.add (F64.mul a z) b) g) e else e else F64.add (F64.mul z c) f := fun _ => rfl
  have hj' : F64.le (F64.add (F64.mul d c) f) (f5 (F64.ops l) g a b c d e f d) = true := hj _ rfl
  have hclamp : ∀ u v, F64.le u v = true →
      F64.le (if F64.lt (F64.ofRat 0) u = true then F64.add (l.powf u g) e else e)
        (if F64.lt (F64.ofRat 0) v = true then F64.add (l.powf v g) e else e) = true := by
    intro u v huv
    by_cases hu : F64.lt (F64.ofRat 0) u = true
    · rw [if_pos hu, if_pos (F64.lt_of_lt_of_le hu huv)]
      exact F64.add_mono (hl.pow_base _ _ _ (F64.le_of_lt hu) huv hg.2) ee
    · rw [if_neg hu]
      split
      · rename_i hv
        have h1 := F64.add_mono (hl.pow_nonneg _ g (F64.le_of_lt hv) (fin_nn hg.1)) ee
        refine F64.le_trans ?_ h1
        have h2 : F64.val (F64.add (F64.ofRat 0) e) = some qe := by
          have hr : F64.SRep qe := F64.srep_of_val ee
          have := F64.add_exact val_zero ee (by rwa [zero_add]) (by rw [zero_add]; exact F64.abs_val_lt ee)
          rwa [zero_add] at this
        exact (F64.le_val ee h2).mpr (le_refl _)
      · exact F64.le_refl (fin_nn he)
  rw [eq, if_pos hdd] at hj'
  rw [eq, eq]
  by_cases h1 : F64.le d x = true
  · rw [if_pos h1, if_pos (F64.le_trans h1 h)]
    exact hclamp _ _ (lin_mono ha hb hx hy h)
  · rw [if_neg h1]
    have hxd := F64.le_of_lt (F64.lt_of_not_le (fin_nn hd) (fin_nn hx) h1)
    by_cases h2 : F64.le d y = true
    · rw [if_pos h2]
      exact F64.le_trans (F64.le_trans (F64.add_mono (seg_mono hc hx hd hxd) ef) hj')
        (hclamp _ _ (lin_mono ha hb hd hy h2))
    · rw [if_neg h2]
      exact F64.add_mono (seg_mono hc hx hy h) ef

/-- Type 6. -/
theorem C103_type6 (l : Libm) (hl : MonoLibm l) (g a b c x y : F64) (hg : FinNonneg g) (ha : FinNonneg a)
    (hb : Finite b) (hc : Finite c) (hx : Finite x) (hy : Finite y) (h : F64.le x y = true) :
    Ordered l 6 [g, a, b, c] x y := by
  refine ⟨f6 (F64.ops l) g a b c x, f6 (F64.ops l) g a b c y, rfl, rfl, ?_⟩
  obtain ⟨qc, ec⟩ := fin_val hc
  have hlin := lin_mono ha hb hx hy h
  have hu := (F64.le_nn hlin).1
  have hv := (F64.le_nn hlin).2
  show F64.le (if F64.lt (F64.add (F64.mul a x) b) (F64.ofRat 0) = true then c else
      F64.add (l.powf (F64.add (F64.mul a x) b) g) c)
    (if F64.lt (F64.add (F64.mul a y) b) (F64.ofRat 0) = true then c else
      F64.add (l.powf (F64.add (F64.mul a y) b) g) c) = true
  generalize F64.add (F64.mul a x) b = u at *
  generalize F64.add (F64.mul a y) b = v at *
  by_cases h1 : F64.lt v (F64.ofRat 0) = true
  · rw [if_pos h1, if_pos (F64.lt_of_le_of_lt hlin h1)]
    exact F64.le_refl (fin_nn hc)
  · rw [if_neg h1]
    have hv1 := F64.le_of_not_lt hv zero_nn h1
    split
    · have h3 := F64.add_mono (hl.pow_nonneg _ g hv1 (fin_nn hg.1)) ec
      refine F64.le_trans ?_ h3
      have h2 : F64.val (F64.add (F64.ofRat 0) c) = some qc := by
        have hr : F64.SRep qc := F64.srep_of_val ec
        have := F64.add_exact val_zero ec (by rwa [zero_add]) (by rw [zero_add]; exact F64.abs_val_lt ec)
        rwa [zero_add] at this
      exact (F64.le_val ec h2).mpr (le_refl _)
    · rename_i h2
      exact F64.add_mono (hl.pow_base _ _ _ (F64.le_of_not_lt hu zero_nn h2) hlin hg.2) ec

/-- Type 7 with positive factors, from the first argument on at which the logarithm is taken. -/
theorem C103_type7 (l : Libm) (hl : MonoLibm l) (g a b c d x y : F64) (hg : FinNonneg g) (ha : FinPos a)
    (hb : FinPos b) (hc : Finite c) (hd : Finite d) (hx0 : F64.le (F64.ofRat 0) x = true)
    (harg : F64.lt (F64.ofRat 0) (F64.add (F64.mul b (l.powf x g)) c) = true)
    (h : F64.le x y = true) : Ordered l 7 [g, a, b, c, d] x y := by
  refine ⟨f7 (F64.ops l) g a b c d x, f7 (F64.ops l) g a b c d y, rfl, rfl, ?_⟩
  obtain ⟨qa, ea, pa⟩ := ha.val
  obtain ⟨qb, eb, pb⟩ := hb.val
  obtain ⟨qc, ec⟩ := fin_val hc
  obtain ⟨qd, ed⟩ := fin_val hd
  have hlin : F64.le (F64.add (F64.mul b (l.powf x g)) c) (F64.add (F64.mul b (l.powf y g)) c) = true := by
    refine F64.add_mono ?_ ec
    rw [F64.mul_comm b, F64.mul_comm b]
    exact F64.mul_mono_pos (hl.pow_base _ _ _ hx0 h hg.2) eb pb
  show F64.le (if F64.le (F64.add (F64.mul b (l.powf x g)) c) (F64.ofRat 0) = true then d else
      F64.add (F64.mul a (l.log10 (F64.add (F64.mul b (l.powf x g)) c))) d)
    (if F64.le (F64.add (F64.mul b (l.powf y g)) c) (F64.ofRat 0) = true then d else
      F64.add (F64.mul a (l.log10 (F64.add (F64.mul b (l.powf y g)) c))) d) = true
  generalize F64.add (F64.mul b (l.powf x g)) c = u at *
  generalize F64.add (F64.mul b (l.powf y g)) c = v at *
  have hnle : ∀ w, F64.lt (F64.ofRat 0) w = true → ¬ F64.le w (F64.ofRat 0) = true := by
    intro w hw hc
    have := F64.lt_of_lt_of_le hw hc
    rw [F64.lt_val val_zero val_zero] at this
    exact lt_irrefl _ this
  rw [if_neg (hnle u harg), if_neg (hnle v (F64.lt_of_lt_of_le harg hlin))]
  refine F64.add_mono ?_ ed
  rw [F64.mul_comm a, F64.mul_comm a]
  exact F64.mul_mono_pos (hl.log_mono _ _ harg hlin) ea pa

/-- Type 8 with a base of at least one. -/
theorem C103_type8 (l : Libm) (hl : MonoLibm l) (a b c d e x y : F64) (ha : FinPos a)
    (hb : F64.le (F64.ofRat 1) b = true) (hc : FinNonneg c) (hd : Finite d) (he : Finite e) (hx : Finite x)
    (hy : Finite y) (h : F64.le x y = true) : Ordered l 8 [a, b, c, d, e] x y := by
  refine ⟨f8 (F64.ops l) a b c d e x, f8 (F64.ops l) a b c d e y, rfl, rfl, ?_⟩
  obtain ⟨qa, ea, pa⟩ := ha.val
  obtain ⟨qe, ee⟩ := fin_val he
  show F64.le (F64.add (F64.mul a (l.powf b (F64.add (F64.mul c x) d))) e)
    (F64.add (F64.mul a (l.powf b (F64.add (F64.mul c y) d))) e) = true
  refine F64.add_mono ?_ ee
  rw [F64.mul_comm a, F64.mul_comm a]
  exact F64.mul_mono_pos (hl.pow_exponent _ _ _ hb (lin_mono hc hd hx hy h)) ea pa

theorem one_sub_nonneg {u : F64} (h : F64.le u (F64.ofRat 1) = true) :
    F64.le (F64.ofRat 0) (F64.sub (F64.ofRat 1) u) = true := by
  have h1 := F64.sub_anti h val_one
  have e : F64.sub (F64.ofRat 1) (F64.ofRat 1) = F64.ofRat 0 := by decide +kernel
  rwa [e] at h1

theorem one_sub_le {u : F64} (h : F64.le (F64.ofRat 0) u = true) :
    F64.le (F64.sub (F64.ofRat 1) u) (F64.ofRat 1) = true := by
  have h1 := F64.sub_anti h val_one
  have e : F64.sub (F64.ofRat 1) (F64.ofRat 0) = F64.ofRat 1 := by decide +kernel
  rwa [e] at h1

theorem pow_le_one {l : Libm} (hl : MonoLibm l) {u g : F64} (h0 : F64.le (F64.ofRat 0) u = true)
    (h1 : F64.le u (F64.ofRat 1) = true) (hg : F64.le (F64.ofRat 0) g = true) :
    F64.le (l.powf u g) (F64.ofRat 1) = true := by
  have := hl.pow_base _ _ _ h0 h1 hg
  rwa [hl.pow_one g hg] at this

/-- Type 108 on the unit interval. -/
theorem C103_type108 (l : Libm) (hl : MonoLibm l) (g x y : F64) (hg : FinPos g)
    (hx0 : F64.le (F64.ofRat 0) x = true) (hy1 : F64.le y (F64.ofRat 1) = true) (h : F64.le x y = true) :
    Ordered l 108 [g] x y := by
  refine ⟨f108 (F64.ops l) g x, f108 (F64.ops l) g y, rfl, rfl, ?_⟩
  unfold f108
  split
  · exact zero_le_zero
  · have hi := recip_nonneg hg
    show F64.le
      (l.powf (F64.sub (F64.ofRat 1) (l.powf (F64.sub (F64.ofRat 1) x) (F64.div (F64.ofRat 1) g)))
        (F64.div (F64.ofRat 1) g))
      (l.powf (F64.sub (F64.ofRat 1) (l.powf (F64.sub (F64.ofRat 1) y) (F64.div (F64.ofRat 1) g)))
        (F64.div (F64.ofRat 1) g)) = true
    generalize F64.div (F64.ofRat 1) g = i at *
    have hx1 := F64.le_trans h hy1
    have hsub := F64.sub_anti h val_one
    have hp := hl.pow_base _ _ _ (one_sub_nonneg hy1) hsub hi
    refine hl.pow_base _ _ _ (one_sub_nonneg ?_) (F64.sub_anti hp val_one) hi
    exact pow_le_one hl (one_sub_nonneg hx1) (one_sub_le hx0) hi

/-- Type −108 on the unit interval. -/
theorem C103_type108_inverse (l : Libm) (hl : MonoLibm l) (g x y : F64) (hg : FinNonneg g)
    (hx0 : F64.le (F64.ofRat 0) x = true) (hy1 : F64.le y (F64.ofRat 1) = true) (h : F64.le x y = true) :
    Ordered l (-108) [g] x y := by
  refine ⟨g108 (F64.ops l) g x, g108 (F64.ops l) g y, rfl, rfl, ?_⟩
  show F64.le (F64.sub (F64.ofRat 1) (l.powf (F64.sub (F64.ofRat 1) (l.powf x g)) g))
    (F64.sub (F64.ofRat 1) (l.powf (F64.sub (F64.ofRat 1) (l.powf y g)) g)) = true
  have hp := hl.pow_base _ _ _ hx0 h hg.2
  have hy0 := F64.le_trans hx0 h
  have hs := F64.sub_anti hp val_one
  refine F64.sub_anti (hl.pow_base _ _ _ (one_sub_nonneg ?_) hs hg.2) val_one
  exact pow_le_one hl hy0 hy1 hg.2

/-- Type −1. -/
theorem C103_type1_inverse (l : Libm) (hl : MonoLibm l) (g x y : F64) (hg : FinPos g) (h : F64.le x y = true) :
    Ordered l (-1) [g] x y := by
  refine ⟨g1 (F64.ops l) g x, g1 (F64.ops l) g y, rfl, rfl, ?_⟩
  have hx := (F64.le_nn h).1
  have hy := (F64.le_nn h).2
  have hi := recip_nonneg hg
  have hbig : F64.le (F64.ofRat 0) (F64.ofRat (10 ^ 22)) = true := by decide +kernel
  have e : ∀ z, g1 (F64.ops l) g z = if F64.lt z (F64.ofRat 0) = true then
      if F64.lt (F64.abs (F64.sub g (F64.ofRat 1))) (F64.ofRat tolerance) = true then z else F64.ofRat 0
      else if tiny (F64.ops l) g = true then F64.ofRat (10 ^ 22)
      else l.powf z (F64.div (F64.ofRat 1) g) := fun _ => rfl
  rw [e, e]
  by_cases hy0 : F64.lt y (F64.ofRat 0) = true
  · rw [if_pos hy0, if_pos (F64.lt_of_le_of_lt h hy0)]
    split
    · exact h
    · exact zero_le_zero
  · rw [if_neg hy0]
    have hy1 := F64.le_of_not_lt hy zero_nn hy0
    have hpos : F64.le (F64.ofRat 0) (if tiny (F64.ops l) g = true then F64.ofRat (10 ^ 22)
        else l.powf y (F64.div (F64.ofRat 1) g)) = true := by
      split
      · exact hbig
      · exact hl.pow_nonneg _ _ hy1 (F64.le_nn hi).2
    by_cases hx0 : F64.lt x (F64.ofRat 0) = true
    · rw [if_pos hx0]
      split
      · exact F64.le_trans (F64.le_of_lt hx0) hpos
      · exact hpos
    · rw [if_neg hx0]
      split
      · exact F64.le_refl (F64.le_nn hbig).2
      · exact hl.pow_base _ _ _ (F64.le_of_not_lt hx zero_nn hx0) h hi

/-- Type −2 with a positive slope. -/
theorem C103_type2_inverse (l : Libm) (hl : MonoLibm l) (g a b x y : F64) (hg : FinPos g) (ha : FinPos a)
    (hb : Finite b) (h : F64.le x y = true) : Ordered l (-2) [g, a, b] x y := by
  refine ⟨g2 (F64.ops l) g a b x, g2 (F64.ops l) g a b y, rfl, rfl, ?_⟩
  have hx := (F64.le_nn h).1
  have hy := (F64.le_nn h).2
  have hi := recip_nonneg hg
  obtain ⟨qa, ea, pa⟩ := ha.val
  obtain ⟨qb, eb⟩ := fin_val hb
  have e : ∀ z, g2 (F64.ops l) g a b z = if (tiny (F64.ops l) g || tiny (F64.ops l) a) = true then F64.ofRat 0
      else if F64.lt (if F64.lt z (F64.ofRat 0) = true then F64.ofRat 0
          else F64.div (F64.sub (l.powf z (F64.div (F64.ofRat 1) g)) b) a) (F64.ofRat 0) = true then F64.ofRat 0
        else if F64.lt z (F64.ofRat 0) = true then F64.ofRat 0
          else F64.div (F64.sub (l.powf z (F64.div (F64.ofRat 1) g)) b) a := fun _ => rfl
  rw [e, e]
  have hnneg : ∀ w : F64, w ≠ .nan → F64.le (F64.ofRat 0) (if F64.lt w (F64.ofRat 0) = true then F64.ofRat 0 else w)
      = true := by
    intro w hw
    split
    · exact zero_le_zero
    · rename_i h1
      exact F64.le_of_not_lt hw zero_nn h1
  have hz0 : ¬ F64.lt (F64.ofRat 0) (F64.ofRat 0) = true := by decide +kernel
  split
  · exact zero_le_zero
  · by_cases hx0 : F64.lt x (F64.ofRat 0) = true
    · rw [if_pos hx0, if_neg hz0]
      refine hnneg _ ?_
      split
      · exact zero_nn
      · rename_i h1
        have h2 := F64.le_of_not_lt hy zero_nn h1
        have h3 := F64.le_refl (F64.le_nn (hl.pow_nonneg _ (F64.div (F64.ofRat 1) g) h2 (F64.le_nn hi).2)).2
        exact (F64.le_nn (F64.div_mono (F64.sub_mono h3 eb) ea pa)).2
    · have hy0 : ¬ F64.lt y (F64.ofRat 0) = true := fun hc => hx0 (F64.lt_of_le_of_lt h hc)
      rw [if_neg hx0, if_neg hy0]
      have hp := hl.pow_base _ _ _ (F64.le_of_not_lt hx zero_nn hx0) h hi
      have hd := F64.div_mono (F64.sub_mono hp eb) ea pa
      generalize F64.div (F64.sub (l.powf x (F64.div (F64.ofRat 1) g)) b) a = u at *
      generalize F64.div (F64.sub (l.powf y (F64.div (F64.ofRat 1) g)) b) a = v at *
      by_cases hu : F64.lt u (F64.ofRat 0) = true
      · rw [if_pos hu]
        exact hnneg v (F64.le_nn hd).2
      · rw [if_neg hu, if_neg (fun hc => hu (F64.lt_of_le_of_lt hd hc))]
        exact hd

/-- Type −4 with positive slopes and a positive argument at the joint, if the segment computed at the value of the
joint does not exceed the other branch there. -/
theorem C103_type4_inverse (l : Libm) (hl : MonoLibm l) (g a b c d x y : F64) (hg : FinPos g) (ha : FinPos a)
    (hb : Finite b) (hc : FinPos c) (hpos : F64.lt (F64.ofRat 0) (F64.add (F64.mul a d) b) = true)
    (hbig : tiny (F64.ops l) g = false ∧ tiny (F64.ops l) a = false ∧ tiny (F64.ops l) c = false)
    (hj : ∀ j v, eval (F64.ops l) 4 [g, a, b, c, d] d = some j →
      eval (F64.ops l) (-4) [g, a, b, c, d] j = some v → F64.le (F64.div j c) v = true)
    (h : F64.le x y = true) : Ordered l (-4) [g, a, b, c, d] x y := by
  refine ⟨g4 (F64.ops l) g a b c d x, g4 (F64.ops l) g a b c d y, rfl, rfl, ?_⟩
  obtain ⟨qa, ea, pa⟩ := ha.val
  obtain ⟨qb, eb⟩ := fin_val hb
  obtain ⟨qc, ec, pc⟩ := hc.val
  obtain ⟨hbg, hba, hbc⟩ := hbig
  have hx := (F64.le_nn h).1
  have hi := recip_nonneg hg
  have hor : (tiny (F64.ops l) g || tiny (F64.ops l) a) = false := by rw [hbg, hba]; rfl
  have hn : F64.lt (F64.add (F64.mul a d) b) (F64.ofRat 0) = false := by
    by_contra hc
    have := F64.lt_of_lt_of_le hpos (F64.le_of_lt (by simpa using hc))
    rw [F64.lt_val val_zero val_zero] at this
    exact lt_irrefl _ this
  have hJ0 := hl.pow_nonneg _ g (F64.le_of_lt hpos) (fin_nn hg.1)
  have eq : ∀ z, g4 (F64.ops l) g a b c d z = if F64.le (l.powf (F64.add (F64.mul a d) b) g) z = true then
      F64.div (F64.sub (l.powf z (F64.div (F64.ofRat 1) g)) b) a else F64.div z c := by
    intro z
    unfold g4
    simp only [F64.ops, hn, Bool.false_eq_true, if_false]
    simp only [F64.ops] at hor hbc
    simp only [hor, hbc, Bool.false_eq_true, if_false]
  have hd : d ≠ .nan := by
    rintro rfl
    obtain ⟨s, m, k, rfl⟩ := ha.1
    revert hpos
    rw [ofRat0]
    exact nofun
  have ef : f4 (F64.ops l) g a b c d d = l.powf (F64.add (F64.mul a d) b) g := by
    have h1 : F64.le d d = true := F64.le_refl hd
    unfold f4
    simp only [F64.ops, h1, hpos, if_true]
  have hj' := hj _ _ (show eval (F64.ops l) 4 [g, a, b, c, d] d = some _ from congrArg some ef)
    (show eval (F64.ops l) (-4) [g, a, b, c, d] _ = some _ from rfl)
  change F64.le _ (g4 (F64.ops l) g a b c d _) = true at hj'
  have hJJ := F64.le_refl (F64.le_nn hJ0).2
  rw [eq, if_pos hJJ] at hj'
  rw [eq, eq]
  generalize l.powf (F64.add (F64.mul a d) b) g = J at *
  have hroot : ∀ u v, F64.le (F64.ofRat 0) u = true → F64.le u v = true →
      F64.le (F64.div (F64.sub (l.powf u (F64.div (F64.ofRat 1) g)) b) a)
        (F64.div (F64.sub (l.powf v (F64.div (F64.ofRat 1) g)) b) a) = true := fun u v h0 huv =>
    F64.div_mono (F64.sub_mono (hl.pow_base _ _ _ h0 huv hi) eb) ea pa
  by_cases h1 : F64.le J x = true
  · rw [if_pos h1, if_pos (F64.le_trans h1 h)]
    exact hroot _ _ (F64.le_trans hJ0 h1) h
  · rw [if_neg h1]
    have hxJ := F64.le_of_lt (F64.lt_of_not_le (F64.le_nn hJ0).2 hx h1)
    by_cases h2 : F64.le J y = true
    · rw [if_pos h2]
      exact F64.le_trans (F64.le_trans (F64.div_mono hxJ ec pc) hj') (hroot _ _ hJ0 h2)
    · rw [if_neg h2]
      exact F64.div_mono h ec pc

/-- Type −5 with positive slopes, if at the value of the joint (as the inverse computes it) the root is taken of a
number that is not negative and the segment does not exceed the other branch. -/
theorem C103_type5_inverse (l : Libm) (hl : MonoLibm l) (g a b c d e f x y : F64) (hg : FinPos g) (ha : FinPos a)
    (hb : Finite b) (hc : FinPos c) (hd : Finite d) (he : Finite e) (hf : Finite f)
    (hbig : tiny (F64.ops l) g = false ∧ tiny (F64.ops l) a = false ∧ tiny (F64.ops l) c = false)
    (hpos : F64.le (F64.ofRat 0) (F64.sub (F64.add (F64.mul c d) f) e) = true)
    (hj : ∀ v, eval (F64.ops l) (-5) [g, a, b, c, d, e, f] (F64.add (F64.mul c d) f) = some v →
      F64.le (F64.div (F64.sub (F64.add (F64.mul c d) f) f) c) v = true)
    (h : F64.le x y = true) : Ordered l (-5) [g, a, b, c, d, e, f] x y := by
  refine ⟨g5 (F64.ops l) g a b c d e f x, g5 (F64.ops l) g a b c d e f y, rfl, rfl, ?_⟩
  obtain ⟨qa, ea, pa⟩ := ha.val
  obtain ⟨qb, eb⟩ := fin_val hb
  obtain ⟨qc, ec, pc⟩ := hc.val
  obtain ⟨qe, ee⟩ := fin_val he
  obtain ⟨qf, ef⟩ := fin_val hf
  obtain ⟨hbg, hba, hbc⟩ := hbig
  have hx := (F64.le_nn h).1
  have hi := recip_nonneg hg
  have hJn : F64.add (F64.mul c d) f ≠ .nan := add_nn (mul_nn hc.1 hd) hf
  have hor : (tiny (F64.ops l) g || tiny (F64.ops l) a) = false := by rw [hbg, hba]; rfl
  have eq : ∀ z, g5 (F64.ops l) g a b c d e f z = if F64.le (F64.add (F64.mul c d) f) z = true then
      F64.div (F64.sub (l.powf (F64.sub z e) (F64.div (F64.ofRat 1) g)) b) a
      else F64.div (F64.sub z f) c := by
    intro z
    by_cases hz : F64.le (F64.add (F64.mul c d) f) z = true
    · have h0 := F64.le_trans hpos (F64.sub_mono hz ee)
      have hn : F64.lt (F64.sub z e) (F64.ofRat 0) = false := by
        by_contra hc
        have := F64.lt_of_le_of_lt h0 (by simpa using hc)
        rw [F64.lt_val val_zero val_zero] at this
        exact lt_irrefl _ this
      unfold g5
      simp only [F64.ops] at hor hbc
      simp only [F64.ops, hz, hn, hor, Bool.false_eq_true, if_false, if_true]
    · rw [if_neg hz]
      have hz' : F64.le (F64.add (F64.mul c d) f) z = false := by simpa using hz
      unfold g5
      simp only [F64.ops] at hbc
      simp only [F64.ops, hz', hbc, Bool.false_eq_true, if_false]
  have hj' : F64.le _ (g5 (F64.ops l) g a b c d e f _) = true := hj _ rfl
  have hJJ := F64.le_refl hJn
  rw [eq, if_pos hJJ] at hj'
  rw [eq, eq]
  generalize F64.add (F64.mul c d) f = J at *
  have hroot : ∀ u v, F64.le J u = true → F64.le u v = true →
      F64.le (F64.div (F64.sub (l.powf (F64.sub u e) (F64.div (F64.ofRat 1) g)) b) a)
        (F64.div (F64.sub (l.powf (F64.sub v e) (F64.div (F64.ofRat 1) g)) b) a) = true := fun u v h0 huv =>
    F64.div_mono (F64.sub_mono (hl.pow_base _ _ _ (F64.le_trans hpos (F64.sub_mono h0 ee)) (F64.sub_mono huv ee) hi)
      eb) ea pa
  by_cases h1 : F64.le J x = true
  · rw [if_pos h1, if_pos (F64.le_trans h1 h)]
    exact hroot _ _ h1 h
  · rw [if_neg h1]
    have hxJ := F64.le_of_lt (F64.lt_of_not_le hJn hx h1)
    by_cases h2 : F64.le J y = true
    · rw [if_pos h2]
      exact F64.le_trans (F64.le_trans (F64.div_mono (F64.sub_mono hxJ ef) ec pc) hj') (hroot _ _ hJJ h2)
    · rw [if_neg h2]
      exact F64.div_mono (F64.sub_mono h ef) ec pc

/-- Type −6 with a positive slope and no positive offset. -/
theorem C103_type6_inverse (l : Libm) (hl : MonoLibm l) (g a b c x y : F64) (hg : FinPos g) (ha : FinPos a)
    (hb : Finite b) (hb0 : F64.le b (F64.ofRat 0) = true) (hc : Finite c) (h : F64.le x y = true) :
    Ordered l (-6) [g, a, b, c] x y := by
  refine ⟨g6 (F64.ops l) g a b c x, g6 (F64.ops l) g a b c y, rfl, rfl, ?_⟩
  obtain ⟨qa, ea, pa⟩ := ha.val
  obtain ⟨qb, eb⟩ := fin_val hb
  obtain ⟨qc, ec⟩ := fin_val hc
  have hqb : qb ≤ 0 := (F64.le_val eb val_zero).mp hb0
  have hi := recip_nonneg hg
  have hsub := F64.sub_mono h ec
  have e : ∀ z, g6 (F64.ops l) g a b c z = if tiny (F64.ops l) a = true then F64.ofRat 0
      else if F64.lt (F64.sub z c) (F64.ofRat 0) = true then F64.ofRat 0
      else F64.div (F64.sub (l.powf (F64.sub z c) (F64.div (F64.ofRat 1) g)) b) a := fun _ => rfl
  rw [e, e]
  generalize F64.sub x c = u at *
  generalize F64.sub y c = v at *
  split
  · exact zero_le_zero
  · by_cases h1 : F64.lt v (F64.ofRat 0) = true
    · rw [if_pos h1, if_pos (F64.lt_of_le_of_lt hsub h1)]
      exact zero_le_zero
    · rw [if_neg h1]
      have hv := F64.le_of_not_lt (F64.le_nn hsub).2 zero_nn h1
      split
      · -- (0 - b) / a is not negative
        have h2 := F64.div_mono (F64.sub_mono (hl.pow_nonneg _ _ hv (F64.le_nn hi).2) eb) ea pa
        refine F64.le_trans ?_ h2
        have h3 : F64.val (F64.sub (F64.ofRat 0) b) = some (-qb) := by
          have hr : F64.SRep (-qb) := F64.srep_of_val (F64.val_neg eb)
          have := F64.add_exact val_zero (F64.val_neg eb) (by rwa [zero_add])
            (by rw [zero_add]; exact F64.abs_val_lt (F64.val_neg eb))
          rwa [zero_add] at this
        exact F64.le_of_rd zero_rd (F64.div_rd h3 ea pa.ne') (div_nonneg (by linarith) pa.le)
      · rename_i h2
        exact F64.div_mono (F64.sub_mono
          (hl.pow_base _ _ _ (F64.le_of_not_lt (F64.le_nn hsub).1 zero_nn h2) hsub hi) eb) ea pa

/-- Type −7 with positive parameters, from the first argument on at which the root is taken of a number that is
not negative. -/
theorem C103_type7_inverse (l : Libm) (hl : MonoLibm l) (g a b c d x y : F64) (hg : FinPos g) (ha : FinPos a)
    (hb : FinPos b) (hc : Finite c) (hd : Finite d)
    (harg : F64.le (F64.ofRat 0) (F64.div (F64.sub (l.powf (F64.ofRat 10) (F64.div (F64.sub x d) a)) c) b) = true)
    (h : F64.le x y = true) : Ordered l (-7) [g, a, b, c, d] x y := by
  refine ⟨g7 (F64.ops l) g a b c d x, g7 (F64.ops l) g a b c d y, rfl, rfl, ?_⟩
  obtain ⟨qa, ea, pa⟩ := ha.val
  obtain ⟨qb, eb, pb⟩ := hb.val
  obtain ⟨qc, ec⟩ := fin_val hc
  obtain ⟨qd, ed⟩ := fin_val hd
  have h10 : F64.le (F64.ofRat 1) (F64.ofRat 10) = true := by decide +kernel
  unfold g7
  split
  · exact zero_le_zero
  · exact hl.pow_base _ _ _ harg (F64.div_mono (F64.sub_mono (hl.pow_exponent _ _ _ h10
      (F64.div_mono (F64.sub_mono h ed) ea pa)) ec) eb pb) (recip_nonneg hg)

/-- Type −8 with positive factors and a base whose logarithm is positive, from the first argument on at which the
logarithm is taken of a positive number. -/
theorem C103_type8_inverse (l : Libm) (hl : MonoLibm l) (a b c d e x y : F64) (ha : FinPos a)
    (hb : FinPos (l.log10 b)) (hc : FinPos c) (hd : Finite d) (he : Finite e)
    (harg : F64.lt (F64.ofRat 0) (F64.div (F64.sub x e) a) = true)
    (h : F64.le x y = true) : Ordered l (-8) [a, b, c, d, e] x y := by
  refine ⟨g8 (F64.ops l) a b c d e x, g8 (F64.ops l) a b c d e y, rfl, rfl, ?_⟩
  obtain ⟨qa, ea, pa⟩ := ha.val
  obtain ⟨qb, eb, pb⟩ := hb.val
  obtain ⟨qc, ec, pc⟩ := hc.val
  obtain ⟨qd, ed⟩ := fin_val hd
  obtain ⟨qe, ee⟩ := fin_val he
  have hsub := F64.sub_mono h ee
  have hlog := F64.div_mono (F64.sub_mono (F64.div_mono (hl.log_mono _ _ harg (F64.div_mono hsub ea pa)) eb pb) ed)
    ec pc
  have hz : F64.div (F64.ofRat 0) a ≠ .nan := (F64.div_rd val_zero ea pa.ne').nn
  have hnlt : ∀ z, F64.le (F64.sub x e) z = true → ¬ F64.lt z (F64.ofRat 0) = true := by
    intro z hz hc
    have h1 := F64.div_mono (F64.le_of_lt (F64.lt_of_le_of_lt hz hc)) ea pa
    have h2 : F64.le (F64.div (F64.ofRat 0) a) (F64.ofRat 0) = true :=
      F64.le_of_rd (F64.div_rd val_zero ea pa.ne') zero_rd (by rw [zero_div])
    have := F64.lt_of_lt_of_le harg (F64.le_trans h1 h2)
    rw [F64.lt_val val_zero val_zero] at this
    exact lt_irrefl _ this
  have eq : ∀ z, F64.le (F64.sub x e) (F64.sub z e) = true → g8 (F64.ops l) a b c d e z =
      if (tiny (F64.ops l) a || tiny (F64.ops l) c) = true then F64.ofRat 0
      else F64.div (F64.sub (F64.div (l.log10 (F64.div (F64.sub z e) a)) (l.log10 b)) d) c := by
    intro z hz
    have h0 : F64.lt (F64.sub z e) (F64.ofRat 0) = false := by simpa using hnlt _ hz
    unfold g8
    simp only [F64.ops, h0, Bool.false_eq_true, if_false]
  rw [eq x (F64.le_refl (F64.le_nn hsub).1), eq y hsub]
  split
  · exact zero_le_zero
  · exact hlog

/-! ### The sigmoid -/

/-- The inner sigmoid is monotone and lies between -1/2 and 1/2. -/
theorem base_mono {l : Libm} (hl : MonoLibm l) {k s t : F64} (hk : FinPos k) (h : F64.le s t = true) :
    F64.le (sigmoidBase (F64.ops l) k s) (sigmoidBase (F64.ops l) k t) = true ∧
    F64.le (F64.neg (F64.ofRat (1 / 2))) (sigmoidBase (F64.ops l) k s) = true ∧
    F64.le (sigmoidBase (F64.ops l) k t) (F64.ofRat (1 / 2)) = true := by
  obtain ⟨qk, ek, pk⟩ := hk.val
  have h1 : F64.le (F64.mul (F64.neg k) t) (F64.mul (F64.neg k) s) = true := by
    rw [F64.neg_mul, F64.neg_mul, F64.mul_comm k, F64.mul_comm k]
    exact F64.neg_anti (F64.mul_mono_pos h ek pk)
  have key : ∀ u v, F64.le v u = true →
      F64.le (F64.sub (F64.div (F64.ofRat 1) (F64.add (F64.ofRat 1) (l.exp u))) (F64.ofRat (1 / 2)))
        (F64.sub (F64.div (F64.ofRat 1) (F64.add (F64.ofRat 1) (l.exp v))) (F64.ofRat (1 / 2))) = true ∧
      F64.le (F64.neg (F64.ofRat (1 / 2)))
        (F64.sub (F64.div (F64.ofRat 1) (F64.add (F64.ofRat 1) (l.exp u))) (F64.ofRat (1 / 2))) = true ∧
      F64.le (F64.sub (F64.div (F64.ofRat 1) (F64.add (F64.ofRat 1) (l.exp v))) (F64.ofRat (1 / 2)))
        (F64.ofRat (1 / 2)) = true := by
    intro u v huv
    have hv := (F64.le_nn huv).1
    have hden : ∀ w, w ≠ F64.nan → F64.le (F64.ofRat 1) (F64.add (F64.ofRat 1) (l.exp w)) = true := by
      intro w hw
      have := F64.add_mono (hl.exp_nonneg w hw) val_one
      have e : F64.add (F64.ofRat 0) (F64.ofRat 1) = F64.ofRat 1 := by decide +kernel
      rw [e] at this
      rwa [F64.add_comm]
    have hden2 : F64.le (F64.add (F64.ofRat 1) (l.exp v)) (F64.add (F64.ofRat 1) (l.exp u)) = true := by
      rw [F64.add_comm (F64.ofRat 1), F64.add_comm (F64.ofRat 1)]
      exact F64.add_mono (hl.exp_mono _ _ huv) val_one
    have hu' := hden u (F64.le_nn huv).2
    have hv' := hden v hv
    have hq1 : F64.le (F64.div (F64.ofRat 1) (F64.add (F64.ofRat 1) (l.exp v))) (F64.ofRat 1) = true := by
      have := F64.div_anti val_one (by norm_num) hv' val_one (by norm_num)
      have e : F64.div (F64.ofRat 1) (F64.ofRat 1) = F64.ofRat 1 := by decide +kernel
      rwa [e] at this
    have hq0 : F64.le (F64.ofRat 0) (F64.div (F64.ofRat 1) (F64.add (F64.ofRat 1) (l.exp u))) = true := by
      have := F64.div_anti val_one (by norm_num) hu' val_zero (le_refl _)
      have h0 : ∀ w, F64.le (F64.ofRat 1) w = true →
          F64.le (F64.ofRat 0) (F64.div (F64.ofRat 1) w) = true := by
        intro w hw
        have hw2 := F64.div_anti val_one (by norm_num) (F64.le_top (F64.le_nn hw).2 |> fun z => F64.le_trans hw z)
          val_one (by norm_num)
        by_cases hinf : w = F64.inf false
        · rw [hinf]; decide +kernel
        · obtain ⟨q, hq⟩ := F64.exists_val (F64.le_nn hw).2 (fun s => by
            cases s with
            | false => exact hinf
            | true =>
              intro hc
              rw [hc] at hw
              revert hw
              decide +kernel)
          have hq1 := (F64.le_val val_one hq).mp hw
          have hz : F64.IsRd (F64.ofRat 0) 0 := by
            left
            rw [val_zero]
            have : F64.rq 0 = 0 := le_antisymm (F64.rq_nonpos (le_refl _)) (F64.rq_nonneg (le_refl _))
            rw [this]
          exact F64.le_of_rd hz (F64.div_rd val_one hq (by linarith)) (by positivity)
      exact h0 _ hu'
    have hmono : F64.le (F64.div (F64.ofRat 1) (F64.add (F64.ofRat 1) (l.exp u)))
        (F64.div (F64.ofRat 1) (F64.add (F64.ofRat 1) (l.exp v))) = true := by
      by_cases hinf : F64.add (F64.ofRat 1) (l.exp v) = F64.inf false
      · have : F64.add (F64.ofRat 1) (l.exp u) = F64.inf false := by
          rw [hinf] at hden2
          cases hw : F64.add (F64.ofRat 1) (l.exp u) with
          | nan => rw [hw] at hden2; cases hden2
          | inf s => cases s with
            | false => rfl
            | true => rw [hw] at hden2; cases hden2
          | fin _ _ _ => rw [hw] at hden2; cases hden2
        rw [hinf, this]
        decide +kernel
      · obtain ⟨q, hq⟩ := F64.exists_val (F64.le_nn hv').2 (fun s => by
          cases s with
          | false => exact hinf
          | true =>
            intro hc
            rw [hc] at hv'
            revert hv'
            decide +kernel)
        have hq1 := (F64.le_val val_one hq).mp hv'
        exact F64.div_anti hq (by linarith) hden2 val_one (by norm_num)
    refine ⟨F64.sub_mono hmono val_half, ?_, ?_⟩
    · have := F64.sub_mono hq0 val_half
      have e : F64.sub (F64.ofRat 0) (F64.ofRat (1 / 2)) = F64.neg (F64.ofRat (1 / 2)) := by decide +kernel
      rwa [e] at this
    · have := F64.sub_mono hq1 val_half
      have e : F64.sub (F64.ofRat 1) (F64.ofRat (1 / 2)) = F64.ofRat (1 / 2) := by decide +kernel
      rwa [e] at this
  exact key _ _ h1

/-- If the sigmoid is finite at one, the base there is a positive number up to a half and the correction is a number. -/
theorem sigmoid_parts {l : Libm} (hl : MonoLibm l) {k : F64} (hk : FinPos k)
    (hfin' : Finite (F64.add (F64.mul (F64.div (F64.ofRat (1 / 2)) (sigmoidBase (F64.ops l) k (F64.ofRat 1)))
      (sigmoidBase (F64.ops l) k (F64.ofRat 1))) (F64.ofRat (1 / 2)))) :
    ∃ c b, F64.val (F64.div (F64.ofRat (1 / 2)) (sigmoidBase (F64.ops l) k (F64.ofRat 1))) = some c ∧
      F64.val (sigmoidBase (F64.ops l) k (F64.ofRat 1)) = some b ∧ 0 < b ∧ b ≤ 1 / 2 ∧ 0 ≤ c := by
  -- the base at one is not negative
  have hone : F64.le (F64.ofRat 0) (sigmoidBase (F64.ops l) k (F64.ofRat 1)) = true := by
    have h0 : F64.le (F64.ofRat 0) (F64.ofRat 1) = true := by decide +kernel
    obtain ⟨qk, ek, pk⟩ := hk.val
    have hneg : F64.le (F64.mul (F64.neg k) (F64.ofRat 1)) (F64.ofRat 0) = true := by
      have hz : F64.IsRd (F64.ofRat 0) 0 := by
        left
        rw [val_zero]
        have : F64.rq 0 = 0 := le_antisymm (F64.rq_nonpos (le_refl _)) (F64.rq_nonneg (le_refl _))
        rw [this]
      exact F64.le_of_rd (F64.mul_rd (F64.val_neg ek) val_one) hz (by linarith)
    have hexp := hl.exp_nonpos _ hneg
    have hden : F64.le (F64.add (F64.ofRat 1) (l.exp (F64.mul (F64.neg k) (F64.ofRat 1)))) (F64.ofRat 2) = true := by
      have := F64.add_mono hexp val_one
      have e : F64.add (F64.ofRat 1) (F64.ofRat 1) = F64.ofRat 2 := by decide +kernel
      rw [e] at this
      rwa [F64.add_comm]
    have hden1 : F64.le (F64.ofRat 1) (F64.add (F64.ofRat 1) (l.exp (F64.mul (F64.neg k) (F64.ofRat 1)))) = true := by
      have := F64.add_mono (hl.exp_nonneg _ (F64.le_nn hneg).1) val_one
      have e : F64.add (F64.ofRat 0) (F64.ofRat 1) = F64.ofRat 1 := by decide +kernel
      rw [e] at this
      rwa [F64.add_comm]
    obtain ⟨w, ew, hw, -⟩ := F64.val_between val_one val_two hden1 hden
    have hdiv := F64.div_anti ew (by linarith) hden val_one (by norm_num)
    have e : F64.div (F64.ofRat 1) (F64.ofRat 2) = F64.ofRat (1 / 2) := by decide +kernel
    rw [e] at hdiv
    have := F64.sub_mono hdiv val_half
    have e : F64.sub (F64.ofRat (1 / 2)) (F64.ofRat (1 / 2)) = F64.ofRat 0 := by decide +kernel
    rw [e] at this
    exact this
  obtain ⟨-, -, hhi1⟩ := base_mono hl hk (F64.le_refl (F64.le_nn (show F64.le (F64.ofRat 0) (F64.ofRat 1) = true by
    decide +kernel)).2)
  obtain ⟨b1, eb1, hb0, hbh⟩ := F64.val_between val_zero val_half hone hhi1
  -- so it is positive and the correction is finite
  generalize sigmoidBase (F64.ops l) k (F64.ofRat 1) = B at *
  rcases eq_or_lt_of_le hb0 with h0 | h0
  · exfalso
    obtain ⟨s, m, j, rfl, hv⟩ := F64.val_eq_some eb1
    have hm : m.val = 0 := by
      by_contra hne
      have hpos : 0 < F64.magVal m j := by
        have : (0 : ℚ) < (m.val : ℚ) := by exact_mod_cast Nat.pos_of_ne_zero hne
        unfold F64.magVal
        positivity
      cases s <;> simp at hv <;> linarith
    have hh : F64.ofRat (1 / 2) = .fin false ⟨2 ^ 52, by decide⟩ ⟨1021, by decide⟩ := by decide +kernel
    have hd : F64.div (F64.ofRat (1 / 2)) (F64.fin s m j) = F64.inf (false != s) := by
      rw [hh]
      unfold F64.div
      simp only
      rw [if_pos hm, if_neg (by decide)]
    rw [hd] at hfin'
    have hmul : F64.mul (F64.inf (false != s)) (F64.fin s m j) = F64.nan := by
      simp [F64.mul, F64.isZero, hm]
    rw [hmul] at hfin'
    obtain ⟨_, _, _, h⟩ := hfin'
    cases h
  · rcases F64.div_rd val_half eb1 h0.ne' with h1 | ⟨s, h1, -, -⟩
    · exact ⟨_, _, h1, eb1, h0, hbh, F64.rq_nonneg (by positivity)⟩
    · exfalso
      rw [h1] at hfin'
      obtain ⟨m, j, rfl, hm⟩ := F64.pos_fin eb1 h0
      have hmul : F64.mul (F64.inf s) (F64.fin false m j) = F64.inf s := by
        simp only [F64.mul, F64.isZero, F64.sign, hm, decide_false, Bool.false_eq_true, if_false]
        cases s <;> rfl
      rw [hmul] at hfin'
      have hh : F64.ofRat (1 / 2) = .fin false ⟨2 ^ 52, by decide⟩ ⟨1021, by decide⟩ := by decide +kernel
      rw [hh] at hfin'
      obtain ⟨_, _, _, h⟩ := hfin'
      cases h

/-- Type 109 with a positive parameter, if the value computed at one is finite. -/
theorem C103_type109 (l : Libm) (hl : MonoLibm l) (k x y : F64) (hk : FinPos k)
    (hfin : ∀ v, eval (F64.ops l) 109 [k] (F64.ofRat 1) = some v → Finite v)
    (h : F64.le x y = true) : Ordered l 109 [k] x y := by
  refine ⟨sigmoidFactory (F64.ops l) k x, sigmoidFactory (F64.ops l) k y, rfl, rfl, ?_⟩
  have hfin' : Finite (sigmoidFactory (F64.ops l) k (F64.ofRat 1)) := hfin _ rfl
  have e : ∀ z, sigmoidFactory (F64.ops l) k z =
      F64.add (F64.mul (F64.div (F64.ofRat (1 / 2)) (sigmoidBase (F64.ops l) k (F64.ofRat 1)))
        (sigmoidBase (F64.ops l) k (F64.sub (F64.mul (F64.ofRat 2) z) (F64.ofRat 1)))) (F64.ofRat (1 / 2)) :=
    fun _ => rfl
  have e1 : F64.sub (F64.mul (F64.ofRat 2) (F64.ofRat 1)) (F64.ofRat 1) = F64.ofRat 1 := by decide +kernel
  rw [e, e1] at hfin'
  rw [e, e]
  have ht : F64.le (F64.sub (F64.mul (F64.ofRat 2) x) (F64.ofRat 1))
      (F64.sub (F64.mul (F64.ofRat 2) y) (F64.ofRat 1)) = true := by
    refine F64.sub_mono ?_ val_one
    rw [F64.mul_comm (F64.ofRat 2), F64.mul_comm (F64.ofRat 2)]
    exact F64.mul_mono_pos h val_two (by norm_num)
  obtain ⟨hb, hlo, hhi⟩ := base_mono hl hk ht
  have hnh : F64.val (F64.neg (F64.ofRat (1 / 2))) = some (-(1 / 2)) := F64.val_neg val_half
  obtain ⟨p, ep, -, -⟩ := F64.val_between hnh val_half hlo (F64.le_trans hb hhi)
  obtain ⟨q, eq, -, -⟩ := F64.val_between hnh val_half (F64.le_trans hlo hb) hhi
  obtain ⟨c, b1, ec, -, -, -, hc⟩ := sigmoid_parts hl hk hfin'
  refine F64.add_mono ?_ val_half
  rw [F64.mul_comm, F64.mul_comm (F64.div _ _)]
  exact F64.mul_mono ep eq ec ((F64.le_val ep eq).mp hb) hc

/-! ### Consequence -/

/-- On an interval on which a curve is ordered, the two computed end values enclose every computed value. -/
theorem C103_enclosed (l : Libm) (type : Int32) (ps : List F64) (a x b u w : F64)
    (h1 : Ordered l type ps a x) (h2 : Ordered l type ps x b)
    (ha : eval (F64.ops l) type ps a = some u) (hb : eval (F64.ops l) type ps b = some w) :
    ∃ v, eval (F64.ops l) type ps x = some v ∧ F64.le u v = true ∧ F64.le v w = true := by
  obtain ⟨u', v, e1, e2, h⟩ := h1
  obtain ⟨v', w', e3, e4, h'⟩ := h2
  rw [ha] at e1
  rw [hb] at e4
  rw [e2] at e3
  cases e1
  cases e4
  cases e3
  exact ⟨v, e2, h, h'⟩

/-! ### The hypotheses are satisfiable, and the ordering is not trivial -/

/-- A crude platform: powers to non-negative exponents are the base itself. -/
def crudeLibm : Libm where
  powf := fun b e => if e = .nan then .nan else if F64.lt e (F64.ofRat 0) = true then F64.ofRat 0 else b
  exp := fun u => if F64.lt u (F64.ofRat 0) = true then F64.ofRat 0
    else if F64.le u (F64.ofRat 0) = true then F64.ofRat 1 else F64.ofRat 2
  log10 := fun u => u

theorem crude_mono : MonoLibm crudeLibm := by
  have h01 : F64.le (F64.ofRat 0) (F64.ofRat 1) = true := by decide +kernel
  have h02 : F64.le (F64.ofRat 0) (F64.ofRat 2) = true := by decide +kernel
  have h12 : F64.le (F64.ofRat 1) (F64.ofRat 2) = true := by decide +kernel
  have h11 : F64.le (F64.ofRat 1) (F64.ofRat 1) = true := by decide +kernel
  have h22 : F64.le (F64.ofRat 2) (F64.ofRat 2) = true := by decide +kernel
  have hnlt : ∀ g, F64.le (F64.ofRat 0) g = true → ¬ F64.lt g (F64.ofRat 0) = true := by
    intro g hg hc
    have := F64.lt_of_le_of_lt hg hc
    rw [F64.lt_val val_zero val_zero] at this
    exact lt_irrefl _ this
  have hpow : ∀ b e, F64.le (F64.ofRat 0) e = true → crudeLibm.powf b e = b := by
    intro b e he
    show (if e = .nan then .nan else if F64.lt e (F64.ofRat 0) = true then F64.ofRat 0 else b) = b
    rw [if_neg (F64.le_nn he).2, if_neg (hnlt e he)]
  have hpow' : ∀ b e, F64.lt e (F64.ofRat 0) = true → crudeLibm.powf b e = F64.ofRat 0 := by
    intro b e he
    show (if e = .nan then .nan else if F64.lt e (F64.ofRat 0) = true then F64.ofRat 0 else b) = F64.ofRat 0
    rw [if_neg (F64.le_nn (F64.le_of_lt he)).1, if_pos he]
  constructor
  · intro u v g h0 huv hg
    rw [hpow _ _ hg, hpow _ _ hg]
    exact huv
  · intro u g h0 hg
    by_cases hlt : F64.lt g (F64.ofRat 0) = true
    · rw [hpow' _ _ hlt]; exact zero_le_zero
    · rw [hpow _ _ (F64.le_of_not_lt hg zero_nn hlt)]; exact h0
  · intro g hg
    exact hpow _ _ hg
  · intro b u v hb huv
    have hb0 := F64.le_trans h01 hb
    by_cases hu : F64.lt u (F64.ofRat 0) = true
    · rw [hpow' _ _ hu]
      by_cases hv : F64.lt v (F64.ofRat 0) = true
      · rw [hpow' _ _ hv]; exact zero_le_zero
      · rw [hpow _ _ (F64.le_of_not_lt (F64.le_nn huv).2 zero_nn hv)]; exact hb0
    · have hu' := F64.le_of_not_lt (F64.le_nn huv).1 zero_nn hu
      rw [hpow _ _ hu', hpow _ _ (F64.le_trans hu' huv)]
      exact F64.le_refl (F64.le_nn hb).2
  · intro u v huv
    show F64.le (if F64.lt u (F64.ofRat 0) = true then F64.ofRat 0
      else if F64.le u (F64.ofRat 0) = true then F64.ofRat 1 else F64.ofRat 2)
      (if F64.lt v (F64.ofRat 0) = true then F64.ofRat 0
      else if F64.le v (F64.ofRat 0) = true then F64.ofRat 1 else F64.ofRat 2) = true
    by_cases hu : F64.lt u (F64.ofRat 0) = true
    · rw [if_pos hu]
      split
      · exact zero_le_zero
      · split <;> assumption
    · rw [if_neg hu, if_neg (fun hc => hu (F64.lt_of_le_of_lt huv hc))]
      by_cases hu2 : F64.le u (F64.ofRat 0) = true
      · rw [if_pos hu2]
        split <;> assumption
      · rw [if_neg hu2, if_neg (fun hc => hu2 (F64.le_trans huv hc))]
        exact h22
  · intro u hu
    show F64.le (F64.ofRat 0) (if F64.lt u (F64.ofRat 0) = true then F64.ofRat 0
      else if F64.le u (F64.ofRat 0) = true then F64.ofRat 1 else F64.ofRat 2) = true
    split
    · exact zero_le_zero
    · split <;> assumption
  · intro u hu
    show F64.le (if F64.lt u (F64.ofRat 0) = true then F64.ofRat 0
      else if F64.le u (F64.ofRat 0) = true then F64.ofRat 1 else F64.ofRat 2) (F64.ofRat 1) = true
    split
    · exact h01
    · exact h11
  · intro u v _ huv
    exact huv

/-- Type 4 with a joint at 1/2 (slope 1/4 below, 2 x - 1/2 above) on that platform: both sides of the joint. -/
example : Ordered crudeLibm 4 [F64.ofRat 1, F64.ofRat 2, F64.ofRat (-1 / 2), F64.ofRat (1 / 4), F64.ofRat (1 / 2)]
    (F64.ofRat (1 / 3)) (F64.ofRat (2 / 3)) := by
  have fin : ∀ q r, F64.val (F64.ofRat q) = some r → Finite (F64.ofRat q) := by
    intro q r h
    obtain ⟨s, m, k, h, -⟩ := F64.val_eq_some h
    exact ⟨s, m, k, h⟩
  refine C103_type4 _ crude_mono _ _ _ _ _ _ _ ⟨one_fin, by decide +kernel⟩ ⟨fin _ _ val_two, by decide +kernel⟩
    (fin _ (-1 / 2) (by decide +kernel)) ⟨fin _ (1 / 4) (by decide +kernel), by decide +kernel⟩
    (fin _ _ val_half) ?_ ?_ ?_ (by decide +kernel)
  · exact fin _ (F64.ratOf (F64.ofRat (1 / 3))) (by decide +kernel)
  · exact fin _ (F64.ratOf (F64.ofRat (2 / 3))) (by decide +kernel)
  · intro v hv
    have e : eval (F64.ops crudeLibm) 4
        [F64.ofRat 1, F64.ofRat 2, F64.ofRat (-1 / 2), F64.ofRat (1 / 4), F64.ofRat (1 / 2)] (F64.ofRat (1 / 2)) =
        some (F64.ofRat (1 / 2)) := by decide +kernel
    rw [e] at hv
    cases hv
    decide +kernel

/-- The joint condition is needed: with slope 3 below and x above the joint, the value drops from 9/8 to 1/2. -/
theorem C103_joint_needed :
    eval (F64.ops crudeLibm) 4 [F64.ofRat 1, F64.ofRat 1, F64.ofRat 0, F64.ofRat 3, F64.ofRat (1 / 2)]
      (F64.ofRat (3 / 8)) = some (F64.ofRat (9 / 8)) ∧
    eval (F64.ops crudeLibm) 4 [F64.ofRat 1, F64.ofRat 1, F64.ofRat 0, F64.ofRat 3, F64.ofRat (1 / 2)]
      (F64.ofRat (1 / 2)) = some (F64.ofRat (1 / 2)) ∧
    ¬ Ordered crudeLibm 4 [F64.ofRat 1, F64.ofRat 1, F64.ofRat 0, F64.ofRat 3, F64.ofRat (1 / 2)]
      (F64.ofRat (3 / 8)) (F64.ofRat (1 / 2)) := by
  have h1 : eval (F64.ops crudeLibm) 4 [F64.ofRat 1, F64.ofRat 1, F64.ofRat 0, F64.ofRat 3, F64.ofRat (1 / 2)]
      (F64.ofRat (3 / 8)) = some (F64.ofRat (9 / 8)) := by decide +kernel
  have h2 : eval (F64.ops crudeLibm) 4 [F64.ofRat 1, F64.ofRat 1, F64.ofRat 0, F64.ofRat 3, F64.ofRat (1 / 2)]
      (F64.ofRat (1 / 2)) = some (F64.ofRat (1 / 2)) := by decide +kernel
  refine ⟨h1, h2, ?_⟩
  rintro ⟨u, v, e1, e2, h⟩
  rw [h1] at e1
  rw [h2] at e2
  cases e1
  cases e2
  revert h
  decide +kernel

/-- Type 3 is not monotone on any platform: with a = 1, b = 0, c = 1 the value is 1 below zero and 0 at zero. -/
theorem C103_type3_drops (l : Libm) (g : F64) :
    eval (F64.ops l) 3 [g, F64.ofRat 1, F64.ofRat 0, F64.ofRat 1] (F64.ofRat (-1)) = some (F64.ofRat 1) ∧
    eval (F64.ops l) 3 [g, F64.ofRat 1, F64.ofRat 0, F64.ofRat 1] (F64.ofRat 0) = some (F64.ofRat 0) := by
  have ht : tiny (F64.ops l) (F64.ofRat 1) = false := by
    show F64.lt (F64.abs (F64.ofRat 1)) (F64.ofRat tolerance) = false
    decide +kernel
  constructor
  · show some (f3 (F64.ops l) g (F64.ofRat 1) (F64.ofRat 0) (F64.ofRat 1) (F64.ofRat (-1))) = _
    unfold f3
    rw [ht]
    have : F64.le (F64.max (F64.div (F64.neg (F64.ofRat 0)) (F64.ofRat 1)) (F64.ofRat 0)) (F64.ofRat (-1)) = false := by
      decide +kernel
    simp only [F64.ops, this, Bool.false_eq_true, if_false]
  · show some (f3 (F64.ops l) g (F64.ofRat 1) (F64.ofRat 0) (F64.ofRat 1) (F64.ofRat 0)) = _
    unfold f3
    rw [ht]
    have h1 : F64.le (F64.max (F64.div (F64.neg (F64.ofRat 0)) (F64.ofRat 1)) (F64.ofRat 0)) (F64.ofRat 0) = true := by
      decide +kernel
    have h2 : F64.lt (F64.ofRat 0) (F64.add (F64.mul (F64.ofRat 1) (F64.ofRat 0)) (F64.ofRat 0)) = false := by
      decide +kernel
    simp only [F64.ops, h1, h2, Bool.false_eq_true, if_false, if_true]

end Lcms.Props
