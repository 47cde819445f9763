import Verif.Props.CurvesRound
import Verif.Props.CurvesAccuracy
import Verif.Props.CurvesNearest
import Verif.Props.CurvesFiniteMore
import Verif.Lemmas.Nearest

/-!
# Property C120: the curves as computed keep the unit interval

C100 speaks about real numbers.  Here a value above 1 or below 0 could come from rounding alone.
-/

namespace Lcms.Props

open Lcms.Curves

/-- Every number from 0 to 1 is sent to a number from 0 to 1, all in binary64. -/
def Keeps64 (l : Libm) (type : Int32) (ps : List F64) : Prop :=
  ∀ x, F64.le (F64.ofRat 0) x = true → F64.le x (F64.ofRat 1) = true →
    ∃ y, eval (F64.ops l) type ps x = some y ∧ F64.le (F64.ofRat 0) y = true ∧ F64.le y (F64.ofRat 1) = true

/-! ### Auxiliary facts -/

theorem rd_self {a : F64} {q : ℚ} (h : F64.val a = some q) : F64.IsRd a q := by
  left
  rw [F64.rq_exact (F64.srep_of_val h), h]

theorem one_nn : F64.ofRat 1 ≠ .nan := fin_nn one_fin

theorem zero_le_one64 : F64.le (F64.ofRat 0) (F64.ofRat 1) = true := by decide +kernel

theorem not_lt64 {x : F64} (h : F64.le (F64.ofRat 0) x = true) : F64.lt x (F64.ofRat 0) = false := by
  by_contra hc
  exact F64.lt_irrefl' (F64.lt_of_le_of_lt h (by simpa using hc))

/-- `a * x + b` is at most `a + b` as computed. -/
theorem lin_le {a b x : F64} (ha : FinNonneg a) (hb : Finite b) (h0 : F64.le (F64.ofRat 0) x = true)
    (h1 : F64.le x (F64.ofRat 1) = true) : F64.le (F64.add (F64.mul a x) b) (F64.add a b) = true := by
  obtain ⟨qa, ea, pa⟩ := ha.val
  obtain ⟨qb, eb⟩ := fin_val hb
  obtain ⟨q, eq, -, q1⟩ := F64.val_between val_zero val_one h0 h1
  refine F64.add_mono (F64.le_of_rd (F64.mul_rd ea eq) (rd_self ea) ?_) eb
  nlinarith

theorem clamp_le_one {l : Libm} (hl : MonoLibm l) {g u : F64} (hg : F64.le (F64.ofRat 0) g = true)
    (h1 : F64.le u (F64.ofRat 1) = true) :
    F64.le (if F64.lt (F64.ofRat 0) u = true then l.powf u g else F64.ofRat 0) (F64.ofRat 1) = true := by
  split
  · rename_i hu
    exact pow_le_one hl (F64.le_of_lt hu) h1 hg
  · exact zero_le_one64

/-- A sum of two non-negative numbers, one of them finite, is not negative. -/
theorem add_nonneg64 {u c : F64} (hu : F64.le (F64.ofRat 0) u = true) (hc : FinNonneg c) :
    F64.le (F64.ofRat 0) (F64.add u c) = true := by
  obtain ⟨q, e, hq⟩ := hc.val
  refine F64.le_trans ?_ (F64.add_mono hu e)
  exact F64.le_of_rd zero_rd (F64.add_rd val_zero e) (by linarith)

theorem mul_nonneg64 {x c : F64} {q : ℚ} (hx : F64.val x = some q) (hq : 0 ≤ q) (hc : FinNonneg c) :
    F64.le (F64.ofRat 0) (F64.mul x c) = true := by
  obtain ⟨p, e, hp⟩ := hc.val
  exact F64.le_of_rd zero_rd (F64.mul_rd hx e) (mul_nonneg hq hp)

/-- A number below `d` times `c`. -/
theorem seg_le {x d c : F64} {q : ℚ} (hx : F64.val x = some q) (hd : Finite d) (hc : FinNonneg c)
    (h : ¬ F64.le d x = true) : F64.le (F64.mul x c) (F64.mul d c) = true := by
  obtain ⟨p, e, hp⟩ := hc.val
  obtain ⟨qd, ed⟩ := fin_val hd
  rw [F64.le_val ed hx] at h
  exact F64.mul_mono hx ed e (by linarith) hp

/-! ### The types -/

/-- **C120**, type 1. -/
theorem C120_type1 (l : Libm) (hl : MonoLibm l) (g : F64) (hg : FinNonneg g) : Keeps64 l 1 [g] := by
  intro x h0 h1
  refine ⟨l.powf x g, ?_, hl.pow_nonneg _ _ h0 (F64.le_nn hg.2).2, pow_le_one hl h0 h1 hg.2⟩
  show some (f1 (F64.ops l) g x) = _
  unfold f1
  simp only [F64.ops, not_lt64 h0, Bool.false_eq_true, if_false]

/-- **C120**, type −1.  For a gamma below the tolerance the code returns 10^22. -/
theorem C120_type1_inverse (l : Libm) (hl : MonoLibm l) (g : F64) (hg : FinPos g)
    (ht : tiny (F64.ops l) g = false) : Keeps64 l (-1) [g] := by
  intro x h0 h1
  have hi := recip_nonneg hg
  refine ⟨l.powf x (F64.div (F64.ofRat 1) g), ?_, hl.pow_nonneg _ _ h0 (F64.le_nn hi).2, pow_le_one hl h0 h1 hi⟩
  show some (g1 (F64.ops l) g x) = _
  unfold g1
  simp only [ht]
  simp only [F64.ops, not_lt64 h0, Bool.false_eq_true, if_false]

/-- **C120**, type 2, if `a + b` is computed as at most 1. -/
theorem C120_type2 (l : Libm) (hl : MonoLibm l) (g a b : F64) (hg : FinNonneg g) (ha : FinNonneg a) (hb : Finite b)
    (h : F64.le (F64.add a b) (F64.ofRat 1) = true) : Keeps64 l 2 [g, a, b] := by
  intro x h0 h1
  refine ⟨_, rfl, ?_⟩
  have hle := F64.le_trans (lin_le ha hb h0 h1) h
  have z : F64.le (F64.ofRat 0) (F64.ofRat 0) = true ∧ F64.le (F64.ofRat 0) (F64.ofRat 1) = true :=
    ⟨zero_le_zero, zero_le_one64⟩
  show F64.le (F64.ofRat 0) (f2 (F64.ops l) g a b x) = true ∧ F64.le (f2 (F64.ops l) g a b x) (F64.ofRat 1) = true
  unfold f2
  split
  · exact z
  · show F64.le (F64.ofRat 0) (if F64.le (F64.div (F64.neg b) a) x = true then _ else F64.ofRat 0) = true ∧
      F64.le (if F64.le (F64.div (F64.neg b) a) x = true then _ else F64.ofRat 0) (F64.ofRat 1) = true
    split
    · exact ⟨clamp_nonneg hl hg.2, clamp_le_one hl hg.2 hle⟩
    · exact z

/-- **C120**, type 4, if `a + b` and `c * d` are computed as at most 1. -/
theorem C120_type4 (l : Libm) (hl : MonoLibm l) (g a b c d : F64) (hg : FinNonneg g) (ha : FinNonneg a) (hb : Finite b)
    (hc : FinNonneg c) (hd : Finite d) (h : F64.le (F64.add a b) (F64.ofRat 1) = true)
    (hj : F64.le (F64.mul d c) (F64.ofRat 1) = true) : Keeps64 l 4 [g, a, b, c, d] := by
  intro x h0 h1
  refine ⟨_, rfl, ?_⟩
  obtain ⟨q, eq, q0, -⟩ := F64.val_between val_zero val_one h0 h1
  have hle := F64.le_trans (lin_le ha hb h0 h1) h
  show F64.le (F64.ofRat 0) (if F64.le d x = true then _ else F64.mul x c) = true ∧
    F64.le (if F64.le d x = true then _ else F64.mul x c) (F64.ofRat 1) = true
  split
  · exact ⟨clamp_nonneg hl hg.2, clamp_le_one hl hg.2 hle⟩
  · rename_i hn
    exact ⟨mul_nonneg64 eq q0 hc, F64.le_trans (seg_le eq hd hc hn) hj⟩

/-- The power of the clamped argument plus a constant stays below its value at 1. -/
theorem clamp_add {l : Libm} (hl : MonoLibm l) {g u w c : F64} (hg : F64.le (F64.ofRat 0) g = true)
    (hc : FinNonneg c) (huw : F64.le u w = true) (h0 : F64.lt (F64.ofRat 0) u = true)
    (h : F64.le (F64.add (l.powf w g) c) (F64.ofRat 1) = true) :
    F64.le (F64.ofRat 0) (F64.add (l.powf u g) c) = true ∧ F64.le (F64.add (l.powf u g) c) (F64.ofRat 1) = true := by
  obtain ⟨q, e, -⟩ := hc.val
  exact ⟨add_nonneg64 (hl.pow_nonneg _ _ (F64.le_of_lt h0) (F64.le_nn hg).2) hc,
    F64.le_trans (F64.add_mono (hl.pow_base _ _ _ (F64.le_of_lt h0) huw hg) e) h⟩

/-- **C120**, type 3, if `(a + b)^gamma + c` is computed as at most 1. -/
theorem C120_type3 (l : Libm) (hl : MonoLibm l) (g a b c : F64) (hg : FinNonneg g) (ha : FinNonneg a) (hb : Finite b)
    (hc : FinNonneg c) (hc1 : F64.le c (F64.ofRat 1) = true)
    (h : F64.le (F64.add (l.powf (F64.add a b) g) c) (F64.ofRat 1) = true) : Keeps64 l 3 [g, a, b, c] := by
  intro x h0 h1
  refine ⟨_, rfl, ?_⟩
  have hle := lin_le ha hb h0 h1
  have z : F64.le (F64.ofRat 0) (F64.ofRat 0) = true ∧ F64.le (F64.ofRat 0) (F64.ofRat 1) = true :=
    ⟨zero_le_zero, zero_le_one64⟩
  show F64.le (F64.ofRat 0) (f3 (F64.ops l) g a b c x) = true ∧ F64.le (f3 (F64.ops l) g a b c x) (F64.ofRat 1) = true
  unfold f3
  split
  · exact z
  · show F64.le (F64.ofRat 0) (if F64.le (F64.max (F64.div (F64.neg b) a) (F64.ofRat 0)) x = true then
        (if F64.lt (F64.ofRat 0) (F64.add (F64.mul a x) b) = true then
          F64.add (l.powf (F64.add (F64.mul a x) b) g) c else F64.ofRat 0) else c) = true ∧
      F64.le (if F64.le (F64.max (F64.div (F64.neg b) a) (F64.ofRat 0)) x = true then
        (if F64.lt (F64.ofRat 0) (F64.add (F64.mul a x) b) = true then
          F64.add (l.powf (F64.add (F64.mul a x) b) g) c else F64.ofRat 0) else c) (F64.ofRat 1) = true
    split
    · split
      · rename_i he
        exact clamp_add hl hg.2 hc hle he h
      · exact z
    · exact ⟨hc.2, hc1⟩

/-- **C120**, type 5, if `(a + b)^gamma + e` and `c * d + f` are computed as at most 1. -/
theorem C120_type5 (l : Libm) (hl : MonoLibm l) (g a b c d e f : F64) (hg : FinNonneg g) (ha : FinNonneg a)
    (hb : Finite b) (hc : FinNonneg c) (hd : Finite d) (he : FinNonneg e) (hf : FinNonneg f)
    (he1 : F64.le e (F64.ofRat 1) = true)
    (h : F64.le (F64.add (l.powf (F64.add a b) g) e) (F64.ofRat 1) = true)
    (hj : F64.le (F64.add (F64.mul d c) f) (F64.ofRat 1) = true) : Keeps64 l 5 [g, a, b, c, d, e, f] := by
  intro x h0 h1
  refine ⟨_, rfl, ?_⟩
  obtain ⟨q, eq, q0, -⟩ := F64.val_between val_zero val_one h0 h1
  obtain ⟨qf, ef, -⟩ := hf.val
  have hle := lin_le ha hb h0 h1
  show F64.le (F64.ofRat 0) (if F64.le d x = true then
      (if F64.lt (F64.ofRat 0) (F64.add (F64.mul a x) b) = true then
        F64.add (l.powf (F64.add (F64.mul a x) b) g) e else e) else F64.add (F64.mul x c) f) = true ∧
    F64.le (if F64.le d x = true then
      (if F64.lt (F64.ofRat 0) (F64.add (F64.mul a x) b) = true then
        F64.add (l.powf (F64.add (F64.mul a x) b) g) e else e) else F64.add (F64.mul x c) f) (F64.ofRat 1) = true
  split
  · split
    · rename_i hp
      exact clamp_add hl hg.2 he hle hp h
    · exact ⟨he.2, he1⟩
  · rename_i hn
    exact ⟨add_nonneg64 (mul_nonneg64 eq q0 hc) hf, F64.le_trans (F64.add_mono (seg_le eq hd hc hn) ef) hj⟩

/-- **C120**, type 6, if `(a + b)^gamma + c` is computed as at most 1. -/
theorem C120_type6 (l : Libm) (hl : MonoLibm l) (g a b c : F64) (hg : FinNonneg g) (ha : FinNonneg a) (hb : Finite b)
    (hc : FinNonneg c) (hc1 : F64.le c (F64.ofRat 1) = true)
    (h : F64.le (F64.add (l.powf (F64.add a b) g) c) (F64.ofRat 1) = true) : Keeps64 l 6 [g, a, b, c] := by
  intro x h0 h1
  refine ⟨_, rfl, ?_⟩
  have hle := lin_le ha hb h0 h1
  have hen : F64.add (F64.mul a x) b ≠ .nan := (F64.le_nn hle).1
  obtain ⟨qc, ec, -⟩ := hc.val
  show F64.le (F64.ofRat 0) (if F64.lt (F64.add (F64.mul a x) b) (F64.ofRat 0) = true then c else
      F64.add (l.powf (F64.add (F64.mul a x) b) g) c) = true ∧
    F64.le (if F64.lt (F64.add (F64.mul a x) b) (F64.ofRat 0) = true then c else
      F64.add (l.powf (F64.add (F64.mul a x) b) g) c) (F64.ofRat 1) = true
  split
  · exact ⟨hc.2, hc1⟩
  · rename_i hn
    have hp := F64.le_of_not_lt hen zero_nn hn
    exact ⟨add_nonneg64 (hl.pow_nonneg _ _ hp (F64.le_nn hg.2).2) hc,
      F64.le_trans (F64.add_mono (hl.pow_base _ _ _ hp hle hg.2) ec) h⟩

/-- **C120**, types 108 and −108. -/
theorem C120_type108 (l : Libm) (hl : MonoLibm l) (g : F64) (hg : FinPos g) :
    Keeps64 l 108 [g] ∧ Keeps64 l (-108) [g] := by
  have hi := recip_nonneg hg
  constructor
  · intro x h0 h1
    refine ⟨_, rfl, ?_⟩
    show F64.le (F64.ofRat 0) (f108 (F64.ops l) g x) = true ∧ F64.le (f108 (F64.ops l) g x) (F64.ofRat 1) = true
    unfold f108
    split
    · exact ⟨zero_le_zero, zero_le_one64⟩
    · have a0 := one_sub_nonneg h1
      have a1 := one_sub_le h0
      have p0 := hl.pow_nonneg _ _ a0 (F64.le_nn hi).2
      have p1 := pow_le_one hl a0 a1 hi
      exact ⟨hl.pow_nonneg _ _ (one_sub_nonneg p1) (F64.le_nn hi).2, pow_le_one hl (one_sub_nonneg p1) (one_sub_le p0) hi⟩
  · intro x h0 h1
    refine ⟨_, rfl, ?_⟩
    have hg' := hg.nonneg.2
    have p0 := hl.pow_nonneg _ _ h0 (F64.le_nn hg').2
    have p1 := pow_le_one hl h0 h1 hg'
    have q0 := hl.pow_nonneg _ _ (one_sub_nonneg p1) (F64.le_nn hg').2
    have q1 := pow_le_one hl (one_sub_nonneg p1) (one_sub_le p0) hg'
    exact ⟨one_sub_nonneg q1, one_sub_le q0⟩

/-- **C120**, the sRGB curve: it keeps the unit interval, and its ends are exact. -/
theorem C120_srgb (l : Libm) (hl : MonoLibm l) :
    Keeps64 l 4 srgb ∧ eval (F64.ops l) 4 srgb (F64.ofRat 0) = some (F64.ofRat 0) ∧
      eval (F64.ops l) 4 srgb (F64.ofRat 1) = some (F64.ofRat 1) := by
  have fin : ∀ q : ℚ, F64.val (F64.ofRat q) = some (F64.ratOf (F64.ofRat q)) → Finite (F64.ofRat q) := by
    intro q h
    obtain ⟨s, m, k, h, -⟩ := F64.val_eq_some h
    exact ⟨s, m, k, h⟩
  refine ⟨C120_type4 l hl _ _ _ _ _ ⟨fin _ (by decide +kernel), by decide +kernel⟩
    ⟨fin _ (by decide +kernel), by decide +kernel⟩ (fin _ (by decide +kernel))
    ⟨fin _ (by decide +kernel), by decide +kernel⟩ (fin _ (by decide +kernel)) (by decide +kernel) (by decide +kernel), ?_, ?_⟩
  · show some (f4 (F64.ops l) _ _ _ _ _ _) = _
    unfold f4
    have h : F64.le (F64.ofRat (4045 / 100000)) (F64.ofRat 0) = false := by decide +kernel
    have h' : F64.mul (F64.ofRat 0) (F64.ofRat (100 / 1292)) = F64.ofRat 0 := by decide +kernel
    simp only [F64.ops, h, h', Bool.false_eq_true, if_false]
  · show some (f4 (F64.ops l) _ _ _ _ _ _) = _
    unfold f4
    have h : F64.le (F64.ofRat (4045 / 100000)) (F64.ofRat 1) = true := by decide +kernel
    have h1 : F64.add (F64.mul (F64.ofRat (1000 / 1055)) (F64.ofRat 1)) (F64.ofRat (55 / 1055)) = F64.ofRat 1 := by
      decide +kernel
    have h2 : F64.lt (F64.ofRat 0) (F64.ofRat 1) = true := by decide +kernel
    simp only [F64.ops, h, h1, h2, if_true]
    rw [hl.pow_one _ (by decide +kernel)]

/-! ### Types known by their ends: the inverse types, and types 7 and 8 -/

/-- **C120**: a curve that is monotone as computed keeps the unit interval if it does at the two ends. -/
theorem C120_ends (l : Libm) (type : Int32) (ps : List F64)
    (hm : ∀ x y, F64.le (F64.ofRat 0) x = true → F64.le x y = true → F64.le y (F64.ofRat 1) = true →
      Ordered l type ps x y)
    (h0 : ∀ u, eval (F64.ops l) type ps (F64.ofRat 0) = some u → F64.le (F64.ofRat 0) u = true)
    (h1 : ∀ w, eval (F64.ops l) type ps (F64.ofRat 1) = some w → F64.le w (F64.ofRat 1) = true) :
    Keeps64 l type ps := by
  intro x hx0 hx1
  obtain ⟨u, v, eu, ev, huv⟩ := hm _ x zero_le_zero hx0 hx1
  obtain ⟨v', w, ev', ew, hvw⟩ := hm x _ hx0 hx1 (F64.le_refl one_nn)
  rw [ev] at ev'
  cases ev'
  exact ⟨v, ev, F64.le_trans (h0 u eu) huv, F64.le_trans hvw (h1 w ew)⟩

/-- The number between two finite ones is finite. -/
theorem unit_fin {x : F64} (h0 : F64.le (F64.ofRat 0) x = true) (h1 : F64.le x (F64.ofRat 1) = true) : Finite x := by
  obtain ⟨q, e, -, -⟩ := F64.val_between val_zero val_one h0 h1
  obtain ⟨s, m, k, h, -⟩ := F64.val_eq_some e
  exact ⟨s, m, k, h⟩

/-- What the ends have to be. -/
def EndsFit (l : Libm) (type : Int32) (ps : List F64) : Prop :=
  (∀ u, eval (F64.ops l) type ps (F64.ofRat 0) = some u → F64.le (F64.ofRat 0) u = true) ∧
  (∀ w, eval (F64.ops l) type ps (F64.ofRat 1) = some w → F64.le w (F64.ofRat 1) = true)

/-- **C120**: and only then. -/
theorem C120_ends_needed (l : Libm) (type : Int32) (ps : List F64) (h : Keeps64 l type ps) : EndsFit l type ps := by
  constructor
  · intro u hu
    obtain ⟨y, hy, h0, -⟩ := h _ zero_le_zero zero_le_one64
    cases Option.some.inj (hu.symm.trans hy)
    exact h0
  · intro u hu
    obtain ⟨y, hy, -, h1⟩ := h _ zero_le_one64 (F64.le_refl one_nn)
    cases Option.some.inj (hu.symm.trans hy)
    exact h1

/-- **C120**, type −2. -/
theorem C120_type2_inverse (l : Libm) (hl : MonoLibm l) (g a b : F64) (hg : FinPos g) (ha : FinPos a) (hb : Finite b)
    (h : EndsFit l (-2) [g, a, b]) : Keeps64 l (-2) [g, a, b] :=
  C120_ends _ _ _ (fun _ _ _ hxy _ => C103_type2_inverse l hl g a b _ _ hg ha hb hxy) h.1 h.2

/-- **C120**, type −4, if it does not step down at its joint. -/
theorem C120_type4_inverse (l : Libm) (hl : MonoLibm l) (g a b c d : F64) (hg : FinPos g) (ha : FinPos a) (hb : Finite b)
    (hc : FinPos c) (hpos : F64.lt (F64.ofRat 0) (F64.add (F64.mul a d) b) = true)
    (hbig : tiny (F64.ops l) g = false ∧ tiny (F64.ops l) a = false ∧ tiny (F64.ops l) c = false)
    (hj : ∀ j v, eval (F64.ops l) 4 [g, a, b, c, d] d = some j →
      eval (F64.ops l) (-4) [g, a, b, c, d] j = some v → F64.le (F64.div j c) v = true)
    (h : EndsFit l (-4) [g, a, b, c, d]) : Keeps64 l (-4) [g, a, b, c, d] :=
  C120_ends _ _ _ (fun _ _ _ hxy _ => C103_type4_inverse l hl g a b c d _ _ hg ha hb hc hpos hbig hj hxy) h.1 h.2

/-- **C120**, type −5, if it does not step down at its joint. -/
theorem C120_type5_inverse (l : Libm) (hl : MonoLibm l) (g a b c d e f : F64) (hg : FinPos g) (ha : FinPos a)
    (hb : Finite b) (hc : FinPos c) (hd : Finite d) (he : Finite e) (hf : Finite f)
    (hbig : tiny (F64.ops l) g = false ∧ tiny (F64.ops l) a = false ∧ tiny (F64.ops l) c = false)
    (hpos : F64.le (F64.ofRat 0) (F64.sub (F64.add (F64.mul c d) f) e) = true)
    (hj : ∀ v, eval (F64.ops l) (-5) [g, a, b, c, d, e, f] (F64.add (F64.mul c d) f) = some v →
      F64.le (F64.div (F64.sub (F64.add (F64.mul c d) f) f) c) v = true)
    (h : EndsFit l (-5) [g, a, b, c, d, e, f]) : Keeps64 l (-5) [g, a, b, c, d, e, f] :=
  C120_ends _ _ _ (fun _ _ _ hxy _ =>
    C103_type5_inverse l hl g a b c d e f _ _ hg ha hb hc hd he hf hbig hpos hj hxy) h.1 h.2

/-- **C120**, type −6 with `b` not positive. -/
theorem C120_type6_inverse (l : Libm) (hl : MonoLibm l) (g a b c : F64) (hg : FinPos g) (ha : FinPos a) (hb : Finite b)
    (hb0 : F64.le b (F64.ofRat 0) = true) (hc : Finite c) (h : EndsFit l (-6) [g, a, b, c]) :
    Keeps64 l (-6) [g, a, b, c] :=
  C120_ends _ _ _ (fun _ _ _ hxy _ => C103_type6_inverse l hl g a b c _ _ hg ha hb hb0 hc hxy) h.1 h.2

/-- **C120**, type 7 with a positive argument of the logarithm at 0. -/
theorem C120_type7 (l : Libm) (hl : MonoLibm l) (g a b c d : F64) (hg : FinNonneg g) (ha : FinPos a) (hb : FinPos b)
    (hc : Finite c) (hd : Finite d)
    (harg : F64.lt (F64.ofRat 0) (F64.add (F64.mul b (l.powf (F64.ofRat 0) g)) c) = true)
    (h : EndsFit l 7 [g, a, b, c, d]) : Keeps64 l 7 [g, a, b, c, d] := by
  obtain ⟨qb, eb, pb⟩ := hb.val
  obtain ⟨qc, ec⟩ := fin_val hc
  refine C120_ends _ _ _ (fun x y hx hxy _ => C103_type7 l hl g a b c d _ _ hg ha hb hc hd hx ?_ hxy) h.1 h.2
  refine F64.lt_of_lt_of_le harg (F64.add_mono ?_ ec)
  rw [F64.mul_comm b, F64.mul_comm b]
  exact F64.mul_mono_pos (hl.pow_base _ _ _ zero_le_zero hx hg.2) eb pb

/-- **C120**, type 8 with a base of at least 1. -/
theorem C120_type8 (l : Libm) (hl : MonoLibm l) (a b c d e : F64) (ha : FinPos a)
    (hb : F64.le (F64.ofRat 1) b = true) (hc : FinNonneg c) (hd : Finite d) (he : Finite e)
    (h : EndsFit l 8 [a, b, c, d, e]) : Keeps64 l 8 [a, b, c, d, e] :=
  C120_ends _ _ _ (fun _ _ hx hxy hy => C103_type8 l hl a b c d e _ _ ha hb hc hd he
    (unit_fin hx (F64.le_trans hxy hy)) (unit_fin (F64.le_trans hx hxy) hy) hxy) h.1 h.2

/-- **C120**, the inverse of the sRGB curve: on a platform on which the power at the joint is positive and the inverse does
not step down there, it keeps the unit interval, and its ends are exact. -/
theorem C120_srgb_inverse (l : Libm) (hl : MonoLibm l)
    (hdisc : F64.lt (F64.ofRat 0) (l.powf (F64.add (F64.mul (F64.ofRat (1000 / 1055)) (F64.ofRat (4045 / 100000)))
      (F64.ofRat (55 / 1055))) (F64.ofRat (24 / 10))) = true)
    (hj : ∀ j v, eval (F64.ops l) 4 srgb (F64.ofRat (4045 / 100000)) = some j →
      eval (F64.ops l) (-4) srgb j = some v → F64.le (F64.div j (F64.ofRat (100 / 1292))) v = true) :
    Keeps64 l (-4) srgb ∧ eval (F64.ops l) (-4) srgb (F64.ofRat 0) = some (F64.ofRat 0) ∧
      eval (F64.ops l) (-4) srgb (F64.ofRat 1) = some (F64.ofRat 1) := by
  have hgt : tiny (F64.ops l) (F64.ofRat (24 / 10)) = false := by
    show F64.lt (F64.abs (F64.ofRat (24 / 10))) (F64.ofRat tolerance) = false
    decide +kernel
  have hat : tiny (F64.ops l) (F64.ofRat (1000 / 1055)) = false := by
    show F64.lt (F64.abs (F64.ofRat (1000 / 1055))) (F64.ofRat tolerance) = false
    decide +kernel
  have hct : tiny (F64.ops l) (F64.ofRat (100 / 1292)) = false := by
    show F64.lt (F64.abs (F64.ofRat (100 / 1292))) (F64.ofRat tolerance) = false
    decide +kernel
  have hu0 : F64.le (F64.ofRat 0) (F64.add (F64.mul (F64.ofRat (1000 / 1055)) (F64.ofRat (4045 / 100000)))
      (F64.ofRat (55 / 1055))) = true := by decide +kernel
  have hu1 : F64.le (F64.add (F64.mul (F64.ofRat (1000 / 1055)) (F64.ofRat (4045 / 100000)))
      (F64.ofRat (55 / 1055))) (F64.ofRat 1) = true := by decide +kernel
  have hd1 := pow_le_one hl hu0 hu1 (show F64.le (F64.ofRat 0) (F64.ofRat (24 / 10)) = true by decide +kernel)
  have hd0 : F64.le (l.powf (F64.add (F64.mul (F64.ofRat (1000 / 1055)) (F64.ofRat (4045 / 100000)))
      (F64.ofRat (55 / 1055))) (F64.ofRat (24 / 10))) (F64.ofRat 0) = false := by
    by_contra hc
    exact F64.lt_irrefl' (F64.lt_of_lt_of_le hdisc (by simpa using hc))
  have e0 : eval (F64.ops l) (-4) srgb (F64.ofRat 0) = some (F64.ofRat 0) := by
    show some (g4 (F64.ops l) _ _ _ _ _ _) = _
    unfold g4
    have h' : F64.div (F64.ofRat 0) (F64.ofRat (100 / 1292)) = F64.ofRat 0 := by decide +kernel
    simp only [hct]
    simp only [F64.ops, not_lt64 hu0, hd0, h', Bool.false_eq_true, if_false]
  have e1 : eval (F64.ops l) (-4) srgb (F64.ofRat 1) = some (F64.ofRat 1) := by
    show some (g4 (F64.ops l) _ _ _ _ _ _) = _
    unfold g4
    have h' : F64.div (F64.sub (F64.ofRat 1) (F64.ofRat (55 / 1055))) (F64.ofRat (1000 / 1055)) = F64.ofRat 1 := by
      decide +kernel
    simp only [hgt, hat]
    simp only [F64.ops, not_lt64 hu0, hd1, Bool.false_eq_true, if_false, if_true, Bool.or_self]
    rw [hl.pow_one _ (by decide +kernel), h']
  have pos : ∀ q : ℚ, (F64.val (F64.ofRat q)).isSome = true ∧ F64.lt (F64.ofRat 0) (F64.ofRat q) = true →
      FinPos (F64.ofRat q) := fun q h => ⟨fin_of h.1, h.2⟩
  refine ⟨C120_type4_inverse l hl _ _ _ _ _ (pos _ (by decide +kernel)) (pos _ (by decide +kernel))
    (pos _ (by decide +kernel)).1 (pos _ (by decide +kernel)) (by decide +kernel) ⟨hgt, hat, hct⟩ hj ⟨?_, ?_⟩, e0, e1⟩
  · intro u hu
    cases (Option.some.inj (e0.symm.trans hu))
    exact zero_le_zero
  · intro u hu
    cases (Option.some.inj (e1.symm.trans hu))
    exact F64.le_refl one_nn

/-! ### The sigmoid -/

/-- `fl(1/2 / b) * b` is computed as 1/2 or the number below. -/
theorem half_back {b c : ℚ} (hb : 0 < b) (hb1 : b ≤ 1 / 2) (hc : c = F64.rq (1 / 2 / b)) :
    1 / 2 - 1 / 2 ^ 54 ≤ F64.rq (c * b) ∧ F64.rq (c * b) ≤ 1 / 2 := by
  have hq : (1 : ℚ) ≤ 1 / 2 / b := by rw [le_div_iff₀ hb]; linarith
  have he : |c - 1 / 2 / b| ≤ 1 / 2 / b / 2 ^ 53 := by
    rw [hc]
    rcases rq_error (q := 1 / 2 / b) (by linarith) with h | ⟨-, h⟩
    · rwa [abs_of_pos (by linarith : (0 : ℚ) < 1 / 2 / b)] at h
    · exfalso
      rw [abs_of_pos (by linarith : (0 : ℚ) < 1 / 2 / b)] at h
      have : (1 : ℚ) / 2 ^ 1021 ≤ 1 := (div_le_one (by positivity)).mpr (one_le_pow₀ (by norm_num))
      exact absurd (lt_of_lt_of_le h this) (not_lt.mpr hq)
  obtain ⟨e1, e2⟩ := abs_le.mp he
  have hbb : 1 / 2 / b * b = 1 / 2 := div_mul_cancel₀ _ hb.ne'
  have l1 : 1 / 2 - 1 / 2 ^ 54 ≤ c * b := by
    have := mul_le_mul_of_nonneg_right (show 1 / 2 / b - 1 / 2 / b / 2 ^ 53 ≤ c by linarith) hb.le
    have e : (1 / 2 / b - 1 / 2 / b / 2 ^ 53) * b = 1 / 2 / b * b - 1 / 2 / b * b / 2 ^ 53 := by ring
    rw [e, hbb] at this
    refine le_trans (le_of_eq ?_) this
    norm_num
  have l2 : c * b ≤ 1 / 2 + 1 / 2 ^ 54 := by
    have := mul_le_mul_of_nonneg_right (show c ≤ 1 / 2 / b + 1 / 2 / b / 2 ^ 53 by linarith) hb.le
    have e : (1 / 2 / b + 1 / 2 / b / 2 ^ 53) * b = 1 / 2 / b * b + 1 / 2 / b * b / 2 ^ 53 := by ring
    rw [e, hbb] at this
    refine le_trans this (le_of_eq ?_)
    norm_num
  have r1 : F64.val (F64.ofRat (1 / 2 - 1 / 2 ^ 54)) = some (1 / 2 - 1 / 2 ^ 54) := by decide +kernel
  have r2 : F64.rq (1 / 2 + 1 / 2 ^ 54) = 1 / 2 := by decide +kernel
  refine ⟨F64.le_rq (F64.srep_of_val r1) l1, ?_⟩
  rw [← r2]
  exact F64.rq_mono l2

/-- **C120**, type 109 with a positive parameter: if the value computed at 1 is a number at all, it is exactly 1, and so
no value at or below 1 is above 1. -/
theorem C120_type109 (l : Libm) (hl : MonoLibm l) (k : F64) (hk : FinPos k)
    (hfin : ∀ v, eval (F64.ops l) 109 [k] (F64.ofRat 1) = some v → Finite v) :
    (∃ v, eval (F64.ops l) 109 [k] (F64.ofRat 1) = some v ∧ F64.val v = some 1) ∧
    ∀ x, F64.le x (F64.ofRat 1) = true →
      ∃ y, eval (F64.ops l) 109 [k] x = some y ∧ F64.le y (F64.ofRat 1) = true := by
  have key : F64.val (sigmoidFactory (F64.ops l) k (F64.ofRat 1)) = some 1 := by
    have hfin' : Finite (sigmoidFactory (F64.ops l) k (F64.ofRat 1)) := hfin _ rfl
    have e : sigmoidFactory (F64.ops l) k (F64.ofRat 1) =
        F64.add (F64.mul (F64.div (F64.ofRat (1 / 2)) (sigmoidBase (F64.ops l) k (F64.ofRat 1)))
          (sigmoidBase (F64.ops l) k (F64.sub (F64.mul (F64.ofRat 2) (F64.ofRat 1)) (F64.ofRat 1)))) (F64.ofRat (1 / 2)) :=
      rfl
    have e1 : F64.sub (F64.mul (F64.ofRat 2) (F64.ofRat 1)) (F64.ofRat 1) = F64.ofRat 1 := by decide +kernel
    rw [e, e1] at hfin' ⊢
    obtain ⟨c, b, hc, hb, hb0, hb1, -⟩ := sigmoid_parts hl hk hfin'
    have hd := F64.div_rd val_half hb hb0.ne'
    have hcr : c = F64.rq (1 / 2 / b) := by
      rcases hd with h | ⟨s, h, -⟩
      · rw [hc] at h
        exact Option.some.inj h
      · rw [h] at hc
        cases hc
    obtain ⟨r1, r2⟩ := half_back hb0 hb1 hcr
    have hm : F64.val (F64.mul (F64.div (F64.ofRat (1 / 2)) (sigmoidBase (F64.ops l) k (F64.ofRat 1)))
        (sigmoidBase (F64.ops l) k (F64.ofRat 1))) = some (F64.rq (c * b)) := by
      rcases F64.mul_rd hc hb with h | ⟨s, h, -, h2⟩
      · exact h
      · exfalso
        rw [abs_of_nonneg (by linarith : (0 : ℚ) ≤ F64.rq (c * b))] at h2
        have : (1 : ℚ) ≤ 2 ^ 1024 := one_le_pow₀ (by norm_num)
        exact absurd (le_trans this (le_trans h2 r2)) (by norm_num)
    have hs : F64.rq (F64.rq (c * b) + 1 / 2) = 1 := by
      apply le_antisymm
      · exact F64.rq_le (F64.srep_of_val val_one) (by linarith)
      · exact F64.rq_tie.symm.le.trans (F64.rq_mono (by linarith))
    rcases F64.add_rd hm val_half with h | ⟨s, h, -⟩
    · rw [h, hs]
    · rw [h] at hfin'
      obtain ⟨_, _, _, h⟩ := hfin'
      cases h
  refine ⟨⟨_, rfl, key⟩, ?_⟩
  intro x hx
  obtain ⟨u, v, hu, hv, huv⟩ := C103_type109 l hl k x (F64.ofRat 1) hk hfin hx
  refine ⟨u, hu, F64.le_trans huv ?_⟩
  have hv' : v = sigmoidFactory (F64.ops l) k (F64.ofRat 1) := (Option.some.inj hv).symm
  rw [hv']
  exact (F64.le_val key val_one).mpr (le_refl _)

/-- The two numbers of binary64 nearest to e^(3/8) and e^(−3/8). -/
def expUp : ℚ := 6552698792701802 / 2 ^ 52
@[inherit_doc expUp] def expDown : ℚ := 6190551479717519 / 2 ^ 53

/-- Both are numbers of binary64, and the exact values are less than half a step away. -/
theorem C120_expUp : F64.val (F64.ofRat expUp) = some expUp ∧ |Real.exp (3 / 8) - expUp| < 1 / 2 ^ 53 := by
  refine ⟨by decide +kernel, ?_⟩
  have h := Real.exp_bound (x := 3 / 8) (by rw [abs_of_pos] <;> norm_num) (n := 16) (by norm_num)
  simp only [Finset.sum_range_succ, Finset.sum_range_zero, Nat.factorial] at h
  rw [abs_of_pos (by norm_num : (0 : ℝ) < 3 / 8)] at h
  unfold expUp
  push_cast
  rw [abs_le] at h
  rw [abs_lt]
  norm_num at h ⊢
  constructor <;> linarith [h.1, h.2]

@[inherit_doc C120_expUp]
theorem C120_expDown :
    F64.val (F64.ofRat expDown) = some expDown ∧ |Real.exp (-(3 / 8)) - expDown| < 1 / 2 ^ 54 := by
  refine ⟨by decide +kernel, ?_⟩
  have h := Real.exp_bound (x := -(3 / 8)) (by rw [abs_neg, abs_of_pos] <;> norm_num) (n := 16) (by norm_num)
  simp only [Finset.sum_range_succ, Finset.sum_range_zero, Nat.factorial] at h
  rw [abs_neg, abs_of_pos (by norm_num : (0 : ℝ) < 3 / 8)] at h
  unfold expDown
  push_cast
  rw [abs_le] at h
  rw [abs_lt]
  norm_num at h ⊢
  constructor <;> linarith [h.1, h.2]

/-- **C120**, the lower end of type 109: with an `exp` that is correctly rounded at 3/8 and −3/8, the sigmoid with
parameter 3/8 sends 0 to a negative number, −3/2^53. -/
theorem C120_sigmoid_below (l : Libm) (h1 : l.exp (F64.ofRat (3 / 8)) = F64.ofRat expUp)
    (h2 : l.exp (F64.ofRat (-(3 / 8))) = F64.ofRat expDown) :
    (∃ y, eval (F64.ops l) 109 [F64.ofRat (3 / 8)] (F64.ofRat 0) = some y ∧ F64.val y = some (-3 / 2 ^ 53)) ∧
    ¬ Keeps64 l 109 [F64.ofRat (3 / 8)] := by
  have key : ∃ y, eval (F64.ops l) 109 [F64.ofRat (3 / 8)] (F64.ofRat 0) = some y ∧ F64.val y = some (-3 / 2 ^ 53) := by
    refine ⟨_, rfl, ?_⟩
    show F64.val (F64.add (F64.mul (F64.div (F64.ofRat (1 / 2))
        (F64.sub (F64.div (F64.ofRat 1) (F64.add (F64.ofRat 1)
          (l.exp (F64.mul (F64.neg (F64.ofRat (3 / 8))) (F64.ofRat 1))))) (F64.ofRat (1 / 2))))
        (F64.sub (F64.div (F64.ofRat 1) (F64.add (F64.ofRat 1)
          (l.exp (F64.mul (F64.neg (F64.ofRat (3 / 8))) (F64.sub (F64.mul (F64.ofRat 2) (F64.ofRat 0))
            (F64.ofRat 1)))))) (F64.ofRat (1 / 2)))) (F64.ofRat (1 / 2))) = some (-3 / 2 ^ 53)
    have e1 : F64.mul (F64.neg (F64.ofRat (3 / 8))) (F64.ofRat 1) = F64.ofRat (-(3 / 8)) := by decide +kernel
    have e2 : F64.mul (F64.neg (F64.ofRat (3 / 8))) (F64.sub (F64.mul (F64.ofRat 2) (F64.ofRat 0)) (F64.ofRat 1)) =
        F64.ofRat (3 / 8) := by decide +kernel
    rw [e1, e2, h1, h2]
    decide +kernel
  refine ⟨key, fun hk => ?_⟩
  obtain ⟨y, hy, hv⟩ := key
  obtain ⟨y', hy', h0, -⟩ := hk (F64.ofRat 0) zero_le_zero zero_le_one64
  rw [hy] at hy'
  cases hy'
  exact absurd ((F64.le_val val_zero hv).mp h0) (by norm_num)

/-! ### The hypotheses are satisfiable, and the bounds are reached -/

/-- Gamma 2 on the crude platform. -/
example : Keeps64 crudeLibm 1 [F64.ofRat 2] := C120_type1 _ crude_mono _ ⟨fin_of (by decide +kernel), by decide +kernel⟩

example : Keeps64 crudeLibm (-1) [F64.ofRat 2] :=
  C120_type1_inverse _ crude_mono _ ⟨fin_of (by decide +kernel), by decide +kernel⟩ (by decide +kernel)

/-- An offset of the argument: `(3/4 x + 1/4)^2`. -/
example : Keeps64 crudeLibm 2 [F64.ofRat 2, F64.ofRat (3 / 4), F64.ofRat (1 / 4)] :=
  C120_type2 _ crude_mono _ _ _ ⟨fin_of (by decide +kernel), by decide +kernel⟩
    ⟨fin_of (by decide +kernel), by decide +kernel⟩ (fin_of (by decide +kernel)) (by decide +kernel)

/-- Without the condition on `a + b` the interval is left: `1.5 x` at 1. -/
example : ¬ Keeps64 crudeLibm 2 [F64.ofRat 1, F64.ofRat (3 / 2), F64.ofRat 0] := by
  intro h
  obtain ⟨y, hy, -, h1⟩ := h (F64.ofRat 1) zero_le_one64 (F64.le_refl one_nn)
  have e : eval (F64.ops crudeLibm) 2 [F64.ofRat 1, F64.ofRat (3 / 2), F64.ofRat 0] (F64.ofRat 1) =
    some (F64.ofRat (3 / 2)) := by decide +kernel
  rw [e] at hy
  cases hy
  exact absurd h1 (by decide +kernel)

example : Keeps64 crudeLibm 4 srgb := (C120_srgb _ crude_mono).1

example : Keeps64 crudeLibm 108 [F64.ofRat 2] ∧ Keeps64 crudeLibm (-108) [F64.ofRat 2] :=
  C120_type108 _ crude_mono _ ⟨fin_of (by decide +kernel), by decide +kernel⟩

/-- `(x/2 + 1/4) + 1/4`, which reaches 1 at 1. -/
example : Keeps64 crudeLibm 3 [F64.ofRat 1, F64.ofRat (1 / 2), F64.ofRat (1 / 4), F64.ofRat (1 / 4)] ∧
    Keeps64 crudeLibm 6 [F64.ofRat 1, F64.ofRat (1 / 2), F64.ofRat (1 / 4), F64.ofRat (1 / 4)] := by
  have f : ∀ q : ℚ, (F64.val (F64.ofRat q)).isSome = true ∧ F64.le (F64.ofRat 0) (F64.ofRat q) = true →
      FinNonneg (F64.ofRat q) := fun q h => ⟨fin_of h.1, h.2⟩
  exact ⟨C120_type3 _ crude_mono _ _ _ _ (f _ (by decide +kernel)) (f _ (by decide +kernel))
      (f _ (by decide +kernel)).1 (f _ (by decide +kernel)) (by decide +kernel) (by decide +kernel),
    C120_type6 _ crude_mono _ _ _ _ (f _ (by decide +kernel)) (f _ (by decide +kernel))
      (f _ (by decide +kernel)).1 (f _ (by decide +kernel)) (by decide +kernel) (by decide +kernel)⟩

example : Keeps64 crudeLibm 5 [F64.ofRat 1, F64.ofRat (1 / 2), F64.ofRat (1 / 4), F64.ofRat (1 / 8),
    F64.ofRat (1 / 2), F64.ofRat (1 / 4), F64.ofRat (1 / 16)] := by
  have f : ∀ q : ℚ, (F64.val (F64.ofRat q)).isSome = true ∧ F64.le (F64.ofRat 0) (F64.ofRat q) = true →
      FinNonneg (F64.ofRat q) := fun q h => ⟨fin_of h.1, h.2⟩
  exact C120_type5 _ crude_mono _ _ _ _ _ _ _ (f _ (by decide +kernel)) (f _ (by decide +kernel))
      (f _ (by decide +kernel)).1 (f _ (by decide +kernel)) (f _ (by decide +kernel)).1 (f _ (by decide +kernel))
      (f _ (by decide +kernel)) (by decide +kernel) (by decide +kernel) (by decide +kernel)

/-- `(x − 1/4) / (3/4)`, clipped at 0: the ends fit, though −1/4 is below 0. -/
example : Keeps64 crudeLibm (-2) [F64.ofRat 2, F64.ofRat (3 / 4), F64.ofRat (1 / 4)] := by
  refine C120_type2_inverse _ crude_mono _ _ _ ⟨fin_of (by decide +kernel), by decide +kernel⟩
    ⟨fin_of (by decide +kernel), by decide +kernel⟩ (fin_of (by decide +kernel)) ⟨?_, ?_⟩
  · intro u hu
    have e : eval (F64.ops crudeLibm) (-2) [F64.ofRat 2, F64.ofRat (3 / 4), F64.ofRat (1 / 4)] (F64.ofRat 0) =
      some (F64.ofRat 0) := by decide +kernel
    rw [e] at hu
    cases hu
    exact zero_le_zero
  · intro u hu
    have e : eval (F64.ops crudeLibm) (-2) [F64.ofRat 2, F64.ofRat (3 / 4), F64.ofRat (1 / 4)] (F64.ofRat 1) =
      some (F64.ofRat 1) := by decide +kernel
    rw [e] at hu
    cases hu
    exact F64.le_refl one_nn

/-- A platform whose power is a step below 1, higher for an exponent up to 1. -/
def stepLibm : Libm := { crudeLibm with
  powf := fun b e => if e = .nan then .nan else if F64.lt e (F64.ofRat 0) = true then F64.ofRat 0
    else if F64.lt b (F64.ofRat 1) = true then
      (if F64.lt (F64.ofRat 1) e = true then F64.ofRat (1 / 512) else F64.ofRat (1 / 8)) else b }

theorem step_mono : MonoLibm stepLibm := by
  have hnlt : ∀ g, F64.le (F64.ofRat 0) g = true → ¬ F64.lt g (F64.ofRat 0) = true := by
    intro g hg hc
    exact F64.lt_irrefl' (F64.lt_of_le_of_lt hg hc)
  have hpow : ∀ b e, F64.le (F64.ofRat 0) e = true → stepLibm.powf b e =
      if F64.lt b (F64.ofRat 1) = true then
        (if F64.lt (F64.ofRat 1) e = true then F64.ofRat (1 / 512) else F64.ofRat (1 / 8)) else b := by
    intro b e he
    show (if e = .nan then .nan else if F64.lt e (F64.ofRat 0) = true then F64.ofRat 0 else _) = _
    rw [if_neg (F64.le_nn he).2, if_neg (hnlt e he)]
  have hpow' : ∀ b e, F64.lt e (F64.ofRat 0) = true → stepLibm.powf b e = F64.ofRat 0 := by
    intro b e he
    show (if e = .nan then .nan else if F64.lt e (F64.ofRat 0) = true then F64.ofRat 0 else _) = F64.ofRat 0
    rw [if_neg (F64.le_nn (F64.le_of_lt he)).1, if_pos he]
  have hk : ∀ e, F64.le (F64.ofRat 0) (if F64.lt (F64.ofRat 1) e = true then F64.ofRat (1 / 512) else F64.ofRat (1 / 8)) =
      true ∧ F64.le (if F64.lt (F64.ofRat 1) e = true then F64.ofRat (1 / 512) else F64.ofRat (1 / 8)) (F64.ofRat 1) =
      true := by
    intro e
    split <;> decide +kernel
  have hbig : ∀ b e, F64.le (F64.ofRat 1) b = true → F64.le (F64.ofRat 0) e = true → stepLibm.powf b e = b := by
    intro b e hb he
    rw [hpow _ _ he, if_neg]
    intro hc
    exact F64.lt_irrefl' (F64.lt_of_le_of_lt hb hc)
  constructor
  · intro u v g h0 huv hg
    rw [hpow _ _ hg, hpow _ _ hg]
    by_cases hv : F64.lt v (F64.ofRat 1) = true
    · rw [if_pos hv, if_pos (F64.lt_of_le_of_lt huv hv)]
      exact F64.le_refl (F64.le_nn (hk g).1).2
    · rw [if_neg hv]
      split
      · exact F64.le_trans (hk g).2 (F64.le_of_not_lt (F64.le_nn huv).2 one_nn hv)
      · exact huv
  · intro u g h0 hg
    by_cases hlt : F64.lt g (F64.ofRat 0) = true
    · rw [hpow' _ _ hlt]
      exact zero_le_zero
    · rw [hpow _ _ (F64.le_of_not_lt hg zero_nn hlt)]
      split
      · exact (hk g).1
      · exact h0
  · intro g hg
    exact hbig _ _ (F64.le_refl one_nn) hg
  · intro b u v hb huv
    have hb0 := F64.le_trans zero_le_one64 hb
    by_cases hu : F64.lt u (F64.ofRat 0) = true
    · rw [hpow' _ _ hu]
      by_cases hv : F64.lt v (F64.ofRat 0) = true
      · rw [hpow' _ _ hv]
        exact zero_le_zero
      · rw [hbig _ _ hb (F64.le_of_not_lt (F64.le_nn huv).2 zero_nn hv)]
        exact hb0
    · have hu' := F64.le_of_not_lt (F64.le_nn huv).1 zero_nn hu
      rw [hbig _ _ hb hu', hbig _ _ hb (F64.le_trans hu' huv)]
      exact F64.le_refl (F64.le_nn hb).2
  · exact crude_mono.exp_mono
  · exact crude_mono.exp_nonneg
  · exact crude_mono.exp_nonpos
  · exact crude_mono.log_mono

/-- The hypotheses of the sRGB inverse hold on that platform. -/
example : Keeps64 stepLibm (-4) srgb := by
  refine (C120_srgb_inverse _ step_mono (by decide +kernel) ?_).1
  intro j v hj hv
  have e : eval (F64.ops stepLibm) 4 srgb (F64.ofRat (4045 / 100000)) = some (F64.ofRat (1 / 512)) := by decide +kernel
  rw [e] at hj
  cases hj
  have e : ∃ w, eval (F64.ops stepLibm) (-4) srgb (F64.ofRat (1 / 512)) = some w ∧
      F64.le (F64.div (F64.ofRat (1 / 512)) (F64.ofRat (100 / 1292))) w = true :=
    ⟨F64.div (F64.sub (F64.ofRat (1 / 8)) (F64.ofRat (55 / 1055))) (F64.ofRat (1000 / 1055)), by decide +kernel,
      by decide +kernel⟩
  obtain ⟨w, hw, h⟩ := e
  rw [hw] at hv
  cases hv
  exact h

/-- Type 8: `2^x − 1` with a power that is 2 for every exponent. -/
example : Keeps64 crudeLibm 8 [F64.ofRat 1, F64.ofRat 2, F64.ofRat 1, F64.ofRat 0, F64.ofRat (-1)] := by
  refine C120_type8 _ crude_mono _ _ _ _ _ ⟨one_fin, by decide +kernel⟩ (by decide +kernel)
    ⟨one_fin, by decide +kernel⟩ (fin_of (by decide +kernel)) (fin_of (by decide +kernel)) ⟨?_, ?_⟩
  · intro u hu
    have e : eval (F64.ops crudeLibm) 8 [F64.ofRat 1, F64.ofRat 2, F64.ofRat 1, F64.ofRat 0, F64.ofRat (-1)]
      (F64.ofRat 0) = some (F64.ofRat 1) := by decide +kernel
    rw [e] at hu
    cases hu
    exact zero_le_one64
  · intro u hu
    have e : eval (F64.ops crudeLibm) 8 [F64.ofRat 1, F64.ofRat 2, F64.ofRat 1, F64.ofRat 0, F64.ofRat (-1)]
      (F64.ofRat 1) = some (F64.ofRat 1) := by decide +kernel
    rw [e] at hu
    cases hu
    exact F64.le_refl one_nn

/-- The sigmoid of the crude platform: a step. -/
example : ∀ x, F64.le x (F64.ofRat 1) = true →
    ∃ y, eval (F64.ops crudeLibm) 109 [F64.ofRat 1] x = some y ∧ F64.le y (F64.ofRat 1) = true := by
  refine (C120_type109 _ crude_mono _ ⟨one_fin, by decide +kernel⟩ ?_).2
  intro v hv
  have e : eval (F64.ops crudeLibm) 109 [F64.ofRat 1] (F64.ofRat 1) = some (F64.ofRat 1) := by decide +kernel
  rw [e] at hv
  cases hv
  exact one_fin

/-- A platform with the two correctly rounded values. -/
example : ¬ Keeps64 { crudeLibm with exp := fun u => if F64.lt u (F64.ofRat 0) = true then F64.ofRat expDown else F64.ofRat expUp }
    109 [F64.ofRat (3 / 8)] :=
  (C120_sigmoid_below _ (by decide +kernel) (by decide +kernel)).2

end Lcms.Props
