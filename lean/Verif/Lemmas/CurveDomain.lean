import Verif.Lemmas.CurvesReal
import Verif.Spec.IccCurves

/-! # Lemmas: where the curves have values -/

namespace Lcms.Curves

open Lcms.Spec

noncomputable instance (x : ℝ) : Decidable (Tiny x) := by unfold Tiny; infer_instance

/-- The partial real is a number. -/
def Num (v : PReal) : Prop := ∃ y, v = some y

theorem num_some (y : ℝ) : Num (some y) := ⟨y, rfl⟩

theorem num_none : ¬ Num none := by rintro ⟨y, h⟩; cases h

theorem r_pow_has {x g : ℝ} (h : HasPow x g) : realOps.powf (some x) (some g) = some (x ^ g) := by
  refine if_neg ?_
  rcases h with h | ⟨h, h'⟩ | ⟨h, h'⟩
  · rintro (⟨h1, -⟩ | ⟨h1, -⟩) <;> linarith
  · rintro (⟨h1, -⟩ | ⟨-, h1⟩) <;> linarith
  · rintro (⟨-, h1⟩ | ⟨h1, -⟩)
    · exact h1 h'
    · linarith

theorem r_pow_not {x g : ℝ} (h : ¬ HasPow x g) : realOps.powf (some x) (some g) = none := by
  refine if_pos ?_
  unfold HasPow at h
  push Not at h
  obtain ⟨h1, h2, h3⟩ := h
  rcases lt_or_eq_of_le h1 with h4 | h4
  · exact .inl ⟨h4, fun ⟨n, hn⟩ => h3 h4 n hn⟩
  · exact .inr ⟨h4, h2 h4⟩

theorem num_pow (x g : ℝ) : Num (realOps.powf (some x) (some g)) ↔ HasPow x g := by
  by_cases h : HasPow x g
  · rw [r_pow_has h]; exact iff_of_true (num_some _) h
  · rw [r_pow_not h]; exact iff_of_false num_none h

theorem num_add (v : PReal) (y : ℝ) : Num (realOps.add v (some y)) ↔ Num v := by
  cases v with
  | none => exact iff_of_false num_none num_none
  | some x => exact iff_of_true (num_some _) (num_some _)

theorem num_sub (v : PReal) (y : ℝ) : Num (realOps.sub v (some y)) ↔ Num v := by
  cases v with
  | none => exact iff_of_false num_none num_none
  | some x => exact iff_of_true (num_some _) (num_some _)

theorem num_sub' (v : PReal) (y : ℝ) : Num (realOps.sub (some y) v) ↔ Num v := by
  cases v with
  | none => exact iff_of_false num_none num_none
  | some x => exact iff_of_true (num_some _) (num_some _)

theorem num_mul (v : PReal) (y : ℝ) : Num (realOps.mul (some y) v) ↔ Num v := by
  cases v with
  | none => exact iff_of_false num_none num_none
  | some x => exact iff_of_true (num_some _) (num_some _)

theorem num_div (v : PReal) {y : ℝ} (hy : y ≠ 0) : Num (realOps.div v (some y)) ↔ Num v := by
  cases v with
  | none => exact iff_of_false num_none num_none
  | some x => rw [r_div _ hy]; exact iff_of_true (num_some _) (num_some _)

theorem r_div0 (x : ℝ) : realOps.div (some x) (some 0) = none := if_pos rfl

theorem r_pow_none (v : PReal) : realOps.powf v none = none := by cases v <;> rfl

theorem r_pow_none' (v : PReal) : realOps.powf none v = none := by cases v <;> rfl

theorem r_log_not {x : ℝ} (h : ¬ 0 < x) : realOps.log10 (some x) = none := if_neg h

theorem tiny_iff (x : ℝ) : tiny realOps (some x) = true ↔ Tiny x := by rw [r_tiny, Tiny]

theorem not_tiny_ne {x : ℝ} (h : ¬ Tiny x) : x ≠ 0 := by
  rintro rfl
  apply h
  norm_num [Tiny]

/-- A non-tiny number above `−1/10000` is positive. -/
theorem pos_of_not_tiny {x : ℝ} (h : ¬ Tiny x) (h' : -(1 / 10000) < x) : 0 < x := by
  unfold Tiny at h
  rw [abs_lt] at h
  push Not at h
  have := h h'
  linarith

theorem tiny_gt {x : ℝ} (h : Tiny x) : -(1 / 10000) < x := (abs_lt.mp h).1

/-- A power of a non-negative number to `1/g`. -/
theorem hasPow_inv {x g : ℝ} (hx : 0 ≤ x) (hg : g ≠ 0) : HasPow x (1 / g) ↔ x ≠ 0 ∨ 0 < g := by
  unfold HasPow
  rcases eq_or_lt_of_le hx with h | h
  · subst h
    constructor
    · rintro (h | ⟨-, h⟩ | ⟨h, -⟩)
      · exact absurd h (lt_irrefl _)
      · right
        rcases lt_or_gt_of_ne hg with h' | h'
        · have := one_div_neg.mpr h'; linarith
        · exact h'
      · exact absurd h (lt_irrefl _)
    · rintro (h | h)
      · exact absurd rfl h
      · exact .inr (.inl ⟨rfl, (one_div_pos.mpr h).le⟩)
  · exact iff_of_true (.inl h) (.inl h.ne')

theorem maps_num {type : Int32} {ps : List ℝ} {x : ℝ} {v : PReal}
    (h : eval realOps type (ps.map some) (some x) = some v) : (∃ y, Maps type ps x y) ↔ Num v := by
  unfold Maps
  rw [h]
  constructor
  · rintro ⟨y, hy⟩; exact ⟨y, Option.some.inj hy⟩
  · rintro ⟨y, rfl⟩; exact ⟨y, rfl⟩

theorem num_f1 (g x : ℝ) : Num (f1 realOps (some g) (some x)) ↔ x ≠ 0 ∨ 0 ≤ g := by
  unfold f1
  simp only [r_lit0, r_lt]
  by_cases h : x < 0
  · rw [if_pos h]
    refine iff_of_true ?_ (.inl h.ne)
    split
    · exact num_some _
    · exact num_some _
  · rw [if_neg h, num_pow]
    unfold HasPow
    constructor
    · rintro (h | ⟨-, h⟩ | ⟨h', -⟩)
      · exact .inl h.ne'
      · exact .inr h
      · exact absurd h' h
    · rintro (h' | h')
      · exact .inl (lt_of_le_of_ne (not_lt.mp h) h'.symm)
      · rcases eq_or_lt_of_le (not_lt.mp h) with e | e
        · exact .inr (.inl ⟨e.symm, h'⟩)
        · exact .inl e

theorem num_g1 (g x : ℝ) : Num (g1 realOps (some g) (some x)) ↔ x ≠ 0 ∨ -(1 / 10000) < g := by
  unfold g1
  simp only [r_lit0, r_lt, tiny_iff]
  by_cases h : x < 0
  · rw [if_pos h]
    refine iff_of_true ?_ (.inl h.ne)
    split
    · exact num_some _
    · exact num_some _
  · rw [if_neg h]
    by_cases ht : Tiny g
    · rw [if_pos ht]
      exact iff_of_true (num_some _) (.inr (tiny_gt ht))
    · have hg := not_tiny_ne ht
      rw [if_neg ht, r_lit1, r_div _ hg, num_pow, hasPow_inv (not_lt.mp h) hg]
      exact or_congr_right ⟨fun h => by linarith, pos_of_not_tiny ht⟩

theorem num_f2 (g a b x : ℝ) : Num (f2 realOps (some g) (some a) (some b) (some x)) := by
  unfold f2
  by_cases ht : Tiny a
  · rw [if_pos ((tiny_iff a).mpr ht), r_lit0]; exact num_some _
  · rw [if_neg (mt (tiny_iff a).mp ht)]
    simp only [r_neg, r_div _ (not_tiny_ne ht), r_le, r_mul, r_add, r_lit0, r_lt]
    split
    · split
      · rename_i h; rw [r_pow_pos h]; exact num_some _
      · exact num_some _
    · exact num_some _

theorem num_g2 (g a b x : ℝ) :
    Num (g2 realOps (some g) (some a) (some b) (some x)) ↔ x ≠ 0 ∨ -(1 / 10000) < g ∨ Tiny a := by
  unfold g2
  simp only [Bool.or_eq_true, tiny_iff, r_lit0, r_lt]
  by_cases ht : Tiny g ∨ Tiny a
  · rw [if_pos ht]
    refine iff_of_true (num_some _) ?_
    rcases ht with ht | ht
    · exact .inr (.inl (tiny_gt ht))
    · exact .inr (.inr ht)
  · rw [if_neg ht]
    push Not at ht
    obtain ⟨hg, ha⟩ := ht
    by_cases hx : x < 0
    · simp only [if_pos hx, r_lt, lt_irrefl, if_false]
      exact iff_of_true (num_some _) (.inl hx.ne)
    · simp only [if_neg hx, r_lit1, r_div _ (not_tiny_ne hg)]
      have hp := hasPow_inv (not_lt.mp hx) (not_tiny_ne hg)
      have hgg : 0 < g ↔ -(1 / 10000) < g := ⟨fun h => by linarith, pos_of_not_tiny hg⟩
      by_cases h : HasPow x (1 / g)
      · rw [r_pow_has h]
        simp only [r_sub, r_div _ (not_tiny_ne ha), r_lt]
        refine iff_of_true ?_ ?_
        · split <;> exact num_some _
        · rcases hp.mp h with h' | h'
          · exact .inl h'
          · exact .inr (.inl (hgg.mp h'))
      · rw [r_pow_not h]
        refine iff_of_false num_none ?_
        rintro (h' | h' | h')
        · exact h (hp.mpr (.inl h'))
        · exact h (hp.mpr (.inr (hgg.mpr h')))
        · exact ha h'

theorem num_f3 (g a b c x : ℝ) : Num (f3 realOps (some g) (some a) (some b) (some c) (some x)) := by
  unfold f3
  by_cases ht : Tiny a
  · rw [if_pos ((tiny_iff a).mpr ht), r_lit0]; exact num_some _
  · rw [if_neg (mt (tiny_iff a).mp ht)]
    simp only [r_neg, r_div _ (not_tiny_ne ht), r_lit0, r_max, r_le, r_mul, r_add, r_lt]
    split
    · split
      · rename_i h; rw [r_pow_pos h]; exact num_some _
      · exact num_some _
    · exact num_some _

theorem num_g3 (g a b c x : ℝ) :
    Num (g3 realOps (some g) (some a) (some b) (some c) (some x)) ↔ x ≤ c ∨ g ≠ 0 ∨ Tiny a := by
  unfold g3
  simp only [tiny_iff, r_le, r_sub, r_lit0, r_lt, r_lit1, r_neg]
  by_cases ha : Tiny a
  · rw [if_pos ha]
    exact iff_of_true (num_some _) (.inr (.inr ha))
  · rw [if_neg ha]
    have ha0 := not_tiny_ne ha
    by_cases hc : c ≤ x
    · rw [if_pos hc]
      by_cases he : 0 < x - c
      · rw [if_pos he, num_div _ ha0, num_sub]
        by_cases hg : g = 0
        · subst hg
          rw [r_div0, r_pow_none]
          refine iff_of_false num_none ?_
          rintro (h | h | h)
          · linarith
          · exact h rfl
          · exact ha h
        · rw [r_div _ hg, r_pow_pos he]
          exact iff_of_true (num_some _) (.inr (.inl hg))
      · rw [if_neg he]
        exact iff_of_true (num_some _) (.inl (by linarith))
    · rw [if_neg hc, r_div _ ha0]
      exact iff_of_true (num_some _) (.inl (by linarith))

theorem num_f4 (g a b c d x : ℝ) : Num (f4 realOps (some g) (some a) (some b) (some c) (some d) (some x)) := by
  unfold f4
  simp only [r_le, r_mul, r_add, r_lit0, r_lt]
  split
  · split
    · rename_i h; rw [r_pow_pos h]; exact num_some _
    · exact num_some _
  · exact num_some _

theorem num_g4 (g a b c d x : ℝ) :
    Num (g4 realOps (some g) (some a) (some b) (some c) (some d) (some x)) ↔
      x ≠ 0 ∨ -(1 / 10000) < g ∨ Tiny a ∨ 0 ≤ a * d + b := by
  unfold g4
  simp only [r_mul, r_add, r_lit0, r_lt, Bool.or_eq_true, tiny_iff, r_lit1]
  have low : Num (if Tiny c then some 0 else realOps.div (some x) (some c)) := by
    split
    · exact num_some _
    · rename_i h; rw [r_div _ (not_tiny_ne h)]; exact num_some _
  have high : ∀ disc : ℝ, 0 ≤ disc → disc ≤ x → (Num (if Tiny g ∨ Tiny a then some 0
        else realOps.div (realOps.sub (realOps.powf (some x) (realOps.div (some 1) (some g))) (some b)) (some a)) ↔
      x ≠ 0 ∨ -(1 / 10000) < g ∨ Tiny a) := by
    intro disc h0 h1
    by_cases ht : Tiny g ∨ Tiny a
    · rw [if_pos ht]
      refine iff_of_true (num_some _) ?_
      rcases ht with ht | ht
      · exact .inr (.inl (tiny_gt ht))
      · exact .inr (.inr ht)
    · rw [if_neg ht]
      push Not at ht
      rw [num_div _ (not_tiny_ne ht.2), num_sub, r_div _ (not_tiny_ne ht.1), num_pow,
        hasPow_inv (h0.trans h1) (not_tiny_ne ht.1)]
      constructor
      · rintro (h | h)
        · exact .inl h
        · exact .inr (.inl (by linarith))
      · rintro (h | h | h)
        · exact .inl h
        · exact .inr (pos_of_not_tiny ht.1 h)
        · exact absurd h ht.2
  by_cases he : a * d + b < 0
  · rw [if_pos he]
    simp only [r_le]
    by_cases hx : 0 ≤ x
    · rw [if_pos hx, high 0 le_rfl hx]
      constructor
      · rintro (h | h | h)
        exacts [.inl h, .inr (.inl h), .inr (.inr (.inl h))]
      · rintro (h | h | h | h)
        exacts [.inl h, .inr (.inl h), .inr (.inr h), absurd h (not_le.mpr he)]
    · rw [if_neg hx]
      exact iff_of_true low (.inl (by linarith))
  · rw [if_neg he]
    have he' := not_lt.mp he
    refine iff_of_true ?_ (.inr (.inr (.inr he')))
    by_cases hp : HasPow (a * d + b) g
    · rw [r_pow_has hp]
      simp only [r_le]
      by_cases hx : (a * d + b) ^ g ≤ x
      · rw [if_pos hx]
        refine (high _ (Real.rpow_nonneg he' g) hx).mpr ?_
        by_cases h0 : x = 0
        · subst h0
          right; left
          have hz : (a * d + b) ^ g = 0 := le_antisymm hx (Real.rpow_nonneg he' g)
          rw [Real.rpow_eq_zero_iff_of_nonneg he'] at hz
          rcases hp with h | ⟨-, h⟩ | ⟨h, -⟩
          · linarith [hz.1]
          · linarith
          · linarith
        · exact .inl h0
      · rw [if_neg hx]; exact low
    · rw [r_pow_not hp]
      exact low

theorem num_f5 (g a b c d e f x : ℝ) :
    Num (f5 realOps (some g) (some a) (some b) (some c) (some d) (some e) (some f) (some x)) := by
  unfold f5
  simp only [r_le, r_mul, r_add, r_lit0, r_lt]
  split
  · split
    · rename_i h; rw [r_pow_pos h]; exact num_some _
    · exact num_some _
  · exact num_some _

theorem num_g5 (g a b c d e f x : ℝ) :
    Num (g5 realOps (some g) (some a) (some b) (some c) (some d) (some e) (some f) (some x)) ↔
      x ≠ e ∨ -(1 / 10000) < g ∨ Tiny a ∨ e < c * d + f := by
  unfold g5
  simp only [r_mul, r_add, r_le, r_sub, r_lit0, r_lt, Bool.or_eq_true, tiny_iff, r_lit1]
  by_cases hd : c * d + f ≤ x
  · rw [if_pos hd]
    by_cases he : x - e < 0
    · rw [if_pos he]
      exact iff_of_true (num_some _) (.inl (by linarith))
    · rw [if_neg he]
      have he' := not_lt.mp he
      by_cases ht : Tiny g ∨ Tiny a
      · rw [if_pos ht]
        refine iff_of_true (num_some _) ?_
        rcases ht with ht | ht
        · exact .inr (.inl (tiny_gt ht))
        · exact .inr (.inr (.inl ht))
      · rw [if_neg ht]
        push Not at ht
        rw [num_div _ (not_tiny_ne ht.2), num_sub, r_div _ (not_tiny_ne ht.1), num_pow,
          hasPow_inv he' (not_tiny_ne ht.1), sub_ne_zero]
        constructor
        · rintro (h | h)
          · exact .inl h
          · exact .inr (.inl (by linarith))
        · rintro (h | h | h | h)
          · exact .inl h
          · exact .inr (pos_of_not_tiny ht.1 h)
          · exact absurd h ht.2
          · left; intro h'; linarith
  · rw [if_neg hd]
    refine iff_of_true ?_ ?_
    · split
      · exact num_some _
      · rename_i h; rw [r_div _ (not_tiny_ne h)]; exact num_some _
    · by_cases hx : x = e
      · right; right; right; linarith
      · exact .inl hx

theorem num_f6 (g a b c x : ℝ) :
    Num (f6 realOps (some g) (some a) (some b) (some c) (some x)) ↔ a * x + b ≠ 0 ∨ 0 ≤ g := by
  unfold f6
  simp only [r_mul, r_add, r_lit0, r_lt]
  by_cases h : a * x + b < 0
  · rw [if_pos h]; exact iff_of_true (num_some _) (.inl h.ne)
  · rw [if_neg h, num_add, num_pow]
    unfold HasPow
    constructor
    · rintro (h | ⟨-, h⟩ | ⟨h', -⟩)
      exacts [.inl h.ne', .inr h, absurd h' h]
    · rintro (h' | h')
      · exact .inl (lt_of_le_of_ne (not_lt.mp h) h'.symm)
      · rcases eq_or_lt_of_le (not_lt.mp h) with e | e
        · exact .inr (.inl ⟨e.symm, h'⟩)
        · exact .inl e

theorem num_g6 (g a b c x : ℝ) :
    Num (g6 realOps (some g) (some a) (some b) (some c) (some x)) ↔
      x < c ∨ (c < x ∧ g ≠ 0) ∨ 0 < g ∨ Tiny a := by
  unfold g6
  simp only [tiny_iff, r_sub, r_lit0, r_lt, r_lit1]
  by_cases ha : Tiny a
  · rw [if_pos ha]; exact iff_of_true (num_some _) (.inr (.inr (.inr ha)))
  · rw [if_neg ha]
    by_cases he : x - c < 0
    · rw [if_pos he]; exact iff_of_true (num_some _) (.inl (by linarith))
    · rw [if_neg he, num_div _ (not_tiny_ne ha), num_sub]
      by_cases hg : g = 0
      · subst hg
        rw [r_div0, r_pow_none]
        refine iff_of_false num_none ?_
        rintro (h | ⟨-, h⟩ | h | h)
        · linarith
        · exact h rfl
        · exact lt_irrefl _ h
        · exact ha h
      · rw [r_div _ hg, num_pow, hasPow_inv (not_lt.mp he) hg, sub_ne_zero]
        constructor
        · rintro (h | h)
          · exact .inr (.inl ⟨lt_of_le_of_ne (by linarith) h.symm, hg⟩)
          · exact .inr (.inr (.inl h))
        · rintro (h | ⟨h, -⟩ | h | h)
          · linarith
          · exact .inl h.ne'
          · exact .inr h
          · exact absurd h ha

theorem num_f7 (g a b c d x : ℝ) :
    Num (f7 realOps (some g) (some a) (some b) (some c) (some d) (some x)) ↔ HasPow x g := by
  unfold f7
  by_cases h : HasPow x g
  · rw [r_pow_has h]
    simp only [r_mul, r_add, r_lit0, r_le]
    refine iff_of_true ?_ h
    split
    · exact num_some _
    · rename_i h'
      rw [r_log (not_le.mp h'), r_mul, r_add]
      exact num_some _
  · rw [r_pow_not h]
    exact iff_of_false num_none h

theorem num_g7 (g a b c d x : ℝ) :
    Num (g7 realOps (some g) (some a) (some b) (some c) (some d) (some x)) ↔
      g < 1 / 10000 ∨ a < 1 / 10000 ∨ b < 1 / 10000 ∨
        HasPow (((10 : ℝ) ^ ((x - d) / a) - c) / b) (1 / g) := by
  unfold g7
  simp only [r_tol, r_lt, Bool.or_eq_true]
  by_cases h : (g < 1 / 10000 ∨ a < 1 / 10000) ∨ b < 1 / 10000
  · rw [if_pos h, r_lit0]
    refine iff_of_true (num_some _) ?_
    rcases h with (h | h) | h
    exacts [.inl h, .inr (.inl h), .inr (.inr (.inl h))]
  · rw [if_neg h]
    push Not at h
    obtain ⟨⟨hg, ha⟩, hb⟩ := h
    rw [r_sub, r_div _ (by linarith : a ≠ 0), r_lit10, r_pow_pos (by norm_num), r_sub,
      r_div _ (by linarith : b ≠ 0), r_lit1, r_div _ (by linarith : g ≠ 0), num_pow]
    constructor
    · exact fun h => .inr (.inr (.inr h))
    · rintro (h | h | h | h)
      exacts [by linarith, by linarith, by linarith, h]

theorem num_f8 (a b c d e x : ℝ) :
    Num (f8 realOps (some a) (some b) (some c) (some d) (some e) (some x)) ↔ HasPow b (c * x + d) := by
  unfold f8
  rw [num_add, num_mul, r_mul, r_add, num_pow]

theorem num_g8 (a b c d e x : ℝ) :
    Num (g8 realOps (some a) (some b) (some c) (some d) (some e) (some x)) ↔
      x < e ∨ Tiny a ∨ Tiny c ∨ (0 < a ∧ e < x ∧ 0 < b ∧ b ≠ 1) := by
  unfold g8
  simp only [r_sub, r_lit0, r_lt, Bool.or_eq_true, tiny_iff]
  by_cases hx : x - e < 0
  · rw [if_pos hx]; exact iff_of_true (num_some _) (.inl (by linarith))
  · rw [if_neg hx]
    by_cases ht : Tiny a ∨ Tiny c
    · rw [if_pos ht]
      refine iff_of_true (num_some _) ?_
      rcases ht with h | h
      exacts [.inr (.inl h), .inr (.inr (.inl h))]
    · rw [if_neg ht]
      push Not at ht
      have ha := not_tiny_ne ht.1
      rw [num_div _ (not_tiny_ne ht.2), num_sub, r_div _ ha]
      have hiff : (x < e ∨ Tiny a ∨ Tiny c ∨ (0 < a ∧ e < x ∧ 0 < b ∧ b ≠ 1)) ↔ 0 < a ∧ e < x ∧ 0 < b ∧ b ≠ 1 := by
        constructor
        · rintro (h | h | h | h)
          exacts [by linarith, absurd h ht.1, absurd h ht.2, h]
        · exact fun h => .inr (.inr (.inr h))
      rw [hiff]
      have hdiv : 0 < (x - e) / a ↔ 0 < a ∧ e < x := by
        rw [div_pos_iff]
        constructor
        · rintro (⟨h1, h2⟩ | ⟨h1, -⟩)
          · exact ⟨h2, by linarith⟩
          · exact absurd h1 hx
        · rintro ⟨h1, h2⟩
          exact .inl ⟨by linarith, h1⟩
      by_cases h1 : 0 < (x - e) / a
      · have h1' := hdiv.mp h1
        by_cases h2 : 0 < b
        · rw [r_log h1, r_log h2]
          by_cases h3 : b = 1
          · subst h3
            rw [Real.logb_one, r_div0]
            refine iff_of_false num_none ?_
            rintro ⟨-, -, -, h⟩
            exact h rfl
          · have hl : Real.logb 10 b ≠ 0 := by
              intro h
              rw [Real.logb_eq_zero] at h
              rcases h with h | h | h | h | h | h
              · norm_num at h
              · norm_num at h
              · norm_num at h
              · linarith
              · exact h3 h
              · linarith
            rw [r_div _ hl]
            exact iff_of_true (num_some _) ⟨h1'.1, h1'.2, h2, h3⟩
        · rw [r_log h1, r_log_not h2]
          refine iff_of_false num_none ?_
          rintro ⟨-, -, h, -⟩
          exact h2 h
      · rw [r_log_not h1]
        refine iff_of_false num_none ?_
        rintro ⟨h, h', -⟩
        exact h1 (hdiv.mpr ⟨h, h'⟩)

theorem num_f108 (g x : ℝ) :
    Num (f108 realOps (some g) (some x)) ↔
      Tiny g ∨ (HasPow (1 - x) (1 / g) ∧ HasPow (1 - (1 - x) ^ (1 / g)) (1 / g)) := by
  unfold f108
  simp only [tiny_iff, r_lit0, r_lit1, r_sub]
  by_cases ht : Tiny g
  · rw [if_pos ht]; exact iff_of_true (num_some _) (.inl ht)
  · rw [if_neg ht, r_div _ (not_tiny_ne ht)]
    by_cases h : HasPow (1 - x) (1 / g)
    · rw [r_pow_has h, r_sub, num_pow]
      exact ⟨fun h' => .inr ⟨h, h'⟩, fun h' => h'.elim (fun h' => absurd h' ht) (·.2)⟩
    · rw [r_pow_not h]
      exact iff_of_false num_none (fun h' => h'.elim ht (fun h' => h h'.1))

theorem num_g108 (g x : ℝ) :
    Num (g108 realOps (some g) (some x)) ↔ HasPow x g ∧ HasPow (1 - x ^ g) g := by
  unfold g108
  rw [r_lit1, num_sub']
  by_cases h : HasPow x g
  · rw [r_pow_has h, r_sub, num_pow]
    exact ⟨fun h' => ⟨h, h'⟩, (·.2)⟩
  · rw [r_pow_not h]
    exact iff_of_false num_none (fun h' => h h'.1)

theorem sb_zero_k (t : ℝ) : sb 0 t = 0 := by unfold sb; norm_num

theorem num_sigmoid (k x : ℝ) : Num (sigmoidFactory realOps (some k) (some x)) ↔ k ≠ 0 := by
  unfold sigmoidFactory
  by_cases hk : k = 0
  · subst hk
    simp only [r_lit1, r_sb, r_lith, sb_zero_k, r_div0]
    exact iff_of_false num_none (fun h => h rfl)
  · simp only [r_lit1, r_sb, r_lith, r_lit2, r_mul, r_sub, r_div _ (sb_one_ne hk), r_add]
    exact iff_of_true (num_some _) hk

theorem sb_one_tanh (k : ℝ) : 2 * sb k 1 = (1 - Real.exp (-k)) / (1 + Real.exp (-k)) := by
  unfold sb
  rw [mul_one]
  have h := Real.exp_pos (-k)
  field_simp
  ring

theorem num_invSigmoid (k x : ℝ) :
    Num (invertedSigmoidFactory realOps (some k) (some x)) ↔
      k ≠ 0 ∧ |(2 * x - 1) * ((1 - Real.exp (-k)) / (1 + Real.exp (-k)))| < 1 := by
  unfold invertedSigmoidFactory invertedSigmoidBase
  by_cases hk : k = 0
  · subst hk
    simp only [r_lit1, r_sb, r_lith, sb_zero_k, r_div0]
    exact iff_of_false num_none (fun h => h.1 rfl)
  · have h1 := sb_one_ne hk
    have hc : (1 : ℝ) / 2 / sb k 1 ≠ 0 := div_ne_zero (by norm_num) h1
    rw [← sb_one_tanh]
    have hu : (x - 1 / 2) / (1 / 2 / sb k 1) = (2 * x - 1) * sb k 1 := by field_simp
    simp only [r_lit1, r_sb, r_lith, r_lit2, r_sub, r_div _ h1, r_div _ hc, hu, r_add]
    rw [show (2 * x - 1) * (2 * sb k 1) = 2 * ((2 * x - 1) * sb k 1) by ring]
    generalize (2 * x - 1) * sb k 1 = u
    rw [abs_lt]
    by_cases h0 : u + 1 / 2 = 0
    · rw [h0, r_div0]
      refine iff_of_false num_none ?_
      rintro ⟨-, h, -⟩
      linarith
    · rw [r_div _ h0, r_sub]
      have key : 0 < 1 / (u + 1 / 2) - 1 ↔ -1 < 2 * u ∧ 2 * u < 1 := by
        constructor
        · intro h
          have hpos : 0 < u + 1 / 2 := by
            by_contra hn
            have : 1 / (u + 1 / 2) ≤ 0 := one_div_nonpos.mpr (not_lt.mp hn)
            linarith
          have h' : 1 < 1 / (u + 1 / 2) := by linarith
          rw [lt_div_iff₀ hpos] at h'
          exact ⟨by linarith, by linarith⟩
        · rintro ⟨h, h'⟩
          have hpos : 0 < u + 1 / 2 := by linarith
          have : 1 < 1 / (u + 1 / 2) := by rw [lt_div_iff₀ hpos]; linarith
          linarith
      by_cases hp : 0 < 1 / (u + 1 / 2) - 1
      · rw [r_log hp, r_neg, r_div _ hk, r_add, r_div _ (two_ne_zero' ℝ)]
        exact iff_of_true (num_some _) ⟨hk, key.mp hp⟩
      · rw [r_log_not hp]
        exact iff_of_false num_none (fun h => hp (key.mpr h.2))

end Lcms.Curves
