import Verif.Model.DateTime
import Verif.Spec.Calendar
import Mathlib.Tactic.IntervalCases

namespace Lcms

open Spec

theorem leapYear_iff (y : Int) : leapYear y = true ↔ IsLeap y := by
  unfold leapYear IsLeap
  simp only [Bool.and_eq_true, beq_iff_eq, Bool.or_eq_true, bne_iff_ne, ne_eq]
  omega

/-- The cumulative table agrees with the lengths of the months. -/
theorem daysBefore_succ (y : Int) (m : Nat) (h1 : 1 ≤ m) (h2 : m ≤ 12) :
    daysBefore y (m + 1) = daysBefore y m + daysIn y m := by
  have hl := leapYear_iff y
  by_cases hy : IsLeap y
  · have hb := hl.mpr hy
    interval_cases m <;> simp [daysBefore, cumTable, daysIn, hb, hy]
  · have hb : leapYear y = false := by
      cases hc : leapYear y
      · rfl
      · exact absurd (hl.mp hc) hy
    interval_cases m <;> simp [daysBefore, cumTable, daysIn, hb, hy]

theorem daysBefore_mono (y : Int) (a k : Nat) (h1 : 1 ≤ a) (h2 : a + k ≤ 13) :
    daysBefore y a ≤ daysBefore y (a + k) := by
  induction k with
  | zero => exact le_refl _
  | succ k ih =>
    have := daysBefore_succ y (a + k) (by omega) (by omega)
    have := ih (by omega)
    rw [show a + (k + 1) = a + k + 1 by omega]
    omega

theorem countP_range (p : Nat → Bool) (n m : Nat) (hm : m ≤ n) (h : ∀ i, i < n → (p i = true ↔ i < m)) :
    (List.range n).countP p = m := by
  induction n generalizing m with
  | zero => simp; omega
  | succ n ih =>
    rw [List.range_succ, List.countP_append]
    by_cases hc : m = n + 1
    · subst hc
      rw [ih n (le_refl _) (fun i hi => by rw [h i (by omega)]; omega)]
      simp [(h n (by omega)).mpr (by omega)]
    · rw [ih m (by omega) (fun i hi => h i (by omega))]
      have : ¬ (p n = true) := fun hp => by have := (h n (by omega)).mp hp; omega
      simp [this]

/-- Reading month and day back from the ordinal. -/
theorem month_day (y : Int) (m d : Nat) (h1 : 1 ≤ m) (h2 : m ≤ 12) (h3 : 1 ≤ d)
    (h4 : daysBefore y m + d ≤ daysBefore y (m + 1)) :
    (⟨y, daysBefore y m + d⟩ : NaiveDate).month = m ∧ (⟨y, daysBefore y m + d⟩ : NaiveDate).day = d := by
  have hm : (⟨y, daysBefore y m + d⟩ : NaiveDate).month = m := by
    unfold NaiveDate.month
    apply countP_range _ _ _ h2
    intro i hi
    simp only [decide_eq_true_eq]
    by_cases hc : i < m
    · have := daysBefore_mono y (i + 1) (m - (i + 1)) (by omega) (by omega)
      rw [show i + 1 + (m - (i + 1)) = m by omega] at this
      omega
    · have := daysBefore_mono y (m + 1) (i - m) (by omega) (by omega)
      rw [show m + 1 + (i - m) = i + 1 by omega] at this
      omega
  refine ⟨hm, ?_⟩
  unfold NaiveDate.day
  rw [hm]
  simp

/-- Every ordinal of a year lies in some month. -/
theorem ordinal_cases (y : Int) (o : Nat) (h1 : 1 ≤ o) (h2 : o ≤ daysBefore y 13) :
    ∃ m d, 1 ≤ m ∧ m ≤ 12 ∧ 1 ≤ d ∧ daysBefore y m + d ≤ daysBefore y (m + 1) ∧ o = daysBefore y m + d := by
  have key : ∀ k, k ≤ 12 → o ≤ daysBefore y (k + 1) → ∃ m d, 1 ≤ m ∧ m ≤ 12 ∧ 1 ≤ d ∧
      daysBefore y m + d ≤ daysBefore y (m + 1) ∧ o = daysBefore y m + d := by
    intro k
    induction k with
    | zero => intro _ h; simp [daysBefore, cumTable] at h; omega
    | succ k ih =>
      intro hk h
      by_cases hc : o ≤ daysBefore y (k + 1)
      · exact ih (by omega) hc
      · exact ⟨k + 1, o - daysBefore y (k + 1), by omega, hk, by omega, by omega, by omega⟩
  exact key 12 (le_refl _) h2

/-- What chrono guarantees of every `NaiveDateTime` it hands out (its representation invariant). -/
structure NaiveDateTime.WF (n : NaiveDateTime) : Prop where
  ord_pos : 1 ≤ n.date.ordinal
  ord_le : n.date.ordinal ≤ if IsLeap n.date.year then 366 else 365
  secs : n.time.secs < 86400

theorem daysBefore_13 (y : Int) : daysBefore y 13 = if IsLeap y then 366 else 365 := by
  have hl := leapYear_iff y
  by_cases hy : IsLeap y
  · simp [daysBefore, cumTable, hl.mpr hy, hy]
  · have hb : leapYear y = false := by
      cases hc : leapYear y
      · rfl
      · exact absurd (hl.mp hc) hy
    simp [daysBefore, cumTable, hb, hy]

theorem fromYmd_eq (y : Int) (m d : Nat) :
    NaiveDate.fromYmd y m d = if ValidDate y m d then some ⟨y, daysBefore y m + d⟩ else none := by
  unfold NaiveDate.fromYmd
  by_cases hv : ValidDate y m d
  · have hv' := hv
    obtain ⟨a, b, c, e⟩ := hv'
    have := daysBefore_succ y m a b
    rw [if_pos hv, if_pos ⟨a, b, c, by omega⟩]
  · rw [if_neg hv, if_neg]
    rintro ⟨a, b, c, e⟩
    have := daysBefore_succ y m a b
    exact hv ⟨a, b, c, by omega⟩

end Lcms
