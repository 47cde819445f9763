import Verif.Props.CurvesIcc
import Verif.Spec.CurveValues

/-! # Property C97: the values of the curves -/

namespace Lcms.Props

open Lcms Curves Spec

theorem val_f1 {g x : ℝ} (h : Domain 1 [g] x) : f1 realOps (some g) (some x) = some (Value 1 [g] x) := by
  have hp := (num_f1 g x).mpr h
  unfold f1 at hp ⊢
  simp only [r_lit0, r_lt, r_abs, r_lit1, r_sub, r_tol] at hp ⊢
  show _ = some (if 0 ≤ x then x ^ g else if |g| < 10001 / 10000 then x else 0)
  by_cases hx : x < 0
  · rw [if_pos hx, if_neg (not_le.mpr hx)]
    by_cases hg : |g| < 10001 / 10000
    · rw [if_pos hg, if_pos (by linarith)]
    · rw [if_neg hg, if_neg (by intro h; exact hg (by linarith))]
  · rw [if_neg hx] at hp ⊢
    rw [if_pos (not_lt.mp hx), r_pow_has ((num_pow x g).mp hp)]

theorem val_g1 {g x : ℝ} (h : Domain (-1) [g] x) : g1 realOps (some g) (some x) = some (Value (-1) [g] x) := by
  have hp := (num_g1 g x).mpr h
  unfold g1 at hp ⊢
  simp only [r_lit0, r_lt, r_abs, r_lit1, r_sub, r_tol, tiny_iff] at hp ⊢
  show _ = some (if 0 ≤ x then (if Tiny g then 10 ^ 22 else x ^ (1 / g)) else if Tiny (g - 1) then x else 0)
  by_cases hx : x < 0
  · rw [if_pos hx, if_neg (not_le.mpr hx)]
    by_cases h1 : |g - 1| < 1 / 10000
    · rw [if_pos h1, if_pos (show Tiny (g - 1) from h1)]
    · rw [if_neg h1, if_neg (show ¬ Tiny (g - 1) from h1)]
  · rw [if_neg hx] at hp ⊢
    rw [if_pos (not_lt.mp hx)]
    by_cases ht : Tiny g
    · rw [if_pos ht, if_pos ht, r_lit]; norm_num
    · rw [if_neg ht] at hp ⊢
      rw [if_neg ht]
      rw [r_div _ (not_tiny_ne ht)] at hp ⊢
      rw [r_pow_has ((num_pow _ _).mp hp)]

theorem not_tiny_cases {a : ℝ} (h : ¬ Tiny a) : 1 / 10000 ≤ a ∨ a ≤ -(1 / 10000) := by
  unfold Tiny at h
  rw [not_lt, le_abs] at h
  rcases h with h | h
  · exact .inl h
  · exact .inr (by linarith)

theorem tiny_bounds {a : ℝ} (h : Tiny a) : -(1 / 10000) < a ∧ a < 1 / 10000 := abs_lt.mp h

theorem val_f2 (g a b x : ℝ) : f2 realOps (some g) (some a) (some b) (some x) = some (Value 2 [g, a, b] x) := by
  unfold f2
  show _ = some (if 1 / 10000 ≤ a ∧ 0 < a * x + b then (a * x + b) ^ g else 0)
  by_cases ht : Tiny a
  · rw [if_pos ((tiny_iff a).mpr ht), r_lit0, if_neg (by rintro ⟨h, -⟩; linarith [(tiny_bounds ht).2])]
  · rw [if_neg (mt (tiny_iff a).mp ht)]
    simp only [r_neg, r_div _ (not_tiny_ne ht), r_le, r_mul, r_add, r_lit0, r_lt]
    rcases not_tiny_cases ht with ha | ha
    · have ha0 : 0 < a := by linarith
      by_cases he : 0 < a * x + b
      · rw [if_pos he, if_pos (show 1 / 10000 ≤ a ∧ 0 < a * x + b from ⟨ha, he⟩),
          if_pos (show -b / a ≤ x by rw [div_le_iff₀ ha0]; linarith), r_pow_pos he]
      · rw [if_neg he, if_neg (show ¬ (1 / 10000 ≤ a ∧ 0 < a * x + b) from fun h => he h.2)]
        split <;> rfl
    · have ha0 : a < 0 := by linarith
      rw [if_neg (fun h : 1 / 10000 ≤ a ∧ _ => by linarith [h.1])]
      by_cases hd : -b / a ≤ x
      · rw [div_le_iff_of_neg ha0] at hd
        rw [if_neg (by linarith : ¬ 0 < a * x + b)]
        split <;> rfl
      · rw [if_neg hd]

theorem val_g2 {g a b x : ℝ} (h : Domain (-2) [g, a, b] x) :
    g2 realOps (some g) (some a) (some b) (some x) = some (Value (-2) [g, a, b] x) := by
  have hp := (num_g2 g a b x).mpr h
  unfold g2 at hp ⊢
  simp only [Bool.or_eq_true, tiny_iff, r_lit0, r_lt] at hp ⊢
  show _ = some (if Tiny g ∨ Tiny a ∨ x < 0 then 0 else max 0 ((x ^ (1 / g) - b) / a))
  by_cases ht : Tiny g ∨ Tiny a
  · rw [if_pos ht, if_pos (by tauto)]
  · rw [if_neg ht] at hp ⊢
    push Not at ht
    by_cases hx : x < 0
    · simp only [if_pos hx, r_lt, lt_irrefl, if_false, if_pos (show Tiny g ∨ Tiny a ∨ x < 0 from .inr (.inr hx))]
    · rw [if_neg (show ¬ (Tiny g ∨ Tiny a ∨ x < 0) by tauto)]
      simp only [if_neg hx, r_lit1, r_div _ (not_tiny_ne ht.1)] at hp ⊢
      by_cases hw : HasPow x (1 / g)
      · rw [r_pow_has hw]
        simp only [r_sub, r_div _ (not_tiny_ne ht.2), r_lt]
        split
        · rename_i h; rw [max_eq_left h.le]
        · rename_i h; rw [max_eq_right (not_lt.mp h)]
      · rw [r_pow_not hw] at hp
        exact absurd hp num_none

theorem val_f3 (g a b c x : ℝ) :
    f3 realOps (some g) (some a) (some b) (some c) (some x) = some (Value 3 [g, a, b, c] x) := by
  unfold f3
  show _ = some (if 1 / 10000 ≤ a then
      if x < 0 ∨ a * x + b < 0 then c else if a * x + b = 0 then 0 else (a * x + b) ^ g + c
    else if a ≤ -(1 / 10000) then (if x < 0 ∨ 0 < a * x + b then c else 0)
    else 0)
  by_cases ht : Tiny a
  · have := tiny_bounds ht
    rw [if_pos ((tiny_iff a).mpr ht), r_lit0, if_neg (by linarith), if_neg (by linarith)]
  · rw [if_neg (mt (tiny_iff a).mp ht)]
    simp only [r_neg, r_div _ (not_tiny_ne ht), r_le, r_mul, r_add, r_lit0, r_lt, r_max, max_le_iff]
    rcases not_tiny_cases ht with ha | ha
    · have ha0 : 0 < a := by linarith
      rw [if_pos ha]
      have hd : -b / a ≤ x ↔ 0 ≤ a * x + b := by
        rw [div_le_iff₀ ha0]; constructor <;> intro h <;> linarith
      simp only [hd]
      by_cases h : x < 0 ∨ a * x + b < 0
      · rw [if_pos h, if_neg]
        rintro ⟨h1, h2⟩
        rcases h with h | h <;> linarith
      · push Not at h
        rw [if_neg (show ¬ (x < 0 ∨ a * x + b < 0) by push Not; exact h), if_pos ⟨h.2, h.1⟩]
        by_cases he : a * x + b = 0
        · rw [if_pos he, if_neg (by rw [he]; exact lt_irrefl _)]
        · have he' : 0 < a * x + b := lt_of_le_of_ne h.2 (Ne.symm he)
          rw [if_neg he, if_pos he', r_pow_pos he', r_add]
    · have ha0 : a < 0 := by linarith
      rw [if_neg (show ¬ 1 / 10000 ≤ a by linarith), if_pos ha]
      have hd : -b / a ≤ x ↔ a * x + b ≤ 0 := by
        rw [div_le_iff_of_neg ha0]; constructor <;> intro h <;> linarith
      simp only [hd]
      by_cases h : x < 0 ∨ 0 < a * x + b
      · rw [if_pos h, if_neg]
        rintro ⟨h1, h2⟩
        rcases h with h | h <;> linarith
      · push Not at h
        rw [if_neg (show ¬ (x < 0 ∨ 0 < a * x + b) by push Not; exact h), if_pos ⟨h.2, h.1⟩, if_neg (by linarith)]

theorem val_g3 {g a b c x : ℝ} (h : Domain (-3) [g, a, b, c] x) :
    g3 realOps (some g) (some a) (some b) (some c) (some x) = some (Value (-3) [g, a, b, c] x) := by
  have hp := (num_g3 g a b c x).mpr h
  unfold g3 at hp ⊢
  simp only [tiny_iff, r_le, r_sub, r_lit0, r_lt, r_lit1, r_neg] at hp ⊢
  show _ = some (if Tiny a ∨ x = c then 0 else if x < c then -b / a else ((x - c) ^ (1 / g) - b) / a)
  by_cases ha : Tiny a
  · rw [if_pos ha, if_pos (.inl ha)]
  · rw [if_neg ha] at hp ⊢
    have ha0 := not_tiny_ne ha
    rcases lt_trichotomy x c with hc | hc | hc
    · rw [if_neg (not_le.mpr hc), r_div _ ha0, if_neg (by rintro (h | h); exacts [ha h, hc.ne h]), if_pos hc]
    · rw [if_pos (show Tiny a ∨ x = c from .inr hc), if_pos hc.ge, if_neg (show ¬ 0 < x - c by linarith)]
    · rw [if_pos hc.le, if_pos (by linarith)] at hp ⊢
      rw [if_neg (by rintro (h | h); exacts [ha h, hc.ne' h]), if_neg (by linarith)]
      by_cases hg : g = 0
      · subst hg
        rw [r_div0, r_pow_none] at hp
        exact absurd hp num_none
      · rw [r_div _ hg, r_pow_pos (by linarith), r_sub, r_div _ ha0]

theorem val_f4 (g a b c d x : ℝ) :
    f4 realOps (some g) (some a) (some b) (some c) (some d) (some x) = some (Value 4 [g, a, b, c, d] x) := by
  unfold f4
  simp only [r_le, r_mul, r_add, r_lit0, r_lt]
  show _ = some (if x < d then c * x else if 0 < a * x + b then (a * x + b) ^ g else 0)
  by_cases hd : d ≤ x
  · rw [if_pos hd, if_neg (not_lt.mpr hd)]
    split
    · rename_i h; rw [r_pow_pos h]
    · rfl
  · rw [if_neg hd, if_pos (not_le.mp hd), mul_comm]

theorem val_g4 {g a b c d x : ℝ} (h : Domain (-4) [g, a, b, c, d] x) :
    g4 realOps (some g) (some a) (some b) (some c) (some d) (some x) = some (Value (-4) [g, a, b, c, d] x) := by
  have hp := (num_g4 g a b c d x).mpr h
  unfold g4 at hp ⊢
  simp only [r_mul, r_add, r_lit0, r_lt, Bool.or_eq_true, tiny_iff, r_lit1] at hp ⊢
  let C : Prop := (a * d + b < 0 ∧ x < 0) ∨ (a * d + b = 0 ∧ g < 0) ∨ (0 ≤ a * d + b ∧ x < (a * d + b) ^ g)
  show _ = some (if C then
      (if Tiny c then 0 else x / c)
    else if Tiny g ∨ Tiny a then 0 else (x ^ (1 / g) - b) / a)
  have low : (if Tiny c then some 0 else realOps.div (some x) (some c)) = some (if Tiny c then 0 else x / c) := by
    split
    · rfl
    · rename_i h; rw [r_div _ (not_tiny_ne h)]
  have high : Num (if Tiny g ∨ Tiny a then some 0
        else realOps.div (realOps.sub (realOps.powf (some x) (realOps.div (some 1) (some g))) (some b)) (some a)) →
      (if Tiny g ∨ Tiny a then some 0
        else realOps.div (realOps.sub (realOps.powf (some x) (realOps.div (some 1) (some g))) (some b)) (some a)) =
      some (if Tiny g ∨ Tiny a then 0 else (x ^ (1 / g) - b) / a) := by
    intro hn
    by_cases ht : Tiny g ∨ Tiny a
    · rw [if_pos ht, if_pos ht]
    · rw [if_neg ht] at hn ⊢
      rw [if_neg ht]
      push Not at ht
      rw [r_div _ (not_tiny_ne ht.1)] at hn ⊢
      rw [num_div _ (not_tiny_ne ht.2), num_sub, num_pow] at hn
      rw [r_pow_has hn, r_sub, r_div _ (not_tiny_ne ht.2)]
  by_cases he : a * d + b < 0
  · simp only [if_pos he, r_le] at hp ⊢
    by_cases hx : 0 ≤ x
    · rw [if_pos hx] at hp ⊢
      rw [high hp, if_neg (c := C)]
      rintro (⟨-, h⟩ | ⟨h, -⟩ | ⟨h, -⟩) <;> linarith
    · rw [if_neg hx, low, if_pos (show C from .inl ⟨he, not_le.mp hx⟩)]
  · simp only [if_neg he] at hp ⊢
    by_cases hw : HasPow (a * d + b) g
    · rw [r_pow_has hw] at hp ⊢
      simp only [r_le] at hp ⊢
      by_cases hx : (a * d + b) ^ g ≤ x
      · rw [if_pos hx] at hp ⊢
        rw [high hp, if_neg (c := C)]
        rintro (⟨h, -⟩ | ⟨h, h'⟩ | ⟨-, h⟩)
        · exact he h
        · rcases hw with hw | ⟨-, hw⟩ | ⟨hw, -⟩ <;> linarith
        · linarith
      · rw [if_neg hx, low, if_pos (show C from .inr (.inr ⟨not_lt.mp he, not_le.mp hx⟩))]
    · rw [r_pow_not hw]
      have h0 : a * d + b = 0 ∧ g < 0 := by
        unfold HasPow at hw
        push Not at hw
        have e : a * d + b = 0 := le_antisymm hw.1 (not_lt.mp he)
        exact ⟨e, hw.2.1 e⟩
      rw [if_pos (show C from .inr (.inl h0)), ← low]
      rfl

theorem val_f5 (g a b c d e f x : ℝ) :
    f5 realOps (some g) (some a) (some b) (some c) (some d) (some e) (some f) (some x) =
      some (Value 5 [g, a, b, c, d, e, f] x) := by
  unfold f5
  simp only [r_le, r_mul, r_add, r_lit0, r_lt]
  show _ = some (if x < d then c * x + f else if 0 < a * x + b then (a * x + b) ^ g + e else e)
  by_cases hd : d ≤ x
  · rw [if_pos hd, if_neg (not_lt.mpr hd)]
    split
    · rename_i h; rw [r_pow_pos h, r_add]
    · rfl
  · rw [if_neg hd, if_pos (not_le.mp hd), mul_comm]

theorem val_g5 {g a b c d e f x : ℝ} (h : Domain (-5) [g, a, b, c, d, e, f] x) :
    g5 realOps (some g) (some a) (some b) (some c) (some d) (some e) (some f) (some x) =
      some (Value (-5) [g, a, b, c, d, e, f] x) := by
  have hp := (num_g5 g a b c d e f x).mpr h
  unfold g5 at hp ⊢
  simp only [r_mul, r_add, r_le, r_sub, r_lit0, r_lt, Bool.or_eq_true, tiny_iff, r_lit1] at hp ⊢
  show _ = some (if x < c * d + f then (if Tiny c then 0 else (x - f) / c)
    else if x < e ∨ Tiny g ∨ Tiny a then 0 else ((x - e) ^ (1 / g) - b) / a)
  by_cases hd : c * d + f ≤ x
  · rw [if_pos hd] at hp ⊢
    rw [if_neg (not_lt.mpr hd)]
    by_cases he : x - e < 0
    · rw [if_pos he, if_pos (.inl (by linarith))]
    · rw [if_neg he] at hp ⊢
      have he' : ¬ x < e := fun h => he (by linarith)
      by_cases ht : Tiny g ∨ Tiny a
      · rw [if_pos ht, if_pos (.inr ht)]
      · rw [if_neg ht] at hp ⊢
        rw [if_neg (by rintro (h | h); exacts [he' h, ht h])]
        push Not at ht
        rw [r_div _ (not_tiny_ne ht.1)] at hp ⊢
        rw [num_div _ (not_tiny_ne ht.2), num_sub, num_pow] at hp
        rw [r_pow_has hp, r_sub, r_div _ (not_tiny_ne ht.2)]
  · rw [if_neg hd, if_pos (not_le.mp hd)]
    split
    · rfl
    · rename_i h; rw [r_div _ (not_tiny_ne h)]

theorem val_f6 {g a b c x : ℝ} (h : Domain 6 [g, a, b, c] x) :
    f6 realOps (some g) (some a) (some b) (some c) (some x) = some (Value 6 [g, a, b, c] x) := by
  have hp := (num_f6 g a b c x).mpr h
  unfold f6 at hp ⊢
  simp only [r_mul, r_add, r_lit0, r_lt] at hp ⊢
  show _ = some (if a * x + b < 0 then c else (a * x + b) ^ g + c)
  split at hp
  · rename_i h; rw [if_pos h, if_pos h]
  · rename_i h
    rw [num_add, num_pow] at hp
    rw [if_neg h, if_neg h, r_pow_has hp, r_add]

theorem val_g6 {g a b c x : ℝ} (h : Domain (-6) [g, a, b, c] x) :
    g6 realOps (some g) (some a) (some b) (some c) (some x) = some (Value (-6) [g, a, b, c] x) := by
  have hp := (num_g6 g a b c x).mpr h
  unfold g6 at hp ⊢
  simp only [tiny_iff, r_sub, r_lit0, r_lt, r_lit1] at hp ⊢
  show _ = some (if Tiny a ∨ x < c then 0 else ((x - c) ^ (1 / g) - b) / a)
  by_cases ha : Tiny a
  · rw [if_pos ha, if_pos (.inl ha)]
  · rw [if_neg ha] at hp ⊢
    by_cases he : x - c < 0
    · rw [if_pos he, if_pos (.inr (by linarith))]
    · rw [if_neg he] at hp ⊢
      rw [if_neg (by rintro (h | h); exacts [ha h, he (by linarith)])]
      by_cases hg : g = 0
      · subst hg
        rw [r_div0, r_pow_none] at hp
        exact absurd hp num_none
      · rw [r_div _ hg] at hp ⊢
        rw [num_div _ (not_tiny_ne ha), num_sub, num_pow] at hp
        rw [r_pow_has hp, r_sub, r_div _ (not_tiny_ne ha)]

theorem val_f7 {g a b c d x : ℝ} (h : Domain 7 [g, a, b, c, d] x) :
    f7 realOps (some g) (some a) (some b) (some c) (some d) (some x) = some (Value 7 [g, a, b, c, d] x) := by
  unfold f7
  have hw : HasPow x g := h
  rw [r_pow_has hw]
  simp only [r_mul, r_add, r_lit0, r_le]
  show _ = some (if b * x ^ g + c ≤ 0 then d else a * Real.logb 10 (b * x ^ g + c) + d)
  split
  · rfl
  · rename_i h'
    rw [r_log (not_le.mp h'), r_mul, r_add]

theorem val_g7 {g a b c d x : ℝ} (h : Domain (-7) [g, a, b, c, d] x) :
    g7 realOps (some g) (some a) (some b) (some c) (some d) (some x) = some (Value (-7) [g, a, b, c, d] x) := by
  have hp := (num_g7 g a b c d x).mpr h
  unfold g7 at hp ⊢
  simp only [r_tol, r_lt, Bool.or_eq_true, or_assoc] at hp ⊢
  show _ = some (if g < 1 / 10000 ∨ a < 1 / 10000 ∨ b < 1 / 10000 then 0
    else (((10 : ℝ) ^ ((x - d) / a) - c) / b) ^ (1 / g))
  by_cases h : g < 1 / 10000 ∨ a < 1 / 10000 ∨ b < 1 / 10000
  · rw [if_pos h, if_pos h, r_lit0]
  · rw [if_neg h] at hp ⊢
    rw [if_neg h]
    push Not at h
    obtain ⟨hg, ha, hb⟩ := h
    rw [r_sub, r_div _ (by linarith : a ≠ 0), r_lit10, r_pow_pos (by norm_num), r_sub,
      r_div _ (by linarith : b ≠ 0), r_lit1, r_div _ (by linarith : g ≠ 0)] at hp ⊢
    rw [r_pow_has ((num_pow _ _).mp hp)]

theorem val_f8 {a b c d e x : ℝ} (h : Domain 8 [a, b, c, d, e] x) :
    f8 realOps (some a) (some b) (some c) (some d) (some e) (some x) = some (Value 8 [a, b, c, d, e] x) := by
  have hw : HasPow b (c * x + d) := h
  unfold f8
  rw [r_mul, r_add, r_pow_has hw, r_mul, r_add]
  rfl

theorem val_g8 {a b c d e x : ℝ} (h : Domain (-8) [a, b, c, d, e] x) :
    g8 realOps (some a) (some b) (some c) (some d) (some e) (some x) = some (Value (-8) [a, b, c, d, e] x) := by
  have hd : x < e ∨ Tiny a ∨ Tiny c ∨ (0 < a ∧ e < x ∧ 0 < b ∧ b ≠ 1) := h
  unfold g8
  simp only [r_sub, r_lit0, r_lt, Bool.or_eq_true, tiny_iff]
  show _ = some (if x < e ∨ Tiny a ∨ Tiny c then 0 else (Real.logb b ((x - e) / a) - d) / c)
  by_cases hx : x - e < 0
  · rw [if_pos hx, if_pos (.inl (by linarith))]
  · rw [if_neg hx]
    by_cases ht : Tiny a ∨ Tiny c
    · rw [if_pos ht, if_pos (.inr ht)]
    · rw [if_neg ht, if_neg (by rintro (h | h); exacts [hx (by linarith), ht h])]
      push Not at ht
      have hd : 0 < a ∧ e < x ∧ 0 < b ∧ b ≠ 1 := by
        rcases hd with h | h | h | h
        exacts [absurd h (by linarith), absurd h ht.1, absurd h ht.2, h]
      obtain ⟨ha, hex, hb, hb1⟩ := hd
      have hq : 0 < (x - e) / a := div_pos (by linarith) ha
      have hl10 : Real.log 10 ≠ 0 := (Real.log_pos (by norm_num)).ne'
      have hlb : Real.log b ≠ 0 := Real.log_ne_zero_of_pos_of_ne_one hb hb1
      have hl : Real.logb 10 b ≠ 0 := by
        unfold Real.logb
        exact div_ne_zero hlb hl10
      rw [r_div _ ha.ne', r_log hq, r_log hb, r_div _ hl, r_sub, r_div _ (not_tiny_ne ht.2)]
      unfold Real.logb
      congr 3
      field_simp

theorem val_f108 {g x : ℝ} (h : Domain 108 [g] x) : f108 realOps (some g) (some x) = some (Value 108 [g] x) := by
  have hd : Tiny g ∨ (HasPow (1 - x) (1 / g) ∧ HasPow (1 - (1 - x) ^ (1 / g)) (1 / g)) := h
  unfold f108
  simp only [tiny_iff, r_lit0, r_lit1, r_sub]
  show _ = some (if Tiny g then 0 else (1 - (1 - x) ^ (1 / g)) ^ (1 / g))
  by_cases ht : Tiny g
  · rw [if_pos ht, if_pos ht]
  · rw [if_neg ht, if_neg ht]
    obtain ⟨h1, h2⟩ := hd.resolve_left ht
    rw [r_div _ (not_tiny_ne ht), r_pow_has h1, r_sub, r_pow_has h2]

theorem val_g108 {g x : ℝ} (h : Domain (-108) [g] x) :
    g108 realOps (some g) (some x) = some (Value (-108) [g] x) := by
  obtain ⟨h1, h2⟩ : HasPow x g ∧ HasPow (1 - x ^ g) g := h
  unfold g108
  rw [r_lit1, r_pow_has h1, r_sub, r_pow_has h2, r_sub]
  rfl

theorem sb_tanh (k t : ℝ) : sb k t = tanhHalf (k * t) / 2 := by
  unfold sb tanhHalf
  rw [neg_mul]
  have h := Real.exp_pos (-(k * t))
  field_simp
  ring

theorem val_f109 {k x : ℝ} (h : Domain 109 [k] x) :
    sigmoidFactory realOps (some k) (some x) = some (Value 109 [k] x) := by
  have hk : k ≠ 0 := h
  have e := maps109 hk x
  have e' : sigmoidFactory realOps (some k) (some x) = some (sig k x) := Option.some.inj e
  rw [e']
  show _ = some ((1 + tanhHalf (k * (2 * x - 1)) / tanhHalf k) / 2)
  have h1 := sb_one_ne hk
  rw [sb_tanh, mul_one] at h1
  have h2 : tanhHalf k ≠ 0 := fun h => h1 (by rw [h, zero_div])
  unfold sig
  rw [sb_tanh, sb_tanh, mul_one]
  congr 1
  field_simp
  ring

theorem val_g109 {k x : ℝ} (h : Domain (-109) [k] x) :
    invertedSigmoidFactory realOps (some k) (some x) = some (Value (-109) [k] x) := by
  obtain ⟨hk, hu⟩ : k ≠ 0 ∧ |(2 * x - 1) * ((1 - Real.exp (-k)) / (1 + Real.exp (-k)))| < 1 := h
  show _ = some ((1 + Real.logb 10 ((1 + (2 * x - 1) * tanhHalf k) / (1 - (2 * x - 1) * tanhHalf k)) / k) / 2)
  change |(2 * x - 1) * tanhHalf k| < 1 at hu
  have h1 := sb_one_ne hk
  have hc : (1 : ℝ) / 2 / sb k 1 ≠ 0 := div_ne_zero (by norm_num) h1
  have hq : (x - 1 / 2) / (1 / 2 / sb k 1) = (2 * x - 1) * tanhHalf k / 2 := by
    rw [sb_tanh, mul_one] at h1 ⊢
    field_simp
  unfold invertedSigmoidFactory invertedSigmoidBase
  simp only [r_lit1, r_sb, r_lith, r_lit2, r_sub, r_div _ h1, r_div _ hc, hq, r_add]
  generalize (2 * x - 1) * tanhHalf k = u at hu
  obtain ⟨hu1, hu2⟩ := abs_lt.mp hu
  have h0 : u / 2 + 1 / 2 ≠ 0 := by linarith
  have e : 1 / (u / 2 + 1 / 2) - 1 = ((1 + u) / (1 - u))⁻¹ := by
    have a1 : 1 + u ≠ 0 := by linarith
    have a2 : 1 - u ≠ 0 := by linarith
    have a3 : u + 1 ≠ 0 := by linarith
    field_simp
    ring
  have hp : 0 < ((1 + u) / (1 - u))⁻¹ := inv_pos.mpr (div_pos (by linarith) (by linarith))
  rw [r_div _ h0, r_sub, e, r_log hp, r_neg, r_div _ hk, r_add, r_div _ (two_ne_zero' ℝ), Real.logb_inv, neg_neg,
    add_comm]

/-- **C97** For each of the twenty types and all parameters, the curve has the value of the table `Value` inside
its domain, and none outside: also for degenerate parameters, at the joints and outside the regular range. -/
theorem C97_values (type : Int32) (ht : type ∈ types) (ps : List ℝ) (hps : ps.length = arity type) (x y : ℝ) :
    Maps type ps x y ↔ Domain type.toInt ps x ∧ y = Value type.toInt ps x := by
  suffices H : Domain type.toInt ps x → Maps type ps x (Value type.toInt ps x) by
    constructor
    · intro h
      have hd := (C88_domains type ht ps hps x).mp ⟨y, h⟩
      exact ⟨hd, h.unique (H hd)⟩
    · rintro ⟨hd, rfl⟩
      exact H hd
  simp only [types, List.mem_cons, List.not_mem_nil, or_false] at ht
  rcases ht with rfl | rfl | rfl | rfl | rfl | rfl | rfl | rfl | rfl | rfl | rfl | rfl | rfl | rfl | rfl | rfl |
    rfl | rfl | rfl | rfl <;> (change ps.length = _ at hps)
  · obtain ⟨g, rfl⟩ := len1 hps
    exact fun h => congrArg some (val_f1 h)
  · obtain ⟨g, rfl⟩ := len1 hps
    exact fun h => congrArg some (val_g1 h)
  · obtain ⟨g, a, b, rfl⟩ := len3 hps
    exact fun _ => congrArg some (val_f2 g a b x)
  · obtain ⟨g, a, b, rfl⟩ := len3 hps
    exact fun h => congrArg some (val_g2 h)
  · obtain ⟨g, a, b, c, rfl⟩ := len4 hps
    exact fun _ => congrArg some (val_f3 g a b c x)
  · obtain ⟨g, a, b, c, rfl⟩ := len4 hps
    exact fun h => congrArg some (val_g3 h)
  · obtain ⟨g, a, b, c, d, rfl⟩ := len5 hps
    exact fun _ => congrArg some (val_f4 g a b c d x)
  · obtain ⟨g, a, b, c, d, rfl⟩ := len5 hps
    exact fun h => congrArg some (val_g4 h)
  · obtain ⟨g, a, b, c, d, e, f, rfl⟩ := len7 hps
    exact fun _ => congrArg some (val_f5 g a b c d e f x)
  · obtain ⟨g, a, b, c, d, e, f, rfl⟩ := len7 hps
    exact fun h => congrArg some (val_g5 h)
  · obtain ⟨g, a, b, c, rfl⟩ := len4 hps
    exact fun h => congrArg some (val_f6 h)
  · obtain ⟨g, a, b, c, rfl⟩ := len4 hps
    exact fun h => congrArg some (val_g6 h)
  · obtain ⟨g, a, b, c, d, rfl⟩ := len5 hps
    exact fun h => congrArg some (val_f7 h)
  · obtain ⟨g, a, b, c, d, rfl⟩ := len5 hps
    exact fun h => congrArg some (val_g7 h)
  · obtain ⟨g, a, b, c, d, rfl⟩ := len5 hps
    exact fun h => congrArg some (val_f8 h)
  · obtain ⟨g, a, b, c, d, rfl⟩ := len5 hps
    exact fun h => congrArg some (val_g8 h)
  · obtain ⟨g, rfl⟩ := len1 hps
    exact fun h => congrArg some (val_f108 h)
  · obtain ⟨g, rfl⟩ := len1 hps
    exact fun h => congrArg some (val_g108 h)
  · obtain ⟨g, rfl⟩ := len1 hps
    exact fun h => congrArg some (val_f109 h)
  · obtain ⟨g, rfl⟩ := len1 hps
    exact fun h => congrArg some (val_g109 h)

/-- Fallback values: type −5 between the pieces, type 2 with a negative slope, type −1 with exponent 0. -/
example : Maps (-5) [1, 1, 0, 1, 1, 5, 0] 2 0 ∧ Maps 2 [1, -1, 1] 0 0 ∧ Maps (-1) [0] 5 (10 ^ 22) := by
  refine ⟨?_, ?_, ?_⟩
  · rw [C97_values _ (by decide) _ rfl]
    refine ⟨.inl (by norm_num), ?_⟩
    show 0 = if (2 : ℝ) < 1 * 1 + 0 then _ else if (2 : ℝ) < 5 ∨ _ then (0 : ℝ) else _
    rw [if_neg (by norm_num), if_pos (.inl (by norm_num))]
  · rw [C97_values _ (by decide) _ rfl]
    refine ⟨trivial, ?_⟩
    show 0 = if (1 : ℝ) / 10000 ≤ -1 ∧ _ then _ else (0 : ℝ)
    rw [if_neg (by norm_num)]
  · rw [C97_values _ (by decide) _ rfl]
    refine ⟨.inl (by norm_num), ?_⟩
    show _ = if (0 : ℝ) ≤ 5 then (if Tiny 0 then (10 : ℝ) ^ 22 else _) else _
    rw [if_pos (by norm_num), if_pos (by norm_num [Tiny])]

end Lcms.Props
