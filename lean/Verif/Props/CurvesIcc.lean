import Verif.Lemmas.CurveDomain
import Verif.Props.CurvesReal

/-! # Properties C87–C90: the curves against the ICC specification; domains; inverse first; further monotone ones -/

namespace Lcms.Props

open Lcms.Curves Lcms.Spec

/-! ### C87 -/

/-- Types 1–5 are the ICC function types 0–4 on the unit interval. -/
def C87_statement : Prop :=
  ∀ (fn : Nat) (type : Int32), (fn, type) ∈ [(0, (1 : Int32)), (1, 2), (2, 3), (3, 4), (4, 5)] →
    ∀ (ps : List ℝ) (X Y : ℝ), 0 ≤ X → X ≤ 1 → Icc fn ps X Y → Maps type ps X Y

theorem pow_has {x g y : ℝ} (h : Pow x g y) : realOps.powf (some x) (some g) = some y := by
  obtain ⟨h1, rfl⟩ := h
  refine r_pow_has ?_
  rcases h1 with h | ⟨h, h'⟩
  · exact .inl h
  · exact .inr (.inl ⟨h, h'.le⟩)

theorem pow_nonneg' {x g y : ℝ} (h : Pow x g y) : 0 ≤ x := by
  rcases h.1 with h | ⟨h, -⟩ <;> linarith

/-- A power as the program computes it: 0 unless the base is positive. -/
theorem pow_branch' {x g y : ℝ} (h : Pow x g y) :
    (if (0 : ℝ) < x then realOps.powf (some x) (some g) else some 0) = some y := by
  split
  · exact pow_has h
  · rename_i hx
    obtain ⟨h1, rfl⟩ := h
    rcases h1 with h | ⟨h, h'⟩
    · exact absurd h hx
    · rw [h, Real.zero_rpow h'.ne']

theorem icc0 {g X Y : ℝ} (h : Icc 0 [g] X Y) : Maps 1 [g] X Y := by
  show some (f1 realOps (some g) (some X)) = _
  unfold f1
  rw [r_lit0, if_neg (by rw [r_lt]; exact not_lt.mpr (pow_nonneg' h)), pow_has h]

theorem icc1 {g a b X Y : ℝ} (h : Icc 1 [g, a, b] X Y) :
    Maps 2 [g, a, b] X Y ↔ 1 / 10000 ≤ |a| ∨ Y = 0 := by
  obtain ⟨ha, h⟩ := h
  have hm : Maps 2 [g, a, b] X (if Tiny a then 0 else Y) := by
    show some (f2 realOps (some g) (some a) (some b) (some X)) = _
    unfold f2
    simp only [tiny_iff, r_neg, r_div _ ha, r_le, r_mul, r_add, r_lit0, r_lt]
    by_cases ht : Tiny a
    · rw [if_pos ht, if_pos ht]
    · rw [if_neg ht, if_neg ht]
      rcases h with ⟨h1, h2⟩ | ⟨h1, h2⟩
      · rw [if_pos h1, pow_branch' h2]
      · rw [if_neg (not_le.mpr h1), h2]
  by_cases ht : Tiny a
  · rw [if_pos ht] at hm
    constructor
    · intro h'; exact .inr (h'.unique hm)
    · rintro (h' | h')
      · unfold Tiny at ht; linarith
      · rw [h']; exact hm
  · rw [if_neg ht] at hm
    exact iff_of_true hm (.inl (not_lt.mp ht))

theorem icc2 {g a b c X Y : ℝ} (hX : 0 ≤ X) (h : Icc 2 [g, a, b, c] X Y) :
    Maps 3 [g, a, b, c] X Y ↔ if Tiny a then Y = 0 else (a * X + b ≠ 0 ∨ c = 0) := by
  obtain ⟨ha, h⟩ := h
  have hm : Maps 3 [g, a, b, c] X (if Tiny a then 0 else if a * X + b = 0 then 0 else Y) := by
    show some (f3 realOps (some g) (some a) (some b) (some c) (some X)) = _
    unfold f3
    simp only [tiny_iff, r_neg, r_div _ ha, r_max, r_le, r_mul, r_add, r_lit0, r_lt]
    by_cases ht : Tiny a
    · rw [if_pos ht, if_pos ht]
    · rw [if_neg ht, if_neg ht]
      rcases h with ⟨h1, h2⟩ | ⟨h1, h2⟩
      · rw [if_pos (max_le h1 hX)]
        by_cases h0 : a * X + b = 0
        · rw [if_pos h0, if_neg (by rw [h0]; exact lt_irrefl _)]
        · have hp : 0 < a * X + b := lt_of_le_of_ne (pow_nonneg' h2) (Ne.symm h0)
          rw [if_neg h0, if_pos hp, pow_has h2, r_add, sub_add_cancel]
      · have h0 : a * X + b ≠ 0 := by
          intro h0
          have : X = -b / a := by rw [eq_div_iff ha]; linarith
          linarith
        rw [if_neg (not_le.mpr (lt_of_lt_of_le h1 (le_max_left _ _))), if_neg h0, h2]
  by_cases ht : Tiny a
  · rw [if_pos ht] at hm ⊢
    exact ⟨fun h' => h'.unique hm, fun h' => by rw [h']; exact hm⟩
  · rw [if_neg ht] at hm ⊢
    by_cases h0 : a * X + b = 0
    · rw [if_pos h0] at hm
      have hY : Y = c := by
        have hX' : X = -b / a := by rw [eq_div_iff ha]; linarith
        rcases h with ⟨h1, h2, h3⟩ | ⟨h1, -⟩
        · rcases h2 with h2 | ⟨-, h2⟩
          · linarith
          · rw [h0, Real.zero_rpow h2.ne'] at h3
            linarith
        · linarith
      constructor
      · intro h'
        have := h'.unique hm
        exact .inr (by rw [← hY, this])
      · rintro (h' | h')
        · exact absurd h0 h'
        · rw [show Y = 0 from hY.trans h']; exact hm
    · rw [if_neg h0] at hm
      exact iff_of_true hm (.inl h0)

theorem icc3 {g a b c d X Y : ℝ} (h : Icc 3 [g, a, b, c, d] X Y) : Maps 4 [g, a, b, c, d] X Y := by
  show some (f4 realOps (some g) (some a) (some b) (some c) (some d) (some X)) = _
  unfold f4
  simp only [r_le, r_mul, r_add, r_lit0, r_lt]
  rcases h with ⟨h1, h2⟩ | ⟨h1, h2⟩
  · rw [if_pos h1, pow_branch' h2]
  · rw [if_neg (not_le.mpr h1), h2, mul_comm]

theorem icc4 {g a b c d e f X Y : ℝ} (h : Icc 4 [g, a, b, c, d, e, f] X Y) :
    Maps 5 [g, a, b, c, d, e, f] X Y := by
  show some (f5 realOps (some g) (some a) (some b) (some c) (some d) (some e) (some f) (some X)) = _
  unfold f5
  simp only [r_le, r_mul, r_add, r_lit0, r_lt]
  rcases h with ⟨h1, h2⟩ | ⟨h1, h2⟩
  · rw [if_pos h1]
    by_cases hp : 0 < a * X + b
    · rw [if_pos hp, pow_has h2, r_add, sub_add_cancel]
    · rw [if_neg hp]
      obtain ⟨h3, h4⟩ := h2
      rcases h3 with h3 | ⟨h3, h5⟩
      · exact absurd h3 hp
      · rw [h3, Real.zero_rpow h5.ne'] at h4
        congr 2
        linarith
  · rw [if_neg (not_le.mpr h1), h2, mul_comm]

/-- **C87** is violated: at the joint `X = −b/a`, ICC function type 2 is `c`, type 3 returns 0. -/
theorem C87_refuted : ¬ C87_statement := by
  intro h
  have hi : Icc 2 [2, 2, -1, 5] (1 / 2) 5 :=
    ⟨by norm_num, .inl ⟨by norm_num, .inr ⟨by norm_num, by norm_num⟩, by norm_num⟩⟩
  have h1 := h 2 3 (by simp) [2, 2, -1, 5] (1 / 2) 5 (by norm_num) (by norm_num) hi
  rw [icc2 (by norm_num) hi, if_neg (by norm_num [Tiny, abs_of_pos])] at h1
  rcases h1 with h1 | h1 <;> norm_num at h1

/-- **C87**, exactly: wherever the ICC formula has a value, types 1, 4 and 5 return it; type 2 does unless `a` is
below the tolerance; type 3 does unless `a` is below the tolerance or `X` is the joint and `c` is not 0.
(Only for type 3 is `X ≥ 0` needed.) -/
theorem C87_icc_partial :
    (∀ g X Y, Icc 0 [g] X Y → Maps 1 [g] X Y) ∧
    (∀ g a b X Y, Icc 1 [g, a, b] X Y → (Maps 2 [g, a, b] X Y ↔ 1 / 10000 ≤ |a| ∨ Y = 0)) ∧
    (∀ g a b c X Y, 0 ≤ X → Icc 2 [g, a, b, c] X Y →
      (Maps 3 [g, a, b, c] X Y ↔ if Tiny a then Y = 0 else (a * X + b ≠ 0 ∨ c = 0))) ∧
    (∀ g a b c d X Y, Icc 3 [g, a, b, c, d] X Y → Maps 4 [g, a, b, c, d] X Y) ∧
    (∀ g a b c d e f X Y, Icc 4 [g, a, b, c, d, e, f] X Y → Maps 5 [g, a, b, c, d, e, f] X Y) :=
  ⟨fun _ _ _ => icc0, fun _ _ _ _ _ => icc1, fun _ _ _ _ _ _ => icc2, fun _ _ _ _ _ _ _ => icc3,
    fun _ _ _ _ _ _ _ _ _ => icc4⟩

/-- The sRGB curve, at its joint and above. -/
example : Maps 4 [2, 1 / 2, 1 / 2, 1 / 4, 1 / 2] (1 / 2) (9 / 16) ∧ Maps 4 [2, 1 / 2, 1 / 2, 1 / 4, 1 / 2] (1 / 4) (1 / 16) ∧
    Maps 3 [2, 2, 1, 5] 0 6 := by
  refine ⟨C87_icc_partial.2.2.2.1 _ _ _ _ _ _ _ (.inl ⟨le_rfl, ?_⟩),
    C87_icc_partial.2.2.2.1 _ _ _ _ _ _ _ (.inr (by norm_num)),
    (C87_icc_partial.2.2.1 _ _ _ _ _ _ le_rfl ⟨by norm_num, .inl ⟨by norm_num, ?_⟩⟩).mpr ?_⟩
  · exact ⟨.inl (by norm_num), by norm_num⟩
  · exact ⟨.inl (by norm_num), by norm_num⟩
  · rw [if_neg (by norm_num [Tiny, abs_of_pos])]
    exact .inl (by norm_num)

/-! ### C88 -/

/-- The number of parameters of each type. -/
def arity (type : Int32) : Nat :=
  match type.toInt.natAbs with
  | 1 => 1 | 2 => 3 | 3 => 4 | 4 => 5 | 5 => 7 | 6 => 4 | 7 => 5 | 8 => 5 | 108 => 1 | 109 => 1 | _ => 0

/-- The twenty types the evaluator knows. -/
def types : List Int32 := [1, -1, 2, -2, 3, -3, 4, -4, 5, -5, 6, -6, 7, -7, 8, -8, 108, -108, 109, -109]

theorem len1 {ps : List ℝ} (h : ps.length = 1) : ∃ g, ps = [g] := by
  rcases ps with _ | ⟨g, _ | ⟨z, _⟩⟩ <;> simp at h
  exact ⟨g, rfl⟩

theorem len3 {ps : List ℝ} (h : ps.length = 3) : ∃ g a b, ps = [g, a, b] := by
  rcases ps with _ | ⟨g, _ | ⟨a, _ | ⟨b, _ | ⟨z, _⟩⟩⟩⟩ <;> simp at h
  exact ⟨g, a, b, rfl⟩

theorem len4 {ps : List ℝ} (h : ps.length = 4) : ∃ g a b c, ps = [g, a, b, c] := by
  rcases ps with _ | ⟨g, _ | ⟨a, _ | ⟨b, _ | ⟨c, _ | ⟨z, _⟩⟩⟩⟩⟩ <;> simp at h
  exact ⟨g, a, b, c, rfl⟩

theorem len5 {ps : List ℝ} (h : ps.length = 5) : ∃ g a b c d, ps = [g, a, b, c, d] := by
  rcases ps with _ | ⟨g, _ | ⟨a, _ | ⟨b, _ | ⟨c, _ | ⟨d, _ | ⟨z, _⟩⟩⟩⟩⟩⟩ <;> simp at h
  exact ⟨g, a, b, c, d, rfl⟩

theorem len7 {ps : List ℝ} (h : ps.length = 7) : ∃ g a b c d e f, ps = [g, a, b, c, d, e, f] := by
  rcases ps with _ | ⟨g, _ | ⟨a, _ | ⟨b, _ | ⟨c, _ | ⟨d, _ | ⟨e, _ | ⟨f, _ | ⟨z, _⟩⟩⟩⟩⟩⟩⟩⟩ <;> simp at h
  exact ⟨g, a, b, c, d, e, f, rfl⟩

/-- **C88** For each of the twenty types and all parameters, the inputs at which the curve has a value (evaluated in
exact arithmetic, a comparison with an undefined quantity being false) are exactly those of the table `Domain`. -/
theorem C88_domains (type : Int32) (ht : type ∈ types) (ps : List ℝ) (hps : ps.length = arity type) (x : ℝ) :
    (∃ y, Maps type ps x y) ↔ Domain type.toInt ps x := by
  simp only [types, List.mem_cons, List.not_mem_nil, or_false] at ht
  rcases ht with rfl | rfl | rfl | rfl | rfl | rfl | rfl | rfl | rfl | rfl | rfl | rfl | rfl | rfl | rfl | rfl |
    rfl | rfl | rfl | rfl <;> (change ps.length = _ at hps)
  · obtain ⟨g, rfl⟩ := len1 hps
    exact (maps_num rfl).trans (num_f1 g x)
  · obtain ⟨g, rfl⟩ := len1 hps
    exact (maps_num rfl).trans (num_g1 g x)
  · obtain ⟨g, a, b, rfl⟩ := len3 hps
    exact (maps_num rfl).trans (iff_of_true (num_f2 g a b x) trivial)
  · obtain ⟨g, a, b, rfl⟩ := len3 hps
    exact (maps_num rfl).trans (num_g2 g a b x)
  · obtain ⟨g, a, b, c, rfl⟩ := len4 hps
    exact (maps_num rfl).trans (iff_of_true (num_f3 g a b c x) trivial)
  · obtain ⟨g, a, b, c, rfl⟩ := len4 hps
    exact (maps_num rfl).trans (num_g3 g a b c x)
  · obtain ⟨g, a, b, c, d, rfl⟩ := len5 hps
    exact (maps_num rfl).trans (iff_of_true (num_f4 g a b c d x) trivial)
  · obtain ⟨g, a, b, c, d, rfl⟩ := len5 hps
    exact (maps_num rfl).trans (num_g4 g a b c d x)
  · obtain ⟨g, a, b, c, d, e, f, rfl⟩ := len7 hps
    exact (maps_num rfl).trans (iff_of_true (num_f5 g a b c d e f x) trivial)
  · obtain ⟨g, a, b, c, d, e, f, rfl⟩ := len7 hps
    exact (maps_num rfl).trans (num_g5 g a b c d e f x)
  · obtain ⟨g, a, b, c, rfl⟩ := len4 hps
    exact (maps_num rfl).trans (num_f6 g a b c x)
  · obtain ⟨g, a, b, c, rfl⟩ := len4 hps
    exact (maps_num rfl).trans (num_g6 g a b c x)
  · obtain ⟨g, a, b, c, d, rfl⟩ := len5 hps
    exact (maps_num rfl).trans (num_f7 g a b c d x)
  · obtain ⟨g, a, b, c, d, rfl⟩ := len5 hps
    exact (maps_num rfl).trans (num_g7 g a b c d x)
  · obtain ⟨g, a, b, c, d, rfl⟩ := len5 hps
    exact (maps_num rfl).trans (num_f8 g a b c d x)
  · obtain ⟨g, a, b, c, d, rfl⟩ := len5 hps
    exact (maps_num rfl).trans (num_g8 g a b c d x)
  · obtain ⟨g, rfl⟩ := len1 hps
    exact (maps_num rfl).trans (num_f108 g x)
  · obtain ⟨g, rfl⟩ := len1 hps
    exact (maps_num rfl).trans (num_g108 g x)
  · obtain ⟨g, rfl⟩ := len1 hps
    exact (maps_num rfl).trans (num_sigmoid g x)
  · obtain ⟨g, rfl⟩ := len1 hps
    exact (maps_num rfl).trans (num_invSigmoid g x)

/-- With a negative `a`, type −8 has no value above `e`; type −109 has none outside the range of type 109. -/
example : (¬ ∃ y, Maps (-8) [-1, 2, 1, 0, 0] 1 y) ∧ (¬ ∃ y, Maps 1 [-1] 0 y) ∧ ∃ y, Maps (-5) [-1, 1, 0, 1, 1, 0, 0] 0 y := by
  refine ⟨?_, ?_, ?_⟩
  · rw [C88_domains (-8) (by decide) _ rfl]
    show ¬ ((1 : ℝ) < 0 ∨ Tiny (-1) ∨ Tiny 1 ∨ _)
    norm_num [Tiny]
  · rw [C88_domains 1 (by decide) _ rfl]
    show ¬ ((0 : ℝ) ≠ 0 ∨ (0 : ℝ) ≤ -1)
    norm_num
  · rw [C88_domains (-5) (by decide) _ rfl]
    show (0 : ℝ) ≠ 0 ∨ -(1 / 10000) < (-1 : ℝ) ∨ Tiny 1 ∨ (0 : ℝ) < 1 * 1 + 0
    norm_num

/-! ### C89 -/

/-- The program maps `y` backwards to some `x` in `T` and this forwards to `z`. -/
def BackForth (T : Set ℝ) (type : Int32) (ps : List ℝ) (y z : ℝ) : Prop :=
  ∃ x ∈ T, Maps (-type) ps y x ∧ Maps type ps x z

theorem back2 {g a b : ℝ} (hg : 1 / 10000 ≤ g) (ha : 1 / 10000 ≤ a) (y : ℝ) :
    BackForth {x | 0 ≤ x} 2 [g, a, b] y (max y ((max 0 b) ^ g)) := by
  have g0 : 0 < g := by linarith
  have a0 : 0 < a := by linarith
  have tg := not_tiny' hg
  have ta := not_tiny' ha
  have hb0 : 0 ≤ (max 0 b) ^ g := Real.rpow_nonneg (le_max_left _ _) _
  by_cases hy : y < 0
  · refine ⟨0, le_refl (0 : ℝ), ?_, ?_⟩
    · show some (g2 realOps (some g) (some a) (some b) (some y)) = _
      unfold g2
      simp only [tg, ta, Bool.or_self, Bool.false_eq_true, if_false, r_lit0, r_lt, if_pos hy, lt_irrefl]
    · have := maps2 (b := b) g0 ha 0
      rw [mul_zero, zero_add] at this
      rwa [max_eq_right (by linarith)]
  · have hy' := not_lt.mp hy
    have hp : 0 ≤ y ^ (1 / g) := Real.rpow_nonneg hy' _
    have hyg : (y ^ (1 / g)) ^ g = y := rpow_inv_cancel' hy' g0.ne'
    refine ⟨max 0 ((y ^ (1 / g) - b) / a), le_max_left (0 : ℝ) _, ?_, ?_⟩
    · show some (g2 realOps (some g) (some a) (some b) (some y)) = _
      unfold g2
      simp only [tg, ta, Bool.or_self, Bool.false_eq_true, if_false, r_lit0, r_lt, if_neg hy, r_lit1,
        r_div _ g0.ne', r_pow hy' (one_div_pos.mpr g0).le, r_sub, r_div _ a0.ne']
      split
      · rename_i h; rw [max_eq_left h.le]
      · rename_i h; rw [max_eq_right (not_lt.mp h)]
    · have := maps2 (b := b) g0 ha (max 0 ((y ^ (1 / g) - b) / a))
      have e : a * max 0 ((y ^ (1 / g) - b) / a) + b = max b (y ^ (1 / g)) := by
        rw [mul_max_of_nonneg _ _ a0.le, mul_zero, mul_div_cancel₀ _ a0.ne', ← max_add_add_right]
        rw [zero_add, sub_add_cancel]
      rw [e] at this
      have e2 : max 0 (max b (y ^ (1 / g))) = max (max 0 b) (y ^ (1 / g)) := by rw [max_assoc]
      have e3 : (max (max 0 b) (y ^ (1 / g))) ^ g = max y ((max 0 b) ^ g) := by
        rcases le_total (max 0 b) (y ^ (1 / g)) with h | h
        · rw [max_eq_right h, hyg, max_eq_left]
          calc (max 0 b) ^ g ≤ (y ^ (1 / g)) ^ g := Real.rpow_le_rpow (le_max_left _ _) h g0.le
            _ = y := hyg
        · rw [max_eq_left h]
          refine (max_eq_right ?_).symm
          calc y = (y ^ (1 / g)) ^ g := hyg.symm
            _ ≤ (max 0 b) ^ g := Real.rpow_le_rpow hp h g0.le
      rwa [e2, e3] at this

/-- **C89** The inverse first, then the curve: for type 1 the identity from 0 on; for type 2 the projection on the
values the curve takes from 0 on; for type 3 the identity above `c` where the inverse is not negative; for types 4
and 5, if the pieces meet, the identity everywhere; for type 6 the identity from `c` on; for type 7 where
`10^((y−d)/a) ≥ c`; for type 8 the identity above `e`; for type 108 on the unit interval.  In each case the inverse
gives a point of the region on which the curve is inverted in C60–C69. -/
theorem C89_inverse_first {g a b c d e f : ℝ} (hg : 1 / 10000 ≤ g) (ha : 1 / 10000 ≤ a) (y : ℝ) :
    (0 ≤ y → BackForth {x | 0 ≤ x} 1 [g] y y) ∧
    BackForth {x | 0 ≤ x} 2 [g, a, b] y (max y ((max 0 b) ^ g)) ∧
    (c < y → b ≤ (y - c) ^ (1 / g) → BackForth {x | 0 ≤ x ∧ 0 < a * x + b} 3 [g, a, b, c] y y) ∧
    (1 / 10000 ≤ c → 0 ≤ a * d + b → c * d = (a * d + b) ^ g → BackForth Set.univ 4 [g, a, b, c, d] y y) ∧
    (1 / 10000 ≤ c → 0 ≤ a * d + b → c * d + f = (a * d + b) ^ g + e →
      BackForth Set.univ 5 [g, a, b, c, d, e, f] y y) ∧
    (c ≤ y → BackForth {x | 0 ≤ a * x + b} 6 [g, a, b, c] y y) ∧
    (1 / 10000 ≤ b → c ≤ (10 : ℝ) ^ ((y - d) / a) →
      BackForth {x | 0 ≤ x ∧ 0 < b * x ^ g + c} 7 [g, a, b, c, d] y y) ∧
    (0 < b → b ≠ 1 → 1 / 10000 ≤ |c| → e < y → BackForth Set.univ 8 [a, b, c, d, e] y y) ∧
    (0 ≤ y → y ≤ 1 → BackForth {x | 0 ≤ x ∧ x ≤ 1} 108 [g] y y) := by
  have g0 : 0 < g := by linarith
  have a0 : 0 < a := by linarith
  have gi : (0 : ℝ) ≤ 1 / g := (one_div_pos.mpr g0).le
  refine ⟨fun hy => ?_, back2 hg ha y, fun hy hb => ?_, fun hc hd hj => ?_, fun hc hd hj => ?_, fun hy => ?_,
    fun hb hy => ?_, fun hb hb1 hc hy => ?_, fun hy hy1 => ?_⟩
  · obtain ⟨-, -, h1, h2⟩ := C60_gamma hg hy
    exact ⟨_, Real.rpow_nonneg hy _, h1, h2⟩
  · -- type 3
    have hp : 0 < y - c := by linarith
    have hq := Real.rpow_pos_of_pos hp (1 / g)
    have hx : a * (((y - c) ^ (1 / g) - b) / a) + b = (y - c) ^ (1 / g) := by
      rw [mul_div_cancel₀ _ a0.ne', sub_add_cancel]
    have h := C63_iec61966_3 (c := c) g0.ne' ha (x := ((y - c) ^ (1 / g) - b) / a)
      (div_nonneg (by linarith) a0.le) (by rw [hx]; exact hq)
    rw [hx, rpow_inv_cancel' hp.le g0.ne', sub_add_cancel] at h
    exact ⟨_, ⟨div_nonneg (by linarith) a0.le, by rw [hx]; exact hq⟩, h.2, h.1⟩
  · -- type 4
    have c0 : 0 < c := by linarith
    have h := C64_srgb hg ha hc hd hj.le
    by_cases hy : (a * d + b) ^ g ≤ y
    · have hy0 : 0 ≤ y := (Real.rpow_nonneg hd g).trans hy
      have hx : a * ((y ^ (1 / g) - b) / a) + b = y ^ (1 / g) := by
        rw [mul_div_cancel₀ _ a0.ne', sub_add_cancel]
      have hle : a * d + b ≤ y ^ (1 / g) := by
        calc a * d + b = ((a * d + b) ^ g) ^ (1 / g) := (rpow_inv_cancel hd g0.ne').symm
          _ ≤ y ^ (1 / g) := Real.rpow_le_rpow (Real.rpow_nonneg hd g) hy gi
      have h' := (h ((y ^ (1 / g) - b) / a)).1 (by rw [le_div_iff₀ a0]; linarith)
      rw [hx, rpow_inv_cancel' hy0 g0.ne'] at h'
      exact ⟨_, trivial, h'.2, h'.1⟩
    · have h' := (h (y / c)).2 (by rw [div_lt_iff₀ c0]; linarith)
      rw [mul_div_cancel₀ _ c0.ne'] at h'
      exact ⟨_, trivial, h'.2, h'.1⟩
  · -- type 5
    have c0 : 0 < c := by linarith
    have h := C65_type5 hg ha hc hd hj.le
    by_cases hy : (a * d + b) ^ g + e ≤ y
    · have hy0 : 0 ≤ y - e := by
        have := Real.rpow_nonneg hd g
        linarith
      have hx : a * (((y - e) ^ (1 / g) - b) / a) + b = (y - e) ^ (1 / g) := by
        rw [mul_div_cancel₀ _ a0.ne', sub_add_cancel]
      have hle : a * d + b ≤ (y - e) ^ (1 / g) := by
        calc a * d + b = ((a * d + b) ^ g) ^ (1 / g) := (rpow_inv_cancel hd g0.ne').symm
          _ ≤ (y - e) ^ (1 / g) := Real.rpow_le_rpow (Real.rpow_nonneg hd g) (by linarith) gi
      have h' := (h (((y - e) ^ (1 / g) - b) / a)).1 (by rw [le_div_iff₀ a0]; linarith)
      rw [hx, rpow_inv_cancel' hy0 g0.ne', sub_add_cancel] at h'
      exact ⟨_, trivial, h'.2, h'.1⟩
    · have h' := (h ((y - f) / c)).2 (by rw [div_lt_iff₀ c0]; linarith)
      rw [mul_div_cancel₀ _ c0.ne', sub_add_cancel] at h'
      exact ⟨_, trivial, h'.2, h'.1⟩
  · -- type 6
    have hy0 : 0 ≤ y - c := by linarith
    have hx : a * (((y - c) ^ (1 / g) - b) / a) + b = (y - c) ^ (1 / g) := by
      rw [mul_div_cancel₀ _ a0.ne', sub_add_cancel]
    have h := C66_type6 (c := c) g0 (ha.trans (le_abs_self a)) (x := ((y - c) ^ (1 / g) - b) / a)
      (by rw [hx]; exact Real.rpow_nonneg hy0 _)
    rw [hx, rpow_inv_cancel' hy0 g0.ne', sub_add_cancel] at h
    refine ⟨_, ?_, h.2, h.1⟩
    show 0 ≤ a * (((y - c) ^ (1 / g) - b) / a) + b
    rw [hx]
    exact Real.rpow_nonneg hy0 _
  · -- type 7
    have b0 : 0 < b := by linarith
    have hu : 0 ≤ ((10 : ℝ) ^ ((y - d) / a) - c) / b := div_nonneg (by linarith) b0.le
    have hp : (0 : ℝ) < (10 : ℝ) ^ ((y - d) / a) := Real.rpow_pos_of_pos (by norm_num) _
    have hx : b * ((((10 : ℝ) ^ ((y - d) / a) - c) / b) ^ (1 / g)) ^ g + c = (10 : ℝ) ^ ((y - d) / a) := by
      rw [rpow_inv_cancel' hu g0.ne', mul_div_cancel₀ _ b0.ne', sub_add_cancel]
    have h := C67_type7 (c := c) (d := d) hg ha hb (Real.rpow_nonneg hu (1 / g)) (by rw [hx]; exact hp)
    rw [hx, Real.logb_rpow (by norm_num) (by norm_num), mul_div_cancel₀ _ a0.ne', sub_add_cancel] at h
    exact ⟨_, ⟨Real.rpow_nonneg hu (1 / g), by rw [hx]; exact hp⟩, h.2, h.1⟩
  · -- type 8
    have c0 : c ≠ 0 := by rintro rfl; norm_num at hc
    have hp : 0 < (y - e) / a := div_pos (by linarith) a0
    have h := C68_type8_partial (d := d) (e := e) ha hc hb hb1 ((Real.logb b ((y - e) / a) - d) / c)
    rw [mul_div_cancel₀ _ c0, sub_add_cancel, Real.rpow_logb hb hb1 hp, mul_div_cancel₀ _ a0.ne',
      sub_add_cancel] at h
    exact ⟨_, trivial, h.2, h.1⟩
  · -- type 108
    have hv0 : 0 ≤ y ^ g := Real.rpow_nonneg hy _
    have hv1 : y ^ g ≤ 1 := Real.rpow_le_one hy hy1 g0.le
    have hw0 : 0 ≤ 1 - y ^ g := by linarith
    have hx0 : 0 ≤ (1 - y ^ g) ^ g := Real.rpow_nonneg hw0 _
    have hx1 : (1 - y ^ g) ^ g ≤ 1 := Real.rpow_le_one hw0 (by linarith) g0.le
    obtain ⟨z, hz, -, -, h1, h2⟩ := C69_sshaped hg (x := 1 - (1 - y ^ g) ^ g) (by linarith) (by linarith)
    rw [sub_sub_cancel, rpow_inv_cancel hw0 g0.ne', sub_sub_cancel, rpow_inv_cancel hy g0.ne'] at hz
    rw [hz] at h1 h2
    exact ⟨_, ⟨by linarith, by linarith⟩, h2, h1⟩

/-- Type 2 cannot go below its value at 0. -/
example : BackForth {x | 0 ≤ x} 2 [2, 1, 3] 4 9 ∧ BackForth {x | 0 ≤ x} 2 [2, 1, 3] 16 16 := by
  have h := fun y => (C89_inverse_first (g := 2) (a := 1) (b := 3) (c := 1) (d := 0) (e := 0) (f := 0)
    (by norm_num) (by norm_num) y).2.1
  have h1 := h 4
  have h2 := h 16
  norm_num at h1 h2
  exact ⟨h1, h2⟩

/-! ### C90 -/

/-- Type 3 is non-decreasing for positive `γ` and `a`. -/
def C90_statement : Prop := ∀ g a b c : ℝ, 0 < g → 1 / 10000 ≤ a → Rises 3 [g, a, b, c] Set.univ

theorem type3 {g a b : ℝ} (ha : 1 / 10000 ≤ a) (c x : ℝ) :
    Maps 3 [g, a, b, c] x
      (if 0 ≤ x ∧ 0 < a * x + b then (a * x + b) ^ g + c else if 0 ≤ x ∧ a * x + b = 0 then 0 else c) := by
  have a0 : 0 < a := by linarith
  have hdis : max (-b / a) 0 ≤ x ↔ 0 ≤ x ∧ 0 ≤ a * x + b := by
    rw [max_le_iff, div_le_iff₀ a0]
    constructor
    · rintro ⟨h1, h2⟩; exact ⟨h2, by linarith⟩
    · rintro ⟨h1, h2⟩; exact ⟨by linarith, h1⟩
  show some (f3 realOps (some g) (some a) (some b) (some c) (some x)) = _
  unfold f3
  simp only [not_tiny' ha, Bool.false_eq_true, if_false, r_neg, r_div _ a0.ne', r_lit0, r_max, r_le, r_mul, r_add,
    r_lt, hdis]
  by_cases h : 0 ≤ x ∧ 0 ≤ a * x + b
  · rw [if_pos h]
    by_cases hp : 0 < a * x + b
    · rw [if_pos hp, if_pos ⟨h.1, hp⟩, r_pow_pos hp, r_add]
    · rw [if_neg hp, if_neg (fun h' => hp h'.2), if_pos ⟨h.1, le_antisymm (not_lt.mp hp) h.2⟩]
  · rw [if_neg h, if_neg (fun h' => h ⟨h'.1, h'.2.le⟩), if_neg (fun h' => h ⟨h'.1, h'.2.ge⟩)]

/-- **C90** is violated: type 3 drops to 0 at its joint. -/
theorem C90_refuted : ¬ C90_statement := by
  intro h
  have h1 := (h 1 1 (-1) 5 (by norm_num) (by norm_num)).2 0 trivial 1 trivial (by norm_num) _ _
    (type3 (by norm_num) 5 0) (type3 (by norm_num) 5 1)
  norm_num at h1

/-- **C90**, exactly: type 3 is non-decreasing except at the joint; so everywhere iff there is no joint from 0 on
or `c = 0`. -/
theorem C90_type3_partial {g a b c : ℝ} (hg : 0 < g) (ha : 1 / 10000 ≤ a) :
    Rises 3 [g, a, b, c] {x | x < 0 ∨ a * x + b ≠ 0} ∧
    (Rises 3 [g, a, b, c] Set.univ ↔ 0 < b ∨ c = 0) := by
  have a0 : 0 < a := by linarith
  -- the curve without the exception
  have hmono : ∀ x x' : ℝ, x ≤ x' → (if 0 ≤ x ∧ 0 < a * x + b then (a * x + b) ^ g + c else c) ≤
      (if 0 ≤ x' ∧ 0 < a * x' + b then (a * x' + b) ^ g + c else c) := by
    intro x x' h
    have hax : a * x + b ≤ a * x' + b := by
      have := mul_le_mul_of_nonneg_left h a0.le
      linarith
    by_cases h1 : 0 ≤ x ∧ 0 < a * x + b
    · rw [if_pos h1, if_pos ⟨h1.1.trans h, lt_of_lt_of_le h1.2 hax⟩]
      have := Real.rpow_le_rpow h1.2.le hax hg.le
      linarith
    · rw [if_neg h1]
      split
      · rename_i h2
        have := Real.rpow_nonneg h2.2.le g
        linarith
      · exact le_rfl
  constructor
  · refine rises_of (fun x => if 0 ≤ x ∧ 0 < a * x + b then (a * x + b) ^ g + c else c) ?_
      (fun x _ x' _ h => hmono x x' h)
    intro x hx
    have h := type3 (g := g) (b := b) ha c x
    rwa [if_neg (c := 0 ≤ x ∧ a * x + b = 0) (by
      rintro ⟨h1, h2⟩
      rcases hx with hx | hx
      · linarith
      · exact hx h2)] at h
  · constructor
    · intro h
      by_contra hn
      push Not at hn
      obtain ⟨hb, hc⟩ := hn
      have hj0 : 0 ≤ -b / a := div_nonneg (by linarith) a0.le
      have hje : a * (-b / a) + b = 0 := by rw [mul_div_cancel₀ _ a0.ne']; ring
      have hj := type3 (g := g) (b := b) ha c (-b / a)
      rw [if_neg (by rw [hje]; simp), if_pos ⟨hj0, hje⟩] at hj
      rcases lt_or_gt_of_ne hc with hc | hc
      · -- above the joint, the value is still negative
        obtain ⟨δ, hδ, hδ'⟩ : ∃ δ : ℝ, 0 < δ ∧ δ ^ g + c < 0 := by
          refine ⟨(-c / 2) ^ (1 / g), Real.rpow_pos_of_pos (by linarith) _, ?_⟩
          rw [rpow_inv_cancel' (by linarith) hg.ne']
          linarith
        have hx' : a * (-b / a + δ / a) + b = δ := by
          rw [mul_add, mul_div_cancel₀ _ a0.ne', mul_div_cancel₀ _ a0.ne']; ring
        have hx0 : 0 ≤ -b / a + δ / a := by
          have := div_pos hδ a0
          linarith
        have h2 := type3 (g := g) (b := b) ha c (-b / a + δ / a)
        rw [hx', if_pos ⟨hx0, hδ⟩] at h2
        have := h.2 _ trivial _ trivial (by have := div_pos hδ a0; linarith) _ _ hj h2
        linarith
      · -- below the joint, the value is c
        have h2 := type3 (g := g) (b := b) ha c (-b / a - 1)
        have hlt : a * (-b / a - 1) + b < 0 := by
          rw [mul_sub, mul_div_cancel₀ _ a0.ne']; linarith
        rw [if_neg (by rintro ⟨-, h⟩; linarith), if_neg (by rintro ⟨-, h⟩; linarith)] at h2
        have := h.2 _ trivial _ trivial (by linarith) _ _ h2 hj
        linarith
    · intro h
      refine rises_of (fun x => if 0 ≤ x ∧ 0 < a * x + b then (a * x + b) ^ g + c else c) ?_
        (fun x _ x' _ h => hmono x x' h)
      intro x _
      have h3 := type3 (g := g) (b := b) ha c x
      rcases h with h | h
      · rwa [if_neg (c := 0 ≤ x ∧ a * x + b = 0) (by
          rintro ⟨h1, h2⟩
          have := mul_nonneg a0.le h1
          linarith)] at h3
      · subst h
        rwa [ite_self] at h3

/-- Without a joint in sight: `(x + 1)^2 + 5`. -/
example : Rises 3 [2, 1, 1, 5] Set.univ := (C90_type3_partial (by norm_num) (by norm_num)).2.mpr (.inl (by norm_num))

/-! ### C91 -/

/-- An inverse of a non-decreasing curve is non-decreasing. -/
theorem rises_inverse {type : Int32} {ps : List ℝ} {S T : Set ℝ} (hS : ∀ y ∈ S, BackForth T type ps y y)
    (hT : Rises type ps T) : Rises (-type) ps S := by
  constructor
  · intro y hy
    obtain ⟨x, -, h, -⟩ := hS y hy
    exact ⟨x, h⟩
  · intro y hy y' hy' hle x x' hx hx'
    obtain ⟨z, hz, h1, h2⟩ := hS y hy
    obtain ⟨z', hz', h1', h2'⟩ := hS y' hy'
    rw [hx.unique h1, hx'.unique h1']
    by_contra hn
    have h3 := hT.2 z' hz' z hz (not_le.mp hn).le _ _ h2' h2
    have : y = y' := le_antisymm hle h3
    subst this
    rw [h1.unique h1'] at hn
    exact hn le_rfl

theorem rises_mono {type : Int32} {ps : List ℝ} {S T : Set ℝ} (h : Rises type ps T) (hST : S ⊆ T) :
    Rises type ps S :=
  ⟨fun x hx => h.1 x (hST hx), fun x hx x' hx' => h.2 x (hST hx) x' (hST hx')⟩

/-- **C91** Types 7, 8 and 108 are defined and non-decreasing on the regions on which they are inverted. -/
theorem C91_more_monotone {g a b c d e : ℝ} :
    (0 < g → 0 ≤ a → 0 ≤ b → Rises 7 [g, a, b, c, d] {x | 0 ≤ x ∧ 0 < b * x ^ g + c}) ∧
    (0 ≤ a → 1 ≤ b → 0 ≤ c → Rises 8 [a, b, c, d, e] Set.univ) ∧
    (0 ≤ a → 0 < b → b ≤ 1 → c ≤ 0 → Rises 8 [a, b, c, d, e] Set.univ) ∧
    (1 / 10000 ≤ g → Rises 108 [g] {x | 0 ≤ x ∧ x ≤ 1}) := by
  refine ⟨fun hg ha hb => ?_, fun ha hb hc => ?_, fun ha hb hb1 hc => ?_, fun hg => ?_⟩
  · refine rises_of (fun x => a * Real.logb 10 (b * x ^ g + c) + d) ?_ ?_
    · rintro x ⟨hx, he⟩
      show some (f7 realOps (some g) (some a) (some b) (some c) (some d) (some x)) = _
      unfold f7
      simp only [r_pow hx hg.le, r_mul, r_add, r_lit0, r_le, if_neg (not_le.mpr he), r_log he]
    · rintro x ⟨hx, he⟩ x' ⟨hx', he'⟩ h
      have h1 : x ^ g ≤ x' ^ g := Real.rpow_le_rpow hx h hg.le
      have h2 : b * x ^ g + c ≤ b * x' ^ g + c := by
        have := mul_le_mul_of_nonneg_left h1 hb
        linarith
      have h3 : Real.logb 10 (b * x ^ g + c) ≤ Real.logb 10 (b * x' ^ g + c) :=
        (Real.logb_le_logb (by norm_num) he he').mpr h2
      have := mul_le_mul_of_nonneg_left h3 ha
      linarith
  · refine rises_of (fun x => a * b ^ (c * x + d) + e) (fun x _ => type8 (by linarith) a c d e x) ?_
    intro x _ x' _ h
    have h1 : c * x + d ≤ c * x' + d := by
      have := mul_le_mul_of_nonneg_left h hc
      linarith
    have h2 := mul_le_mul_of_nonneg_left (Real.rpow_le_rpow_of_exponent_le hb h1) ha
    linarith
  · refine rises_of (fun x => a * b ^ (c * x + d) + e) (fun x _ => type8 hb a c d e x) ?_
    intro x _ x' _ h
    have h1 : c * x' + d ≤ c * x + d := by
      have := mul_le_mul_of_nonpos_left h hc
      linarith
    have h2 := mul_le_mul_of_nonneg_left (Real.rpow_le_rpow_of_exponent_ge hb hb1 h1) ha
    linarith
  · have g0 : 0 < g := by linarith
    have gi : (0 : ℝ) ≤ 1 / g := (one_div_pos.mpr g0).le
    refine rises_of (fun x => (1 - (1 - x) ^ (1 / g)) ^ (1 / g)) ?_ ?_
    · rintro x ⟨hx, hx1⟩
      obtain ⟨y, hy, -, -, h, -⟩ := C69_sshaped hg hx hx1
      rwa [hy] at h
    · rintro x ⟨hx, hx1⟩ x' ⟨hx', hx1'⟩ h
      have h1 : (1 - x') ^ (1 / g) ≤ (1 - x) ^ (1 / g) := Real.rpow_le_rpow (by linarith) (by linarith) gi
      have h2 : (1 - x) ^ (1 / g) ≤ 1 := Real.rpow_le_one (by linarith) (by linarith) gi
      exact Real.rpow_le_rpow (by linarith) (by linarith) gi

/-- **C91**, the inverse types: each is defined and non-decreasing on the values of its curve; types −4 and −5
everywhere, if the pieces meet. -/
theorem C91_inverses_monotone {g a b c d e f : ℝ} (hg : 1 / 10000 ≤ g) (ha : 1 / 10000 ≤ a) :
    Rises (-1) [g] {y | 0 ≤ y} ∧
    (1 / 10000 ≤ c → 0 ≤ a * d + b → c * d = (a * d + b) ^ g → Rises (-4) [g, a, b, c, d] Set.univ) ∧
    (1 / 10000 ≤ c → 0 ≤ a * d + b → c * d + f = (a * d + b) ^ g + e →
      Rises (-5) [g, a, b, c, d, e, f] Set.univ) ∧
    Rises (-6) [g, a, b, c] {y | c ≤ y} ∧
    (1 / 10000 ≤ b → Rises (-7) [g, a, b, c, d] {y | c ≤ (10 : ℝ) ^ ((y - d) / a)}) ∧
    (1 < b → 1 / 10000 ≤ c → Rises (-8) [a, b, c, d, e] {y | e < y}) ∧
    (0 < b → b < 1 → c ≤ -(1 / 10000) → Rises (-8) [a, b, c, d, e] {y | e < y}) ∧
    Rises (-108) [g] {y | 0 ≤ y ∧ y ≤ 1} := by
  have g0 : 0 < g := by linarith
  have a0 : 0 < a := by linarith
  have inv := fun y => C89_inverse_first (g := g) (a := a) (b := b) (c := c) (d := d) (e := e) (f := f) hg ha y
  have mon := fun (h : 0 ≤ c) => C72_monotone (g := g) (a := a) (b := b) (c := c) (d := d) (e := e) (f := f) g0 h
  have mon0 := C72_monotone (g := g) (a := a) (b := b) (c := 0) (d := d) (e := c) (f := f) g0 le_rfl
  have more := C91_more_monotone (g := g) (a := a) (b := b) (c := c) (d := d) (e := e)
  refine ⟨?_, fun hc hd hj => ?_, fun hc hd hj => ?_, ?_, fun hb => ?_, fun hb hc => ?_, fun hb hb1 hc => ?_, ?_⟩
  · exact rises_inverse (type := 1) (fun y hy => (inv y).1 hy) mon0.1
  · refine rises_inverse (type := 4) (fun y _ => (inv y).2.2.2.1 hc hd hj) ?_
    refine (mon (by linarith)).2.2.1 a0.le ?_
    rw [max_eq_right hd, hj]
  · refine rises_inverse (type := 5) (fun y _ => (inv y).2.2.2.2.1 hc hd hj) ?_
    refine (mon (by linarith)).2.2.2.1 a0.le ?_
    rw [max_eq_right hd, hj]
  · exact rises_inverse (type := 6) (fun y hy => (inv y).2.2.2.2.2.1 hy)
      (rises_mono (mon0.2.2.2.2 a0.le) (Set.subset_univ _))
  · exact rises_inverse (type := 7) (fun y hy => (inv y).2.2.2.2.2.2.1 hb hy) (more.1 g0 a0.le (by linarith))
  · refine rises_inverse (type := 8) (fun y hy => (inv y).2.2.2.2.2.2.2.1 (by linarith) hb.ne' ?_ hy)
      (more.2.1 a0.le hb.le (by linarith))
    rw [abs_of_nonneg (by linarith)]; exact hc
  · refine rises_inverse (type := 8) (fun y hy => (inv y).2.2.2.2.2.2.2.1 hb hb1.ne ?_ hy)
      (more.2.2.1 a0.le hb hb1.le (by linarith))
    rw [abs_of_neg (by linarith)]; linarith
  · exact rises_inverse (type := 108) (fun y hy => (inv y).2.2.2.2.2.2.2.2 hy.1 hy.2) (more.2.2.2 hg)

/-- Of three values of the inverse sRGB shape, the middle one is between the others. -/
example : ∀ x y z, Maps (-4) [2, 1, 0, 1, 1] (-1) x → Maps (-4) [2, 1, 0, 1, 1] (1 / 2) y →
    Maps (-4) [2, 1, 0, 1, 1] 4 z → x ≤ y ∧ y ≤ z := by
  have h := (C91_inverses_monotone (g := 2) (a := 1) (b := 0) (c := 1) (d := 1) (e := 0) (f := 0) (by norm_num)
    (by norm_num)).2.1 (by norm_num) (by norm_num) (by norm_num)
  intro x y z hx hy hz
  exact ⟨h.2 _ trivial _ trivial (by norm_num) _ _ hx hy, h.2 _ trivial _ trivial (by norm_num) _ _ hy hz⟩

end Lcms.Props
