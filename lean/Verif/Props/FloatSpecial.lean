import Mathlib.Data.EReal.Basic
import Verif.Lemmas.F64Order

/-!
# Property C104, continued: the special cases of the 64-bit arithmetic

`C104_operations` speaks about finite operands.  Here are NaN, the infinities, the signs (of zeros too) and the
comparisons, as IEEE 754 and the documentation of `f64` have them.
-/

namespace Lcms.Props

/-- The value, infinities included; nothing for NaN. -/
noncomputable def extVal : F64 → Option EReal
  | .nan => none
  | .inf true => some ⊥
  | .inf false => some ⊤
  | .fin true m k => some (((-(F64.magVal m k) : ℚ) : ℝ) : EReal)
  | .fin false m k => some (((F64.magVal m k : ℚ) : ℝ) : EReal)

/-- One of the two infinities. -/
def IsInf (x : F64) : Prop := ∃ s, x = .inf s

/-- One of the two zeros. -/
def IsZer (x : F64) : Prop := F64.val x = some 0

theorem magVal_isZer (m k : ℕ) : F64.magVal m k = 0 ↔ m = 0 := by
  unfold F64.magVal
  constructor
  · intro h
    by_contra hm
    have : (0 : ℚ) < (m : ℚ) := by exact_mod_cast Nat.pos_of_ne_zero hm
    have : (0 : ℚ) < (m : ℚ) * 2 ^ k / 2 ^ F64.bias := by positivity
    exact this.ne' h
  · rintro rfl
    simp

theorem isZer_fin (s : Bool) (m : Fin (2 ^ 53)) (k : Fin 2046) : IsZer (.fin s m k) ↔ m.val = 0 := by
  unfold IsZer
  cases s
  · simp only [F64.val, Option.some.injEq, magVal_isZer]
  · simp only [F64.val, Option.some.injEq, neg_eq_zero, magVal_isZer]

theorem isZer_iff (x : F64) : F64.isZero x = true ↔ IsZer x := by
  rcases x with - | s | ⟨s, m, k⟩
  · simp [F64.isZero, IsZer, F64.val]
  · simp [F64.isZero, IsZer, F64.val]
  · rw [isZer_fin]
    simp [F64.isZero]

theorem sign_roundMag (s : Bool) (q : ℚ) : F64.sign (F64.roundMag s q) = s ∧ F64.roundMag s q ≠ .nan := by
  unfold F64.roundMag
  split
  · exact ⟨rfl, nofun⟩
  · simp only
    split
    · exact ⟨rfl, nofun⟩
    · split
      · exact ⟨rfl, nofun⟩
      · exact ⟨rfl, nofun⟩

theorem sign_round (q : ℚ) : F64.sign (F64.round q) = decide (q < 0) ∧ F64.round q ≠ .nan := by
  unfold F64.round
  split
  · rename_i h
    rw [(sign_roundMag _ _).1]
    exact ⟨by simp [h], (sign_roundMag _ _).2⟩
  · rename_i h
    rw [(sign_roundMag _ _).1]
    exact ⟨by simp [h], (sign_roundMag _ _).2⟩

/-- **C104**, when a result is NaN: exactly if an operand is, or for ∞ − ∞, 0 · ∞, ∞ / ∞ and 0 / 0. -/
theorem C104_nan (x y : F64) :
    (F64.add x y = .nan ↔ x = .nan ∨ y = .nan ∨ ∃ s, x = .inf s ∧ y = .inf (!s)) ∧
    (F64.sub x y = .nan ↔ x = .nan ∨ y = .nan ∨ ∃ s, x = .inf s ∧ y = .inf s) ∧
    (F64.mul x y = .nan ↔ x = .nan ∨ y = .nan ∨ IsInf x ∧ IsZer y ∨ IsZer x ∧ IsInf y) ∧
    (F64.div x y = .nan ↔ x = .nan ∨ y = .nan ∨ IsInf x ∧ IsInf y ∨ IsZer x ∧ IsZer y) ∧
    (F64.neg x = .nan ↔ x = .nan) ∧ (F64.abs x = .nan ↔ x = .nan) ∧
    (F64.max x y = .nan ↔ x = .nan ∧ y = .nan) := by
  have hadd : ∀ y, (F64.add x y = .nan ↔ x = .nan ∨ y = .nan ∨ ∃ s, x = .inf s ∧ y = .inf (!s)) := by
    intro y
    rcases x with - | s | ⟨s, m, k⟩ <;> rcases y with - | s' | ⟨s', m', k'⟩ <;> simp [F64.add]
    · cases s <;> cases s' <;> simp
    · split
      · simp
      · exact (sign_round _).2
  have hneg : ∀ x, (F64.neg x = .nan ↔ x = .nan) := by
    intro x
    rcases x with - | s | ⟨s, m, k⟩ <;> simp [F64.neg]
  refine ⟨hadd y, ?_, ?_, ?_, hneg x, ?_, ?_⟩
  · unfold F64.sub
    rw [hadd, hneg]
    refine or_congr_right (or_congr_right (exists_congr fun s => and_congr_right fun _ => ?_))
    rcases y with - | s' | ⟨s', m', k'⟩ <;> simp [F64.neg]
  · rcases x with - | s | ⟨s, m, k⟩ <;> rcases y with - | s' | ⟨s', m', k'⟩ <;>
      simp [F64.mul, IsInf, isZer_iff, (sign_roundMag _ _).2]
    all_goals simp [IsZer, F64.val]
  · rcases x with - | s | ⟨s, m, k⟩ <;> rcases y with - | s' | ⟨s', m', k'⟩ <;>
      simp [F64.div, IsInf]
    all_goals try (simp [IsZer, F64.val]; done)
    rw [isZer_fin, isZer_fin]
    split
    · rename_i h
      split
      · rename_i h'
        simp [h, h']
      · rename_i h'
        simp [h, h']
    · rename_i h
      simp [h, (sign_roundMag _ _).2]
  · rcases x with - | s | ⟨s, m, k⟩ <;> simp [F64.abs]
  · rcases x with - | s | ⟨s, m, k⟩ <;> rcases y with - | s' | ⟨s', m', k'⟩ <;> simp [F64.max] <;> split <;> simp

/-- **C104**, the infinities: a sum with an infinity is that infinity; a product with one, a quotient of one and a
quotient by zero are infinite; a quotient by an infinity is zero; unless the result is NaN. -/
theorem C104_infinite (x y : F64) :
    (∀ s, F64.add (.inf s) y ≠ .nan → F64.add (.inf s) y = .inf s) ∧
    (∀ s, F64.add y (.inf s) ≠ .nan → F64.add y (.inf s) = .inf s) ∧
    (IsInf x ∨ IsInf y → F64.mul x y ≠ .nan → IsInf (F64.mul x y)) ∧
    (IsInf x ∨ IsZer y → F64.div x y ≠ .nan → IsInf (F64.div x y)) ∧
    (IsInf y → F64.div x y ≠ .nan → IsZer (F64.div x y)) := by
  refine ⟨?_, ?_, ?_, ?_, ?_⟩
  · intro s hn
    rcases y with - | s' | ⟨s', m', k'⟩
    · exact absurd rfl hn
    · by_cases h : s = s'
      · exact if_pos h
      · exact absurd (if_neg h) hn
    · rfl
  · intro s hn
    rcases y with - | s' | ⟨s', m', k'⟩
    · exact absurd rfl hn
    · by_cases h : s' = s
      · rw [h]
        exact if_pos rfl
      · exact absurd (if_neg h) hn
    · rfl
  · intro h hn
    rcases x with - | s | ⟨s, m, k⟩
    · exact absurd rfl hn
    · by_cases hy : y = .nan
      · rw [hy] at hn
        exact absurd rfl hn
      have e : F64.mul (.inf s) y = if F64.isZero y then .nan else .inf (s != F64.sign y) := by
        cases y <;> first | rfl | exact absurd rfl hy
      rw [e] at hn ⊢
      split at hn
      · exact absurd rfl hn
      · rename_i hz
        rw [if_neg hz]
        exact ⟨_, rfl⟩
    · rcases h with ⟨_, h⟩ | ⟨s', rfl⟩
      · cases h
      have e : F64.mul (.fin s m k) (.inf s') = if F64.isZero (.fin s m k) then .nan else .inf (s != s') := rfl
      rw [e] at hn ⊢
      split at hn
      · exact absurd rfl hn
      · rename_i hz
        rw [if_neg hz]
        exact ⟨_, rfl⟩
  · intro h hn
    rcases x with - | s | ⟨s, m, k⟩ <;> rcases y with - | s' | ⟨s', m', k'⟩
    all_goals first
      | exact absurd rfl hn
      | exact ⟨_, rfl⟩
      | skip
    · rcases h with ⟨_, h⟩ | h <;> cases h
    · rcases h with ⟨_, h⟩ | h
      · cases h
      rw [isZer_fin] at h
      have e : F64.div (.fin s m k) (.fin s' m' k') = if m.val = 0 then .nan else .inf (s != s') := if_pos h
      rw [e] at hn ⊢
      split at hn
      · exact absurd rfl hn
      · rename_i hz
        rw [if_neg hz]
        exact ⟨_, rfl⟩
  · rintro ⟨s', rfl⟩ hn
    rcases x with - | s | ⟨s, m, k⟩
    · exact absurd rfl hn
    · exact absurd rfl hn
    · exact (isZer_fin _ _ _).mpr rfl

/-- **C104**, the signs: products and quotients follow the rule of signs, zeros and infinities included; a sum has the
sign of the exact sum, and a sum that is exactly zero is −0 only for two negative zeros. -/
theorem C104_sign (x y : F64) :
    (F64.mul x y ≠ .nan → F64.sign (F64.mul x y) = (F64.sign x != F64.sign y)) ∧
    (F64.div x y ≠ .nan → F64.sign (F64.div x y) = (F64.sign x != F64.sign y)) ∧
    (∀ p q, F64.val x = some p → F64.val y = some q →
      (p + q ≠ 0 → F64.sign (F64.add x y) = decide (p + q < 0)) ∧
      (p + q = 0 → F64.sign (F64.add x y) = (F64.sign x && F64.sign y))) ∧
    (x ≠ .nan → F64.sign (F64.neg x) = !F64.sign x) ∧ F64.sign (F64.abs x) = false ∧
    (∀ q, F64.val x = some q → F64.val (F64.neg x) = some (-q) ∧ F64.val (F64.abs x) = some |q|) := by
  refine ⟨?_, ?_, ?_, ?_, ?_, ?_⟩
  · intro hn
    rcases x with - | s | ⟨s, m, k⟩
    · exact absurd rfl hn
    · by_cases hy : y = .nan
      · rw [hy] at hn
        exact absurd rfl hn
      have e : F64.mul (.inf s) y = if F64.isZero y then .nan else .inf (s != F64.sign y) := by
        cases y <;> first | rfl | exact absurd rfl hy
      rw [e] at hn ⊢
      split at hn
      · exact absurd rfl hn
      · rename_i hz
        rw [if_neg hz]
        rfl
    · rcases y with - | s' | ⟨s', m', k'⟩
      · exact absurd rfl hn
      · have e : F64.mul (.fin s m k) (.inf s') = if F64.isZero (.fin s m k) then .nan else .inf (s != s') := rfl
        rw [e] at hn ⊢
        split at hn
        · exact absurd rfl hn
        · rename_i hz
          rw [if_neg hz]
          rfl
      · exact (sign_roundMag _ _).1
  · intro hn
    rcases x with - | s | ⟨s, m, k⟩ <;> rcases y with - | s' | ⟨s', m', k'⟩
    all_goals first
      | exact absurd rfl hn
      | rfl
      | skip
    have e : F64.div (.fin s m k) (.fin s' m' k') = if m'.val = 0 then (if m.val = 0 then .nan else .inf (s != s'))
      else F64.roundMag (s != s') (F64.magVal m k / F64.magVal m' k') := rfl
    rw [e] at hn ⊢
    by_cases h1 : m'.val = 0
    · rw [if_pos h1] at hn ⊢
      by_cases h2 : m.val = 0
      · rw [if_pos h2] at hn
        exact absurd rfl hn
      · rw [if_neg h2]
        rfl
    · rw [if_neg h1]
      exact (sign_roundMag _ _).1
  · intro p q hx hy
    obtain ⟨s, m, k, rfl, -⟩ := F64.val_eq_some hx
    obtain ⟨s', m', k', rfl, -⟩ := F64.val_eq_some hy
    have e1 : F64.ratOf (.fin s m k) = p := by unfold F64.ratOf; rw [hx]; rfl
    have e2 : F64.ratOf (.fin s' m' k') = q := by unfold F64.ratOf; rw [hy]; rfl
    constructor
    · intro h
      unfold F64.add
      simp only [e1, e2, if_neg h]
      exact (sign_round _).1
    · intro h
      unfold F64.add
      simp only [e1, e2, if_pos h]
      rfl
  · rcases x with - | s | ⟨s, m, k⟩ <;> simp [F64.neg, F64.sign]
  · rcases x with - | s | ⟨s, m, k⟩ <;> simp [F64.abs, F64.sign]
  · intro q hq
    refine ⟨F64.val_neg hq, ?_⟩
    obtain ⟨s, m, k, rfl, -⟩ := F64.val_eq_some hq
    have h0 : 0 ≤ F64.magVal m k := by unfold F64.magVal; positivity
    cases s
    · simp only [F64.val, Option.some.injEq] at hq
      rw [← hq, abs_of_nonneg h0]
      rfl
    · simp only [F64.val, Option.some.injEq] at hq
      rw [← hq, abs_neg, abs_of_nonneg h0]
      rfl

theorem extVal_fin (s : Bool) (m : Fin (2 ^ 53)) (k : Fin 2046) :
    extVal (.fin s m k) = some (((F64.ratOf (.fin s m k) : ℚ) : ℝ) : EReal) := by
  cases s <;> rfl

/-- **C104**, the comparisons: those of the extended real numbers, and false if one side is NaN; `max` is the greater
of two numbers and ignores a NaN. -/
theorem C104_compare (x y : F64) :
    (F64.lt x y = true ↔ ∃ a b, extVal x = some a ∧ extVal y = some b ∧ a < b) ∧
    (F64.le x y = true ↔ ∃ a b, extVal x = some a ∧ extVal y = some b ∧ a ≤ b) ∧
    (∀ a b, extVal x = some a → extVal y = some b → extVal (F64.max x y) = some (max a b)) ∧
    (x = .nan → F64.max x y = y) ∧ (y = .nan → F64.max x y = x) := by
  have hlt : F64.lt x y = true ↔ ∃ a b, extVal x = some a ∧ extVal y = some b ∧ a < b := by
    rcases x with - | s | ⟨s, m, k⟩ <;> rcases y with - | s' | ⟨s', m', k'⟩
    · simp [F64.lt, extVal]
    · simp [F64.lt, extVal]
    · simp [F64.lt, extVal]
    · simp [F64.lt, extVal]
    · cases s <;> cases s' <;> simp [F64.lt, extVal]
    · rw [extVal_fin]
      cases s <;> simp [F64.lt, extVal, EReal.bot_lt_coe]
    · simp [F64.lt, extVal]
    · rw [extVal_fin]
      cases s' <;> simp [F64.lt, extVal, EReal.coe_lt_top]
    · rw [extVal_fin, extVal_fin]
      simp [F64.lt]
  have hle : F64.le x y = true ↔ ∃ a b, extVal x = some a ∧ extVal y = some b ∧ a ≤ b := by
    rcases x with - | s | ⟨s, m, k⟩ <;> rcases y with - | s' | ⟨s', m', k'⟩
    · simp [F64.le, extVal]
    · simp [F64.le, extVal]
    · simp [F64.le, extVal]
    · simp [F64.le, extVal]
    · cases s <;> cases s' <;> simp [F64.le, extVal]
    · rw [extVal_fin]
      cases s <;> simp [F64.le, extVal]
    · simp [F64.le, extVal]
    · rw [extVal_fin]
      cases s' <;> simp [F64.le, extVal]
    · rw [extVal_fin, extVal_fin]
      simp [F64.le]
  refine ⟨hlt, hle, ?_, ?_, ?_⟩
  · intro a b ha hb
    have hm : F64.max x y = if F64.lt x y = true then y else x := by
      rcases x with - | s | ⟨s, m, k⟩ <;> rcases y with - | s' | ⟨s', m', k'⟩ <;> first | rfl | cases ha
    rw [hm]
    split
    · rename_i h
      obtain ⟨a', b', h1, h2, h3⟩ := hlt.mp h
      rw [ha] at h1
      rw [hb] at h2
      cases h1
      cases h2
      rw [hb, max_eq_right h3.le]
    · rename_i h
      rw [ha, max_eq_left]
      by_contra hc
      exact h (hlt.mpr ⟨a, b, ha, hb, not_le.mp hc⟩)
  · rintro rfl
    rfl
  · rintro rfl
    cases x <;> rfl

/-- 1/−0 is −∞, 0 · ∞ is NaN, and the sum of the two zeros is +0. -/
example : F64.div (F64.ofRat 1) (F64.neg (F64.ofRat 0)) = .inf true ∧ F64.mul (F64.ofRat 0) (.inf false) = .nan ∧
    F64.add (F64.ofRat 0) (F64.neg (F64.ofRat 0)) = F64.ofRat 0 ∧
    F64.neg (F64.ofRat 0) ≠ F64.ofRat 0 ∧ F64.le (F64.ofRat 0) (F64.neg (F64.ofRat 0)) = true := by decide +kernel

/-- The theorems apply: the quotient above is infinite and has the sign of the divisor. -/
example : IsInf (F64.div (F64.ofRat 1) (F64.neg (F64.ofRat 0))) :=
  (C104_infinite _ _).2.2.2.1 (.inr (show F64.val _ = _ by decide +kernel)) (by decide +kernel)

end Lcms.Props
