import Verif.Model.Curves
import Verif.Spec.Target

/-! # Property C73: parametric curves at NaN -/

namespace Lcms.Props

open Lcms.Curves

theorem le_nan (x : F64) : F64.le x .nan = false := by cases x <;> rfl

theorem add_nan (x : F64) : F64.add x .nan = .nan := by cases x <;> rfl

/-- **C73**: whatever the platform's `powf`, `exp` and `log10` are, at NaN type 2 gives 0, type 3 gives `c`
(0 if `a` is below the tolerance), types 4 and 5 give NaN, and of the inverses type −3 gives `−b/a` (0 if `a`
is below the tolerance) and types −4 and −5 give NaN (0 if `c` is below the tolerance). -/
theorem C73_nan (l : Libm) (g a b c d e f : F64) :
    let small := fun x => F64.lt (F64.abs x) (F64.ofRat (1 / 10000))
    eval (F64.ops l) 2 [g, a, b] .nan = some (F64.ofRat 0) ∧
    eval (F64.ops l) 3 [g, a, b, c] .nan = some (if small a then F64.ofRat 0 else c) ∧
    eval (F64.ops l) 4 [g, a, b, c, d] .nan = some .nan ∧
    eval (F64.ops l) 5 [g, a, b, c, d, e, f] .nan = some .nan ∧
    eval (F64.ops l) (-3) [g, a, b, c] .nan = some (if small a then F64.ofRat 0 else F64.div (F64.neg b) a) ∧
    eval (F64.ops l) (-4) [g, a, b, c, d] .nan = some (if small c then F64.ofRat 0 else .nan) ∧
    eval (F64.ops l) (-5) [g, a, b, c, d, e, f] .nan = some (if small c then F64.ofRat 0 else .nan) := by
  intro small
  have hle : ∀ x, (F64.ops l).le x .nan = false := le_nan
  refine ⟨?_, ?_, ?_, ?_, ?_, ?_, ?_⟩
  · show some (f2 (F64.ops l) g a b .nan) = _
    unfold f2
    simp only [hle, Bool.false_eq_true, if_false, ite_self]
    rfl
  · show some (f3 (F64.ops l) g a b c .nan) = _
    unfold f3
    simp only [hle, Bool.false_eq_true, if_false]
    rfl
  · show some (f4 (F64.ops l) g a b c d .nan) = _
    unfold f4
    simp only [hle, Bool.false_eq_true, if_false]
    rfl
  · show some (f5 (F64.ops l) g a b c d e f .nan) = _
    unfold f5
    simp only [hle, Bool.false_eq_true, if_false]
    rfl
  · show some (g3 (F64.ops l) g a b c .nan) = _
    unfold g3
    simp only [hle, Bool.false_eq_true, if_false]
    rfl
  · show some (g4 (F64.ops l) g a b c d .nan) = _
    unfold g4
    simp only [hle, Bool.false_eq_true, if_false]
    rfl
  · show some (g5 (F64.ops l) g a b c d e f .nan) = _
    unfold g5
    simp only [hle, Bool.false_eq_true, if_false]
    rfl

/-- With `a = 1` type 3 gives `c = 2` at NaN: the other case of the conditional is not the only one. -/
example (l : Libm) : let x := F64.ofRat 1
    eval (F64.ops l) 3 [x, x, x, F64.ofRat 2] .nan = some (F64.ofRat 2) := by
  intro x
  rw [(C73_nan l x x x (F64.ofRat 2) x x x).2.1]
  have : F64.lt (F64.abs x) (F64.ofRat (1 / 10000)) = false := by decide +kernel
  simp only [this, Bool.false_eq_true, if_false]

theorem lt_nan (x : F64) : F64.lt x .nan = false := by cases x <;> rfl

theorem nan_le (x : F64) : F64.le .nan x = false := rfl

theorem nan_div (x : F64) : F64.div .nan x = .nan := rfl

/-- A NaN offset `b` is not noticed either: type 2 gives 0 everywhere; type 3 gives `c` below zero and 0 from zero on
(`max` drops the NaN, so the corner is at zero; 0 everywhere if `a` is below the tolerance); types 4 and 5 give 0
and `e` above the joint. -/
theorem C73_nan_offset (l : Libm) (g a c d e f r : F64) :
    let small := fun x => F64.lt (F64.abs x) (F64.ofRat (1 / 10000))
    eval (F64.ops l) 2 [g, a, .nan] r = some (F64.ofRat 0) ∧
    eval (F64.ops l) 3 [g, a, .nan, c] r =
      some (if small a then F64.ofRat 0 else if F64.le (F64.ofRat 0) r then F64.ofRat 0 else c) ∧
    (F64.le d r = true → eval (F64.ops l) 4 [g, a, .nan, c, d] r = some (F64.ofRat 0)) ∧
    (F64.le d r = true → eval (F64.ops l) 5 [g, a, .nan, c, d, e, f] r = some e) := by
  intro small
  have hlt : ∀ x, (F64.ops l).lt x .nan = false := lt_nan
  have hadd : ∀ x, (F64.ops l).add x .nan = .nan := add_nan
  have hneg : (F64.ops l).neg .nan = .nan := rfl
  have hdiv : ∀ x, (F64.ops l).div .nan x = .nan := nan_div
  have hle : ∀ x, (F64.ops l).le .nan x = false := nan_le
  refine ⟨?_, ?_, fun h => ?_, fun h => ?_⟩
  · show some (f2 (F64.ops l) g a .nan r) = _
    unfold f2
    simp only [hneg, hdiv, hle, Bool.false_eq_true, if_false, ite_self]
    rfl
  · show some (f3 (F64.ops l) g a .nan c r) = _
    unfold f3
    have hmax : ∀ x, (F64.ops l).max .nan x = x := fun _ => rfl
    simp only [hneg, hdiv, hmax, hadd, hlt, Bool.false_eq_true, if_false]
    rfl
  · show some (f4 (F64.ops l) g a .nan c d r) = _
    have h' : (F64.ops l).le d r = true := h
    unfold f4
    simp only [h', hadd, hlt, Bool.false_eq_true, if_false, if_true]
    rfl
  · show some (f5 (F64.ops l) g a .nan c d e f r) = _
    have h' : (F64.ops l).le d r = true := h
    unfold f5
    simp only [h', hadd, hlt, Bool.false_eq_true, if_false, if_true]

/-- The offset of type 3 is lost: 1/2 has the value 0, and -1/2 the value `c`. -/
example (l : Libm) : eval (F64.ops l) 3 [F64.ofRat 2, F64.ofRat 1, .nan, F64.ofRat 3] (F64.ofRat (1 / 2)) =
      some (F64.ofRat 0) ∧
    eval (F64.ops l) 3 [F64.ofRat 2, F64.ofRat 1, .nan, F64.ofRat 3] (F64.ofRat (-1 / 2)) = some (F64.ofRat 3) := by
  have h1 := (C73_nan_offset l (F64.ofRat 2) (F64.ofRat 1) (F64.ofRat 3) .nan .nan .nan (F64.ofRat (1 / 2))).2.1
  have h2 := (C73_nan_offset l (F64.ofRat 2) (F64.ofRat 1) (F64.ofRat 3) .nan .nan .nan (F64.ofRat (-1 / 2))).2.1
  rw [h1, h2]
  decide +kernel

end Lcms.Props
