import Verif.Lemmas.CurveArgs
import Verif.Spec.Target

/-! # Properties C57–C59: the parametric curve evaluator and its table -/

namespace Lcms.Props

open Lcms.Curves

/-! ### C57 -/

/-- **C57**: for every curve of the default set and its inverse the evaluator panics exactly if fewer than
the declared number of parameters are given, and further parameters are ignored — in any arithmetic. -/
theorem C57_parameters {F : Type} (o : FOps F) (c : Curve) (hc : c ∈ defaultCurves) (type : Int32)
    (ht : type = c.functionCurveId ∨ type = -c.functionCurveId) (ps : List F) (r : F) :
    (eval o type ps r = none ↔ ps.length < c.parameterCount.toNat) ∧
    (∀ extra, c.parameterCount.toNat ≤ ps.length → eval o type (ps ++ extra) r = eval o type ps r) := by
  simp only [defaultCurves, List.mem_cons, List.not_mem_nil, or_false] at hc
  obtain ⟨a1, b1, a2, b2, a3, b3, a4, b4, a5, b5, a6, b6, a7, b7, a8, b8, a9, b9, a10, b10⟩ := eval_fetches o r
  rcases hc with rfl | rfl | rfl | rfl | rfl | rfl | rfl | rfl | rfl | rfl <;> rcases ht with rfl | rfl
  · exact a1 ps
  · exact b1 ps
  · exact a2 ps
  · exact b2 ps
  · exact a3 ps
  · exact b3 ps
  · exact a4 ps
  · exact b4 ps
  · exact a5 ps
  · exact b5 ps
  · exact a6 ps
  · exact b6 ps
  · exact a7 ps
  · exact b7 ps
  · exact a8 ps
  · exact b8 ps
  · exact a9 ps
  · exact b9 ps
  · exact a10 ps
  · exact b10 ps

/-- Two parameters are too few for type 2, three are enough, in binary64. -/
example (l : Libm) : let x := F64.ofRat 1
    (eval (F64.ops l) 2 [x, x] x).isNone ∧ (eval (F64.ops l) 2 [x, x, x] x).isSome := by
  simp only [eval_fetches (F64.ops l) (F64.ofRat 1) |>.2.2.1 _ |>.1, Option.isNone_iff_eq_none,
    Option.isSome_iff_ne_none, ne_eq]
  decide

/-! ### C58 -/

/-- The entry found is the first whose id is what `i32::abs` makes of the type. -/
theorem isInSet_first {t : Target} {type a : Int32} (ha : t.absI32 type = some a) (curves : List Curve) :
    match isInSet t curves type with
    | some (some i) => (curves[i]?).map (fun c => c.functionCurveId.toInt) = some a.toInt ∧
        ∀ j < i, (curves[j]?).map (fun c => c.functionCurveId.toInt) ≠ some a.toInt
    | some none => ∀ c ∈ curves, c.functionCurveId.toInt ≠ a.toInt
    | none => False := by
  have key : ∀ (cs : List Curve) (i : Nat),
      match isInSetFrom t type i cs with
      | some (some n) => ∃ k, n = i + k ∧ (cs[k]?).map (fun c => c.functionCurveId.toInt) = some a.toInt ∧
          ∀ j < k, (cs[j]?).map (fun c => c.functionCurveId.toInt) ≠ some a.toInt
      | some none => ∀ c ∈ cs, c.functionCurveId.toInt ≠ a.toInt
      | none => False := by
    intro cs
    induction cs with
    | nil => intro i; simp [isInSetFrom]
    | cons c cs ih =>
      intro i
      rw [isInSetFrom, ha]
      simp only [Option.bind_eq_bind, Option.bind_some]
      by_cases he : a = c.functionCurveId
      · rw [if_pos he]
        simp only
        refine ⟨0, by omega, by simp [he], fun j hj => by omega⟩
      · rw [if_neg he]
        have hne' : c.functionCurveId.toInt ≠ a.toInt := fun h => he (Int32.toInt_inj.mp h).symm
        have := ih (i + 1)
        cases hr : isInSetFrom t type (i + 1) cs with
        | none => rw [hr] at this; exact this
        | some q =>
          cases q with
          | none =>
            rw [hr] at this
            simp only at this ⊢
            intro c' hc'
            rcases List.mem_cons.mp hc' with rfl | h
            · exact hne'
            · exact this c' h
          | some n =>
            rw [hr] at this
            simp only at this ⊢
            obtain ⟨k, h1, h2, h3⟩ := this
            refine ⟨k + 1, by omega, by simpa using h2, ?_⟩
            intro j hj
            cases j with
            | zero => simpa using hne'
            | succ j => simpa using h3 j (by omega)
  have := key curves 0
  unfold isInSet
  cases hr : isInSetFrom t type 0 curves with
  | none => rw [hr] at this; exact this
  | some q =>
    cases q with
    | none => rw [hr] at this; exact this
    | some n =>
      rw [hr] at this
      simp only at this ⊢
      obtain ⟨k, h1, h2, h3⟩ := this
      have : n = k := by omega
      subst this
      exact ⟨h2, h3⟩

/-- **C58**: a type that is neither in the default set nor the negative of a member evaluates to zero, without
panicking, in any arithmetic; and on any collection, for any type with a representable absolute value,
`is_in_set` finds the first entry whose id is that absolute value. -/
theorem C58_unknown_types :
    (∀ {F : Type} (o : FOps F) (type : Int32) (ps : List F) (r : F),
      (∀ c ∈ defaultCurves, |type.toInt| ≠ c.functionCurveId.toInt) → eval o type ps r = some (o.lit 0)) ∧
    (∀ (t : Target) (curves : List Curve) (type : Int32), type ≠ Int32.minValue →
      match isInSet t curves type with
      | some (some i) => (curves[i]?).map (fun c => c.functionCurveId.toInt) = some |type.toInt| ∧
          ∀ j < i, (curves[j]?).map (fun c => c.functionCurveId.toInt) ≠ some |type.toInt|
      | some none => ∀ c ∈ curves, c.functionCurveId.toInt ≠ |type.toInt|
      | none => False) := by
  constructor
  · intro F o type ps r h
    simp only [defaultCurves, List.mem_cons, List.not_mem_nil, or_false, forall_eq_or_imp, forall_eq] at h
    simp only [Int32.reduceToInt] at h
    unfold eval
    split <;> simp_all
  · intro t curves type hne
    obtain ⟨a, ha, hav⟩ : ∃ a, t.absI32 type = some a ∧ a.toInt = |type.toInt| := by
      unfold Target.absI32
      rw [if_neg hne]
      by_cases hneg : type < 0
      · rw [if_pos hneg]
        refine ⟨_, rfl, ?_⟩
        rw [Int32.lt_iff_toInt_lt] at hneg
        have h0 : (0 : Int32).toInt = 0 := rfl
        rw [h0] at hneg
        have h1 : type.toInt ≠ -2147483648 := fun h => hne (Int32.toInt_inj.mp h)
        have h2 := Int32.minValue_le_toInt type
        have h3 : Int32.minValue.toInt = -2147483648 := rfl
        rw [abs_of_neg hneg, Int32.toInt_neg]
        apply Int.bmod_eq_of_le <;> omega
      · rw [if_neg hneg]
        refine ⟨_, rfl, ?_⟩
        rw [Int32.lt_iff_toInt_lt] at hneg
        have h0 : (0 : Int32).toInt = 0 := rfl
        rw [h0] at hneg
        rw [abs_of_nonneg (by omega)]
    rw [← hav]
    exact isInSet_first ha curves

/-- **C58**, the one type whose absolute value does not fit: without overflow checks `i32::MIN` is looked up as itself
(with them the call panics, C59). -/
theorem C58_smallest_type (t : Target) (hc : t.checks = false) (curves : List Curve) :
    match isInSet t curves Int32.minValue with
    | some (some i) => (curves[i]?).map (fun c => c.functionCurveId.toInt) = some (-2147483648) ∧
        ∀ j < i, (curves[j]?).map (fun c => c.functionCurveId.toInt) ≠ some (-2147483648)
    | some none => ∀ c ∈ curves, c.functionCurveId.toInt ≠ -2147483648
    | none => False := by
  have ha : t.absI32 Int32.minValue = some Int32.minValue := by
    unfold Target.absI32
    rw [if_pos rfl, hc]
    rfl
  exact isInSet_first ha curves

example : isInSet pc defaultCurves (-108) = some (some 8) ∧ isInSet pc defaultCurves 9 = some none := by decide

/-! ### C59 -/

/-- `is_in_set` returns for every type. -/
def C59_statement : Prop :=
  ∀ (t : Target) (curves : List Curve) (type : Int32), isInSet t curves type ≠ none

/-- **C59** is violated: `i32::MIN.abs()` panics in builds with overflow checks. -/
theorem C59_refuted : ¬ C59_statement := by
  intro h
  exact h pc defaultCurves Int32.minValue (by decide)

/-- **C59**, exactly: it panics only for `i32::MIN`, on a non-empty collection, with overflow checks. -/
theorem C59_is_in_set_partial (t : Target) (curves : List Curve) (type : Int32) :
    isInSet t curves type = none ↔ type = Int32.minValue ∧ t.checks = true ∧ curves ≠ [] := by
  have hsome : ∀ a, t.absI32 type = some a → ∀ (cs : List Curve) (i : Nat), isInSetFrom t type i cs ≠ none := by
    intro a ha cs
    induction cs with
    | nil => intro i; simp [isInSetFrom]
    | cons c cs ih =>
      intro i
      rw [isInSetFrom, ha]
      simp only [Option.bind_eq_bind, Option.bind_some]
      split
      · simp
      · exact ih _
  unfold isInSet
  cases ha : t.absI32 type with
  | some a =>
    constructor
    · intro h; exact absurd h (hsome a ha curves 0)
    · rintro ⟨rfl, h2, -⟩
      unfold Target.absI32 at ha
      rw [if_pos rfl, if_pos h2] at ha
      cases ha
  | none =>
    have hm : type = Int32.minValue ∧ t.checks = true := by
      unfold Target.absI32 at ha
      split at ha
      · split at ha
        · exact ⟨by assumption, by assumption⟩
        · cases ha
      · split at ha <;> cases ha
    cases curves with
    | nil => simp [isInSetFrom]
    | cons c cs =>
      rw [isInSetFrom, ha]
      simp [hm]

/-- In release mode `i32::MIN` is looked up as itself. -/
example : isInSet { pc with checks := false } [⟨7, 1⟩, ⟨Int32.minValue, 2⟩] Int32.minValue = some (some 1) := by
  decide

end Lcms.Props
