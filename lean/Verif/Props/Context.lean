import Verif.Lemmas.Context

/-! # Properties C52–C56: plugins, error codes -/

namespace Lcms.Props

open Lcms.Spec

/-! ### C52 -/

/-- `init_plugin` returns `Ok` iff every plugin in the chain is valid. -/
def C52_statement : Prop :=
  ∀ (env : Handlers) (plain : Char → Bool) (p : Plugin) (s : CState),
    (∃ s', initPlugin env plain p s = .done (.ok ()) s') ↔ ∀ q ∈ plugins p, ValidPlugin q

/-- A plugin that is wrong in every respect. -/
def badPlugin : PluginInfo := ⟨⟨0⟩, 9999, ⟨1⟩, .transform 0⟩

/-- A valid plugin. -/
def goodPlugin : PluginInfo := ⟨⟨0x61637070⟩, 2131, ⟨0x6F707448⟩, .optimization 0⟩

/-- **C52** is violated: the last plugin of a chain is never inspected, so a chain consisting of one
invalid plugin is accepted. -/
theorem C52_refuted : ¬ C52_statement := by
  intro h
  have h1 := (h (fun _ c _ _ => .returns c) (fun _ => true) (.last badPlugin) ⟨Context.new none, []⟩).mp
    ⟨_, rfl⟩
  exact absurd (h1 badPlugin (by simp [plugins])) (by decide)

/-- **C52**, the part that holds: the result is `Ok` iff every plugin but the last is valid; in
particular a chain of valid plugins is always accepted, with nothing signalled and nothing changed. -/
theorem C52_init_plugin_partial (env : Handlers) (plain : Char → Bool) (p : Plugin) (s : CState) :
    ((∃ s', initPlugin env plain p s = .done (.ok ()) s') ↔ ∀ q ∈ (plugins p).dropLast, ValidPlugin q) ∧
    ((∀ q ∈ plugins p, ValidPlugin q) → initPlugin env plain p s = .done (.ok ()) s) := by
  constructor
  · rw [initPlugin_eq]
    cases hf : (plugins p).dropLast.find? (fun q => ¬ ValidPlugin q) with
    | none =>
      simp only [List.find?_eq_none, decide_eq_true_eq, not_not] at hf
      exact ⟨fun _ => hf, fun _ => ⟨s, rfl⟩⟩
    | some q =>
      have hq := List.find?_some hf
      simp only [decide_eq_true_eq] at hq
      constructor
      · rintro ⟨s', h⟩
        simp only [failWith] at h
        split at h <;> cases h
      · intro h
        exact absurd (h q (List.mem_of_find?_eq_some hf)) hq
  · intro h
    rw [initPlugin_eq]
    have : (plugins p).dropLast.find? (fun q => ¬ ValidPlugin q) = none := by
      simp only [List.find?_eq_none, decide_eq_true_eq, not_not]
      exact fun q hq => h q (List.dropLast_subset _ hq)
    rw [this]

example : ValidPlugin goodPlugin := by decide

example (env : Handlers) (plain : Char → Bool) (s : CState) :
    initPlugin env plain (.chain goodPlugin (.chain goodPlugin (.last badPlugin))) s = .done (.ok ()) s := by
  rw [initPlugin_eq]; rfl

/-! ### C53 -/

/-- **C53**: with the inspected plugins being all but the last: if they are all valid, nothing is
signalled; otherwise the error handler is called exactly once, with `UnknownExtension` and the complaint
about the first invalid one, and that text is what is returned (unless the handler panics). -/
theorem C53_first_offence (env : Handlers) (plain : Char → Bool) (p : Plugin) (s : CState) :
    match (plugins p).dropLast.find? (fun q => ¬ ValidPlugin q) with
    | none => initPlugin env plain p s = .done (.ok ()) s
    | some q =>
      let text := (complaint plain q).toList
      let trace := s.trace ++ [⟨.unknownExtension, text⟩]
      match callHandler env s.ctx.errorHandler s.ctx .unknownExtension text with
      | .returns c => initPlugin env plain p s = .done (.error text) ⟨c, trace⟩
      | .panics c => initPlugin env plain p s = .panic ⟨c, trace⟩ := by
  rw [initPlugin_eq]
  cases hf : (plugins p).dropLast.find? (fun q => ¬ ValidPlugin q) with
  | none => rfl
  | some q =>
    simp only [failWith, signalError]
    cases hc : callHandler env s.ctx.errorHandler s.ctx .unknownExtension (complaint plain q).toList <;>
      simp only []

/-- The second plugin is the first offender and only it is reported. -/
example : initPlugin (fun _ c _ _ => .returns c) (fun _ => true)
      (.chain goodPlugin (.chain { goodPlugin with expectedVersion := 2200 } (.chain badPlugin (.last goodPlugin))))
      ⟨Context.new none, []⟩ =
    .done (.error "plugin needs Little CMS 2200, current version is 2131".toList)
      ⟨Context.new none,
        [⟨.unknownExtension, "plugin needs Little CMS 2200, current version is 2131".toList⟩]⟩ := by
  rfl

/-! ### C55 -/

/-- The nine `is_*` predicates. -/
def kindPredicates : List (PluginType → Bool) :=
  [PluginType.isInterpolation, PluginType.isParametricCurves, PluginType.isFormatter, PluginType.isTagType,
    PluginType.isTag, PluginType.isRenderingIntent, PluginType.isMultiProcessElement,
    PluginType.isOptimization, PluginType.isTransform]

/-- **C55**: exactly one of the nine predicates holds for every payload, and it is the one named after the
variant. -/
theorem C55_partition (p : PluginType) :
    kindPredicates.countP (fun f => f p) = 1 ∧
    (p.isInterpolation ↔ ∃ a, p = .interpolation a) ∧
    (p.isParametricCurves ↔ ∃ a b c d, p = .parametricCurve a b c d) ∧
    (p.isFormatter ↔ ∃ a, p = .formatter a) ∧
    (p.isTagType ↔ ∃ a, p = .tagType a) ∧
    (p.isTag ↔ ∃ a b, p = .tag a b) ∧
    (p.isRenderingIntent ↔ ∃ a b c, p = .renderingIntent a b c) ∧
    (p.isMultiProcessElement ↔ ∃ a, p = .multiProcessElement a) ∧
    (p.isOptimization ↔ ∃ a, p = .optimization a) ∧
    (p.isTransform ↔ ∃ a, p = .transform a) := by
  refine ⟨by cases p <;> rfl, ?_, ?_, ?_, ?_, ?_, ?_, ?_, ?_, ?_⟩ <;>
    cases p <;> simp [PluginType.isInterpolation, PluginType.isParametricCurves, PluginType.isFormatter,
      PluginType.isTagType, PluginType.isTag, PluginType.isRenderingIntent,
      PluginType.isMultiProcessElement, PluginType.isOptimization, PluginType.isTransform]

example : kindPredicates.map (fun f => f (.tag ⟨7⟩ 3)) =
    [false, false, false, false, true, false, false, false, false] := by decide

/-! ### C56 -/

/-- The lcms2 error numbers (`cmsERROR_*` in lcms2.h). -/
def lcmsErrorNumbers : List (ErrorCode × Nat) :=
  [(.undefined, 0), (.file, 1), (.range, 2), (.internal, 3), (.null, 4), (.read, 5), (.seek, 6),
    (.write, 7), (.unknownExtension, 8), (.colorSpaceCheck, 9), (.alreadyDefined, 10), (.badSignature, 11),
    (.corruptionDetected, 12), (.notSuitable, 13)]

/-- **C56**: every code has its lcms2 number, different codes have different numbers, and the derived order
is the numeric order. -/
theorem C56_error_codes (a b : ErrorCode) :
    (a, a.toU32.toNat) ∈ lcmsErrorNumbers ∧ (a.toU32 = b.toU32 ↔ a = b) ∧
    (a.cmp b = .lt ↔ a.toU32.toNat < b.toU32.toNat) ∧ (a.cmp b = .eq ↔ a = b) ∧
    (a.cmp b = .gt ↔ b.toU32.toNat < a.toU32.toNat) := by
  cases a <;> cases b <;> decide

example : ErrorCode.badSignature.toU32 = 11 ∧ ErrorCode.range.cmp .badSignature = .lt := by decide

end Lcms.Props
