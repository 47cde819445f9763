import Verif.Model.Constants
import Verif.Model.Context
import Verif.Model.Profile
import Verif.Spec.Signatures

/-! # Property C109: the signature constants are those of the original library -/

namespace Lcms.Props

open Spec

/-- A name without its underscores. -/
def bare (s : String) : List Char := s.toList.filter (· ≠ '_')

/-- A module of the port holds exactly the constants of the original's enumeration, each with its value. -/
def Ports (port : List (String × Signature)) (original : List (String × String × Nat)) : Prop :=
  (port.map fun c => (bare c.1, c.2.toU32.toNat)).Perm (original.map fun c => (c.1.toList, c.2.2))

instance (p o) : Decidable (Ports p o) := by unfold Ports; infer_instance

/-- **C109**: every module holds exactly the constants of the original, with the same values. -/
def C109_statement : Prop :=
  Ports Constants.root Original.root ∧ Ports Constants.curveSegment Original.curveSegment ∧
  Ports Constants.colorSpace Original.colorSpace ∧ Ports Constants.platform Original.platform ∧
  Ports Constants.pluginType Original.pluginType ∧ Ports Constants.profileClass Original.profileClass ∧
  Ports Constants.stage Original.stage ∧ Ports Constants.tag Original.tag ∧
  Ports Constants.tagType Original.tagType ∧ Ports Constants.technology Original.technology

/-- One constant differs: the digital cinema projector is `dcpj` in the port, as in the ICC specification, and
`dcjp` in the bindings, which is a slip of lcms2.h. -/
theorem C109_refuted :
    ¬ C109_statement ∧
    ("DIGITAL_CINEMA_PROJECTOR", Signature.new #v[0x64, 0x63, 0x70, 0x6a]) ∈ Constants.technology ∧
    ("DIGITALCINEMAPROJECTOR", "cmsSigDigitalCinemaProjector", 0x64636a70) ∈ Original.technology := by
  refine ⟨fun h => ?_, by decide +kernel, by decide +kernel⟩
  exact absurd h.2.2.2.2.2.2.2.2.2 (by decide +kernel)

/-- It is the only difference: nine modules are the original's, and so is the tenth with that entry corrected. -/
theorem C109_values_partial :
    Ports Constants.root Original.root ∧ Ports Constants.curveSegment Original.curveSegment ∧
    Ports Constants.colorSpace Original.colorSpace ∧ Ports Constants.platform Original.platform ∧
    Ports Constants.pluginType Original.pluginType ∧ Ports Constants.profileClass Original.profileClass ∧
    Ports Constants.stage Original.stage ∧ Ports Constants.tag Original.tag ∧
    Ports Constants.tagType Original.tagType ∧
    Ports Constants.technology (Original.technology.map fun c =>
      if c.2.1 = "cmsSigDigitalCinemaProjector" then (c.1, c.2.1, 0x6463706a) else c) := by
  decide +kernel

/-- The signatures that `init_plugin` and the opening of a profile compare with are the original's. -/
theorem C109_used :
    [PluginSig.MAGIC, PluginSig.INTERPOLATION, PluginSig.TAG_TYPE, PluginSig.TAG, PluginSig.FORMATTERS,
      PluginSig.RENDERING_INTENT, PluginSig.PARAMETRIC_CURVE, PluginSig.MULTI_PROCESS_ELEMENT,
      PluginSig.OPTIMIZATION, PluginSig.TRANSFORM].map (fun s => some s.toU32.toNat) =
    ["cmsPluginMagicNumber", "cmsPluginInterpolationSig", "cmsPluginTagTypeSig", "cmsPluginTagSig",
      "cmsPluginFormattersSig", "cmsPluginRenderingIntentSig", "cmsPluginParametricCurveSig",
      "cmsPluginMultiProcessElementSig", "cmsPluginOptimizationSig", "cmsPluginTransformSig"].map
      (fun n => (Original.pluginType.find? (·.2.1 = n)).map (·.2.2)) ∧
    ("MAGICNUMBER", "cmsMagicNumber", MAGIC_NUMBER.toU32.toNat) ∈ Original.root := by
  decide +kernel

/-- 208 constants are compared with the bindings by value, 27 with the documents. -/
example :
    ([Original.curveSegment, Original.colorSpace, Original.platform, Original.profileClass, Original.stage,
      Original.tag, Original.tagType, Original.technology].map List.length).sum = 208 ∧
    Original.root.length + Original.pluginType.length = 27 := by decide

/-- Two stages whose names suggest each other's value: `XYZ2Lab` is `l2x `. -/
example : ("XYZ_TO_LAB_ELEM_TYPE", Signature.new #v[0x6c, 0x32, 0x78, 0x20]) ∈ Constants.stage ∧
    ("XYZTOLABELEMTYPE", "cmsSigXYZ2LabElemType", 0x6c327820) ∈ Original.stage := by decide +kernel

/-- A module with one byte wrong, or with one constant too many, does not port the original. -/
example : ¬ Ports [("FORMULA", .new #v[0x70, 0x61, 0x72, 0x66]), ("SAMPLED", .new #v[0x73, 0x61, 0x6d, 0x67]),
      ("SEGMENTED", .new #v[0x63, 0x75, 0x72, 0x66])] Original.curveSegment ∧
    ¬ Ports (Constants.curveSegment ++ [("STATUS_A", .new #v[0x53, 0x74, 0x61, 0x41])]) Original.curveSegment := by
  decide +kernel

end Lcms.Props
