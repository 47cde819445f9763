import Verif.Model.Constants
import Verif.Model.Context

/-! # Property C74: signature constants -/

namespace Lcms.Props

/-- The documented synonyms: the three primaries' tags have a version 2 and a version 4 name. -/
def synonyms : List (String × String) :=
  [("BLUE_COLORANT", "BLUE_MATRIX_COLUMN"), ("GREEN_COLORANT", "GREEN_MATRIX_COLUMN"),
    ("RED_COLORANT", "RED_MATRIX_COLUMN")]

/-- One name, or two names of one thing. -/
def SameThing (a b : String) : Prop := a = b ∨ (a, b) ∈ synonyms ∨ (b, a) ∈ synonyms

instance (a b : String) : Decidable (SameThing a b) := by unfold SameThing; infer_instance

/-- The values `init_plugin` compares a plugin with, in its order. -/
def pluginSigs : List Signature :=
  [PluginSig.MAGIC, PluginSig.INTERPOLATION, PluginSig.TAG_TYPE, PluginSig.TAG, PluginSig.FORMATTERS,
    PluginSig.RENDERING_INTENT, PluginSig.PARAMETRIC_CURVE, PluginSig.MULTI_PROCESS_ELEMENT,
    PluginSig.OPTIMIZATION, PluginSig.TRANSFORM]

/-- **C74**: the plugin signatures (those of the module, in some order) are pairwise distinct; in every module
names are not repeated and two constants are equal exactly if they are the same or synonyms; and every
constant is four printable ASCII characters, so that it is its own textual form. -/
theorem C74_constants :
    pluginSigs.Pairwise (· ≠ ·) ∧ pluginSigs.Perm (Constants.pluginType.map (·.2)) ∧
    (∀ m ∈ Constants.all, (m.map (·.1)).Nodup ∧
      ∀ a ∈ m, ∀ b ∈ m, (a.2 = b.2 ↔ SameThing a.1 b.1)) ∧
    (∀ m ∈ Constants.all, ∀ a ∈ m, ∀ c ∈ a.2.toBytes.toList, 0x20 ≤ c ∧ c ≤ 0x7e) := by
  refine ⟨?_, ?_, ?_, ?_⟩
  · decide +kernel
  · decide +kernel
  · decide +kernel
  · decide +kernel

/-- The tag module has 71 constants, 68 of them different. -/
example : Constants.tag.length = 71 ∧ (Constants.tag.map (·.2)).dedup.length = 68 := by decide +kernel

end Lcms.Props
