import Verif.Model.Context

/-!
# Specification vocabulary: plugin chains

Written over the list of plugins of a chain, without reference to `initPlugin`.
-/

namespace Lcms.Spec

/-- The plugins of a chain, first to last. -/
def plugins : Plugin → List PluginInfo
  | .last p => [p]
  | .chain p next => p :: plugins next

/-- The ASCII text of a four-letter code as the number a `Signature` holds. -/
def code4 (s : String) : Nat := s.toList.foldl (fun n c => n * 256 + c.toNat) 0

/-- The nine plugin kinds of lcms2, by their four-letter codes. -/
def kinds : List Nat := ["inpH", "typH", "tagH", "frmH", "intH", "parH", "mpeH", "optH", "xfmH"].map code4

/-- A plugin this version of the library accepts. -/
def ValidPlugin (p : PluginInfo) : Prop :=
  p.magic.val.toNat = code4 "acpp" ∧ p.expectedVersion.toNat ≤ 2131 ∧ p.type.val.toNat ∈ kinds

instance (p : PluginInfo) : Decidable (ValidPlugin p) := by unfold ValidPlugin; infer_instance

/-- The complaint about an invalid plugin: the first of the three conditions it violates. -/
def complaint (plain : Char → Bool) (p : PluginInfo) : String :=
  if p.magic.val.toNat ≠ code4 "acpp" then "Unrecognized plugin"
  else if 2131 < p.expectedVersion.toNat then
    s!"plugin needs Little CMS {p.expectedVersion.toNat}, current version is 2131"
  else s!"Unrecognized plugin type '{String.ofList (p.type.debug plain false)}'"

end Lcms.Spec
