import Verif.Spec.Plugin

namespace Lcms

open Lcms.Spec

theorem sig_eq_iff (s : Signature) (v : UInt32) : s = ⟨v⟩ ↔ s.val.toNat = v.toNat := by
  constructor
  · rintro rfl; rfl
  · intro h
    cases s with
    | mk x => rw [UInt32.toNat_inj] at h; simp only at h; rw [h]

theorem sigMagic : PluginSig.MAGIC = ⟨0x61637070⟩ := by decide

/-- `init_plugin` in terms of the list of plugins. -/
theorem initPlugin_eq (env : Handlers) (plain : Char → Bool) (p : Plugin) (s : CState) :
    initPlugin env plain p s =
      match (plugins p).dropLast.find? (fun q => ¬ ValidPlugin q) with
      | none => .done (.ok ()) s
      | some q => failWith env .unknownExtension (complaint plain q).toList s := by
  induction p with
  | last p => rfl
  | chain p next ih =>
    have hne : plugins next ≠ [] := by cases next <;> simp [plugins]
    rw [plugins, List.dropLast_cons_of_ne_nil hne, List.find?_cons]
    unfold initPlugin
    have hm : p.magic = PluginSig.MAGIC ↔ p.magic.val.toNat = code4 "acpp" := by
      rw [sigMagic, sig_eq_iff]; exact Iff.rfl
    by_cases h1 : p.magic.val.toNat = code4 "acpp"
    · have h1' := hm.mpr h1
      rw [if_neg (by simpa using h1')]
      by_cases h2 : 2131 < p.expectedVersion.toNat
      · rw [if_pos (by show LCMS_VERSION < _; rw [UInt32.lt_iff_toNat_lt]; exact h2)]
        have hv : ¬ ValidPlugin p := fun hv => by have := hv.2.1; omega
        simp only [hv, not_false_eq_true, decide_true]
        have e : (complaint plain p).toList = "plugin needs Little CMS ".toList ++
            decimal p.expectedVersion.toNat ++ ", current version is ".toList ++
              decimal LCMS_VERSION.toNat := by
          unfold complaint
          rw [if_neg (by simpa using h1), if_pos h2]
          simp only [toString, String.toList_append, decimal, Nat.repr, String.toList_ofList]
          have : Nat.toDigits 10 LCMS_VERSION.toNat = "2131".toList := by decide
          rw [this]
          simp only [List.append_assoc]
          rfl
        rw [e]
      · rw [if_neg (by show ¬ LCMS_VERSION < _; rw [UInt32.lt_iff_toNat_lt]; exact h2)]
        have hk : p.type.val.toNat ∈ kinds ↔ (p.type = PluginSig.INTERPOLATION ∨ p.type = PluginSig.TAG_TYPE ∨
            p.type = PluginSig.TAG ∨ p.type = PluginSig.FORMATTERS ∨ p.type = PluginSig.RENDERING_INTENT ∨
            p.type = PluginSig.PARAMETRIC_CURVE ∨ p.type = PluginSig.MULTI_PROCESS_ELEMENT ∨
            p.type = PluginSig.OPTIMIZATION ∨ p.type = PluginSig.TRANSFORM) := by
          have e : ∀ v : UInt32, (p.type = ⟨v⟩) = (p.type.val.toNat = v.toNat) :=
            fun v => propext (sig_eq_iff _ _)
          rw [show PluginSig.INTERPOLATION = ⟨0x696E7048⟩ by decide,
            show PluginSig.TAG_TYPE = ⟨0x74797048⟩ by decide,
            show PluginSig.TAG = ⟨0x74616748⟩ by decide,
            show PluginSig.FORMATTERS = ⟨0x66726D48⟩ by decide,
            show PluginSig.RENDERING_INTENT = ⟨0x696E7448⟩ by decide,
            show PluginSig.PARAMETRIC_CURVE = ⟨0x70617248⟩ by decide,
            show PluginSig.MULTI_PROCESS_ELEMENT = ⟨0x6D706548⟩ by decide,
            show PluginSig.OPTIMIZATION = ⟨0x6F707448⟩ by decide,
            show PluginSig.TRANSFORM = ⟨0x78666D48⟩ by decide]
          simp only [e]
          rw [show kinds = [0x696E7048, 0x74797048, 0x74616748, 0x66726D48, 0x696E7448, 0x70617248, 0x6D706548,
            0x6F707448, 0x78666D48] by decide]
          simp only [List.mem_cons, List.not_mem_nil, or_false]
          exact Iff.rfl
        by_cases h3 : p.type.val.toNat ∈ kinds
        · have hv : ValidPlugin p := ⟨h1, by omega, h3⟩
          simp only [hv, not_true_eq_false, decide_false, ← ih]
          rcases hk.mp h3 with h | h | h | h | h | h | h | h | h <;> simp only [h, if_true, ite_self]
        · have hv : ¬ ValidPlugin p := fun hv => h3 hv.2.2
          have hn := mt hk.mpr h3
          simp only [not_or] at hn
          obtain ⟨n1, n2, n3, n4, n5, n6, n7, n8, n9⟩ := hn
          simp only [hv, not_false_eq_true, decide_true]
          rw [if_neg n1, if_neg n2, if_neg n3, if_neg n4, if_neg n5, if_neg n6, if_neg n7, if_neg n8, if_neg n9]
          congr 1
          unfold complaint
          rw [if_neg (by simpa using h1), if_neg h2]
          simp [toString, String.toList_append]
    · have h1' : p.magic ≠ PluginSig.MAGIC := fun h => h1 (hm.mp h)
      rw [if_pos h1']
      have hv : ¬ ValidPlugin p := fun hv => h1 hv.1
      simp only [hv, not_false_eq_true, decide_true]
      congr 1
      unfold complaint
      rw [if_pos h1]

end Lcms
