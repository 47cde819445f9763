import Verif.Model.Basic

/-! # A target used in examples -/

namespace Lcms.Props

/-- A little-endian 64-bit debug build without the feature: the usual development machine. -/
def pc : Target := ⟨false, false, true, true⟩

end Lcms.Props
