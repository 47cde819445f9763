import Verif.Spec.Profile

/-!
# Specification vocabulary: the blank profile
-/

namespace Lcms.Spec

/-- The header fields that a program keeps say nothing: version 2.1, the three class fields hold spaces, the
creation date is the given one and everything else, from the flags to the intent and from the creator to the
profile ID, is zero. -/
structure BlankHeader (t : Target) (b : List UInt8) (now : NaiveDateTime) : Prop where
  version : num t b 8 4 = 0x02100000
  deviceClass : num t b 12 4 = 0x20202020
  colorSpace : num t b 16 4 = 0x20202020
  pcs : num t b 20 4 = 0x20202020
  year : (num t b 24 2 : Int) = now.date.year
  month : num t b 26 2 = now.date.month
  day : num t b 28 2 = now.date.day
  hour : num t b 30 2 = now.time.hour
  minute : num t b 32 2 = now.time.minute
  second : num t b 34 2 = now.time.second
  frac : now.time.frac = 0
  zero1 : at_ b 44 24 = List.replicate 24 0
  zero2 : at_ b 80 20 = List.replicate 20 0

end Lcms.Spec
