/-!
# Specification vocabulary: the Gregorian calendar

"Thirty days hath September, April, June and November; all the rest have thirty-one, except February."
-/

namespace Lcms.Spec

/-- Every fourth year, except centuries, except every fourth century. -/
def IsLeap (y : Int) : Prop := (4 ∣ y ∧ ¬ 100 ∣ y) ∨ 400 ∣ y

instance (y : Int) : Decidable (IsLeap y) := inferInstanceAs (Decidable (_ ∨ _))

/-- Length of a month. -/
def daysIn (y : Int) (m : Nat) : Nat :=
  if m = 9 ∨ m = 4 ∨ m = 6 ∨ m = 11 then 30
  else if m = 2 then (if IsLeap y then 29 else 28)
  else 31

/-- A date that exists. -/
def ValidDate (y : Int) (m d : Nat) : Prop := 1 ≤ m ∧ m ≤ 12 ∧ 1 ≤ d ∧ d ≤ daysIn y m

/-- A time of day that exists (leap seconds cannot be expressed in an ICC date). -/
def ValidTime (h m s : Nat) : Prop := h ≤ 23 ∧ m ≤ 59 ∧ s ≤ 59

instance (y : Int) (m d : Nat) : Decidable (ValidDate y m d) := inferInstanceAs (Decidable (_ ∧ _))
instance (h m s : Nat) : Decidable (ValidTime h m s) := inferInstanceAs (Decidable (_ ∧ _))

end Lcms.Spec
