import Verif.Model.Header

/-!
# src/types/date_time_number.rs and the parts of chrono 0.4.19 it uses

`NaiveDate` is a year and a day of the year, `NaiveTime` a second of the day and a fraction, as in chrono.
A panic is `none`.
-/

namespace Lcms

/-- `chrono::NaiveDate`: year and ordinal day (1-based) (used in src/types/date_time_number.rs:15-38). -/
structure NaiveDate where
  year : Int
  ordinal : Nat
deriving DecidableEq, Repr

/-- `chrono::NaiveTime`: seconds since midnight and nanoseconds (1e9 and more inside a leap second)
(used in src/types/date_time_number.rs:15-38). -/
structure NaiveTime where
  secs : Nat
  frac : Nat
deriving DecidableEq, Repr

/-- `chrono::NaiveDateTime` (used in src/types/date_time_number.rs:15-38, src/types/profile.rs:22) -/
structure NaiveDateTime where
  date : NaiveDate
  time : NaiveTime
deriving DecidableEq, Repr

/-- chrono's leap year flag (used in src/types/date_time_number.rs:17). -/
def leapYear (y : Int) : Bool := y % 4 == 0 && (y % 100 != 0 || y % 400 == 0)

/-- Days before the first of month `m + 1` of a common year (used in src/types/date_time_number.rs:17). -/
def cumTable : List Nat := [0, 31, 59, 90, 120, 151, 181, 212, 243, 273, 304, 334, 365]

/-- Days of year `y` before month `m` (`m` from 1; 13 gives the length of the year)
(used in src/types/date_time_number.rs:17). -/
def daysBefore (y : Int) (m : Nat) : Nat :=
  cumTable.getD (m - 1) 0 + (if leapYear y ∧ 2 < m then 1 else 0)

/-- `NaiveDate::from_ymd` (panics on a date that does not exist). The year of a `u16` is always in chrono's range
(src/types/date_time_number.rs:17). -/
def NaiveDate.fromYmd (y : Int) (m d : Nat) : Option NaiveDate :=
  if 1 ≤ m ∧ m ≤ 12 ∧ 1 ≤ d ∧ daysBefore y m + d ≤ daysBefore y (m + 1) then
    some ⟨y, daysBefore y m + d⟩
  else none

/-- `Datelike::month`: the month whose days contain the ordinal (src/types/date_time_number.rs:31). -/
def NaiveDate.month (d : NaiveDate) : Nat :=
  ((List.range 12).countP fun i => daysBefore d.year (i + 1) < d.ordinal)

/-- `Datelike::day` (src/types/date_time_number.rs:32) -/
def NaiveDate.day (d : NaiveDate) : Nat := d.ordinal - daysBefore d.year d.month

/-- `NaiveDate::and_hms` (panics on a time that does not exist) (src/types/date_time_number.rs:17-21). -/
def NaiveDate.andHms (d : NaiveDate) (h mi s : Nat) : Option NaiveDateTime :=
  if h < 24 ∧ mi < 60 ∧ s < 60 then some ⟨d, ⟨h * 3600 + mi * 60 + s, 0⟩⟩ else none

/-- `Timelike::hour`, `minute`, `second` (src/types/date_time_number.rs:33) -/
def NaiveTime.hour (t : NaiveTime) : Nat := t.secs / 60 / 60
/-- src/types/date_time_number.rs:34 -/
def NaiveTime.minute (t : NaiveTime) : Nat := t.secs / 60 % 60
/-- src/types/date_time_number.rs:35 -/
def NaiveTime.second (t : NaiveTime) : Nat := t.secs % 60

/-- `Datelike::year_ce`, second component (src/types/date_time_number.rs:28). -/
def NaiveDate.yearCe (d : NaiveDate) : Nat := if d.year < 1 then (1 - d.year).toNat else d.year.toNat

/-- src/types/date_time_number.rs:15-23 -/
def DateTimeNumber.toNaive (d : DateTimeNumber) : Option NaiveDateTime :=
  match NaiveDate.fromYmd d.year.toNat d.month.toNat d.day.toNat with
  | none => none
  | some date => date.andHms d.hours.toNat d.minutes.toNat d.seconds.toNat

/-- src/types/date_time_number.rs:24-38 -/
def DateTimeNumber.ofNaive (d : NaiveDateTime) : DateTimeNumber :=
  { year := UInt16.ofNat d.date.yearCe
    month := UInt16.ofNat d.date.month
    day := UInt16.ofNat d.date.day
    hours := UInt16.ofNat d.time.hour
    minutes := UInt16.ofNat d.time.minute
    seconds := UInt16.ofNat d.time.second }

end Lcms
