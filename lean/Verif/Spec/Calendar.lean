import Verif.Model.Calendar
import Verif.Spec.Chrono
/-
What the calendar types and time points mean. From the model only the names of the types and their values are taken.
-/
namespace Scn.Spec

/-- The part of a date that a calendar type is. -/
def calendarOf (c : Civil) : CalKind → CalVal
  | .weekday => .weekday c.wday
  | .day => .day c.mday
  | .month => .month c.month
  | .year => .year c.year
  | .monthDay => .monthDay c.month c.mday
  | .yearMonth => .yearMonth c.year c.month
  | .yearMonthDay => .yearMonthDay c.year c.month c.mday

/-- These fields determine a value of the calendar type. -/
def Determines (fs : List ChronoField) : CalKind → Prop
  | .weekday => .wday ∈ fs
  | .day => .mday ∈ fs
  | .month => .mon ∈ fs
  | .year => .fullYear ∈ fs
  | .monthDay => .mon ∈ fs ∧ .mday ∈ fs
  | .yearMonth => .fullYear ∈ fs ∧ .mon ∈ fs
  | .yearMonthDay => .fullYear ∈ fs ∧ .mon ∈ fs ∧ .mday ∈ fs

instance (fs : List ChronoField) (k : CalKind) : Decidable (Determines fs k) := by
  cases k <;> unfold Determines <;> infer_instance

/-- The numbers of a value of a calendar type are those of some date. -/
def CalVal.InRange : CalVal → Prop
  | .weekday w => 0 ≤ w ∧ w ≤ 6
  | .day d => 1 ≤ d ∧ d ≤ 31
  | .month m => 1 ≤ m ∧ m ≤ 12
  | .year _ => True
  | .monthDay m d => (1 ≤ m ∧ m ≤ 12) ∧ 1 ≤ d ∧ d ≤ 31
  | .yearMonth _ m => 1 ≤ m ∧ m ≤ 12
  | .yearMonthDay _ m d => (1 ≤ m ∧ m ≤ 12) ∧ 1 ≤ d ∧ d ≤ 31

/-- A year of 366 days. -/
def isLeap (y : Int) : Bool := y % 4 = 0 && (y % 100 ≠ 0 || y % 400 = 0)

/-- The days of the months before a month (January is 1). -/
def daysBefore (y m : Int) : Int :=
  [0, 31, 59, 90, 120, 151, 181, 212, 243, 273, 304, 334].getD (m - 1).toNat 0 + if m > 2 && isLeap y then 1 else 0

/-- Seconds since the Epoch, IEEE Std 1003.1, 4.16, from the year, month (January is 1), day (the first is 1), and time of
    day. The divisions are rounded down. -/
def secondsSinceEpoch (y m d hh mm ss : Int) : Int :=
  ss + mm * 60 + hh * 3600 + (daysBefore y m + d - 1) * 86400 + (y - 1970) * 31536000 + ((y - 1969) / 4) * 86400 - ((y - 1901) / 100) * 86400 +
    ((y - 1601) / 400) * 86400

/-- `mktime` where local time is UTC: days, hours, minutes and seconds need not be in their ranges. -/
def MktimeUtc (mktime : Tm → Int) : Prop :=
  ∀ t : Tm, 0 ≤ t.mon → t.mon ≤ 11 → mktime t = secondsSinceEpoch (t.year + 1900) (t.mon + 1) t.mday t.hour t.min t.sec

/-- The fields with which no time point is read. -/
def notInTimePoints : List ChronoField := [.wday, .yday, .tzoff, .tzname]

end Scn.Spec
