import Verif.Spec.Chrono
/-
Dates and times in the words and digits of a locale. What these texts are is up to the locale (`std::time_get`); here is
only which conversions depend on it, and which fields they are for.
-/
namespace Scn.Spec

/-- The conversions whose texts depend on the locale: the characters after `%`; the conversion that means the same
    (POSIX: `%A` is `%a`, `%B` and `%h` are `%b`, `%Oe` is `%Od`, all others are themselves); and the fields that it is for. -/
def localeConversions : List (List Nat × List Nat × List ChronoField) :=
  [([99], [99], [.fullYear, .mon, .mday, .hour24, .min, .sec]), ([120], [120], [.fullYear, .mon, .mday]),
   ([88], [88], [.hour24, .min, .sec]), ([114], [114], [.hour24, .min, .sec]),
   ([97], [97], [.wday]), ([65], [97], [.wday]), ([98], [98], [.mon]), ([66], [98], [.mon]), ([104], [98], [.mon]),
   ([69, 99], [69, 99], [.fullYear, .mon, .mday, .hour24, .min, .sec]), ([69, 120], [69, 120], [.fullYear, .mon, .mday]),
   ([69, 88], [69, 88], [.hour24, .min, .sec]), ([69, 89], [69, 89], [.fullYear]),
   ([79, 100], [79, 100], [.mday]), ([79, 101], [79, 100], [.mday]), ([79, 72], [79, 72], [.hour24]), ([79, 73], [79, 73], [.hour12]),
   ([79, 109], [79, 109], [.mon]), ([79, 77], [79, 77], [.min]), ([79, 83], [79, 83], [.sec]), ([79, 119], [79, 119], [.wday])]

/-- The field has a value that it can have; a year has, as it is an `int`. -/
def FieldInRange (t : Tm) : ChronoField → Prop
  | .sec => 0 ≤ t.sec ∧ t.sec ≤ 60
  | .min => 0 ≤ t.min ∧ t.min ≤ 59
  | .hour24 => 0 ≤ t.hour ∧ t.hour ≤ 23
  | .hour12 => 1 ≤ t.hour ∧ t.hour ≤ 12
  | .mday => 1 ≤ t.mday ∧ t.mday ≤ 31
  | .mon => 0 ≤ t.mon ∧ t.mon ≤ 11
  | .wday => 0 ≤ t.wday ∧ t.wday ≤ 6
  | .fullYear => -2 ^ 31 ≤ t.year
  | _ => True

/-- The fields `fs` as they are in `t`, all others as in `t0`. -/
def takeTm (fs : List ChronoField) (t t0 : Tm) : Tm :=
  { t0 with
    sec := if .sec ∈ fs then t.sec else t0.sec
    min := if .min ∈ fs then t.min else t0.min
    hour := if .hour24 ∈ fs ∨ .hour12 ∈ fs then t.hour else t0.hour
    mday := if .mday ∈ fs then t.mday else t0.mday
    mon := if .mon ∈ fs then t.mon else t0.mon
    year := if .fullYear ∈ fs then t.year else t0.year
    wday := if .wday ∈ fs then t.wday else t0.wday }

/-- The same for `datetime_components`, where January is 1 and years are counted from 0. -/
def takeDt (fs : List ChronoField) (t : Tm) (t0 : DateTime) : DateTime :=
  { t0 with
    sec := if .sec ∈ fs then some t.sec else t0.sec
    min := if .min ∈ fs then some t.min else t0.min
    hour := if .hour24 ∈ fs ∨ .hour12 ∈ fs then some t.hour else t0.hour
    mday := if .mday ∈ fs then some t.mday else t0.mday
    mon := if .mon ∈ fs then some (t.mon + 1) else t0.mon
    year := if .fullYear ∈ fs then some (t.year + 1900) else t0.year
    wday := if .wday ∈ fs then some t.wday else t0.wday }

end Scn.Spec
