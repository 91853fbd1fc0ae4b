import Verif.Model.Chrono
/-
The scanners that read a `datetime_components` and make something else of it: the calendar types and time points.
-/
namespace Scn

/-- `datetime_components::to_tm`, /repo/include/scn/chrono.h:303-330. `tm_isdst` is left out: it is always -1. -/
def DateTime.toTm (gmtoff : Bool) (d : DateTime) : Tm where
  sec := d.sec.getD 0
  min := d.min.getD 0
  hour := d.hour.getD 0
  mday := d.mday.getD 0
  mon := d.mon.getD 1 - 1
  year := d.year.getD 1900 - 1900
  wday := d.wday.getD 0
  yday := d.yday.getD 0
  gmtoff := if gmtoff then d.tzOffset.getD 0 * 60 else 0

/-- The calendar types with a scanner, /repo/include/scn/chrono.h:1572-1698. -/
inductive CalKind where
  | weekday | day | month | year | monthDay | yearMonth | yearMonthDay
  deriving DecidableEq, Repr

/-- Values of the calendar types, /repo/include/scn/chrono.h:32-249. -/
inductive CalVal where
  | weekday (w : Int)
  | day (d : Int)
  | month (m : Int)
  | year (y : Int)
  | monthDay (m d : Int)
  | yearMonth (y m : Int)
  | yearMonthDay (y m d : Int)
  deriving DecidableEq, Repr

/-- `static_cast<unsigned char>(static_cast<unsigned>(v))`, as in the constructors of `day` and `month`,
    /repo/include/scn/chrono.h:98-101, 118-121. -/
def toUChar (v : Int) : Int := v % 256

/-- What the `scan` functions take from the `datetime_components`, /repo/include/scn/chrono.h:1584-1586, 1600-1602, 1616-1618,
    1632-1634, 1649-1653, 1669-1673, 1689-1695: a component that is not there is asserted, and accessed (`none`). -/
def CalKind.value (d : DateTime) : CalKind → Option CalVal
  | .weekday => d.wday.map .weekday
  | .day => d.mday.map fun v => .day (toUChar v)
  | .month => d.mon.map .month
  | .year => d.year.map .year
  | .monthDay => d.mon.bind fun m => d.mday.map fun v => .monthDay (toUChar m) (toUChar v)
  | .yearMonth => d.year.bind fun y => d.mon.map fun m => .yearMonth y (toUChar m)
  | .yearMonthDay => d.year.bind fun y => d.mon.bind fun m => d.mday.map fun v => .yearMonthDay y (toUChar m) (toUChar v)

/-- `scan` of the scanners of calendar types, /repo/include/scn/chrono.h:1572-1698. -/
def calendarScan (cfg : ChronoCfg) (k : CalKind) (fmt src : List Nat) : Res (CalVal × List Nat) :=
  (chronoScan cfg dtSetter fmt {} src).bind fun r =>
    match k.value r.1 with
    | none => .ub
    | some v => .ok (v, r.2)

/-- The scanner of a calendar type as a custom argument: `scan_custom_arg` with `chrono_component_scanner::parse` and
    `scan`, /repo/include/scn/scan.h:5552-5584, 5617-5640, /repo/include/scn/chrono.h:1553-1568. -/
def calendarCustom (cfg : ChronoCfg) (gmtoff : Bool) (k : CalKind) (pos src : List Nat) : List Nat × Res (CalVal × List Nat) :=
  match chronoParse cfg.enc gmtoff .components pos with
  | .ub => (pos, .ub)
  | .err e => (pos, .err e)
  | .ok (fmt, p) => (p, calendarScan cfg k fmt src)

/-- The value of a signed 64-bit operation, as at /repo/include/scn/chrono.h:359-369: out of range, it is undefined. -/
def int64Op (v : Int) : Option Int := if -2 ^ 63 ≤ v ∧ v < 2 ^ 63 then some v else none

/-- `std::chrono::duration_cast` from seconds times `fnum / fden` to seconds times `num / den`, both 64 bits wide, as used
    at /repo/include/scn/chrono.h:364, 369 (the factor is reduced; a numerator or denominator of 1 is not used). -/
def durationCast (fnum fden num den : Nat) (v : Int) : Option Int :=
  let n := fnum * den / Nat.gcd (fnum * den) (fden * num)
  let d := fden * num / Nat.gcd (fnum * den) (fden * num)
  (if n = 1 then some v else int64Op (v * n)).map fun w => if d = 1 then w else w.tdiv d

/-- `time_since_unix_epoch`, /repo/include/scn/chrono.h:345-370, for a duration of `num / den` seconds. `mktime` is the C
    function, `nanos` the value of the subsecond digits in nanoseconds. The outer option: undefined, the inner one:
    `std::nullopt`. -/
def timeSinceEpoch (gmtoff : Bool) (mktime : Tm → Int) (nanos : List Nat → Int) (num den : Nat) (d : DateTime) : Option (Option Int) :=
  if d.tzOffset.isSome || d.tzName.isSome || d.wday.isSome || d.yday.isSome then some none
  else
    let time := mktime (d.toTm gmtoff)
    match decide (den > 1), d.subsec with
    | true, some s =>
      (int64Op (time * 10 ^ 9)).bind fun t => (int64Op (t + nanos s)).bind fun t =>
        (durationCast 1 (10 ^ 9) num den t).map some
    | _, _ => (durationCast 1 1 num den time).map some

/-- `scan` of the scanner of time points of the system clock, /repo/include/scn/chrono.h:1700-1724. -/
def timePointScan (cfg : ChronoCfg) (gmtoff : Bool) (mktime : Tm → Int) (nanos : List Nat → Int) (num den : Nat) (fmt src : List Nat) :
    Res (Int × List Nat) :=
  (chronoScan cfg dtSetter fmt {} src).bind fun r =>
    match timeSinceEpoch gmtoff mktime nanos num den r.1 with
    | none => .ub
    | some none => .err .invalidScannedValue
    | some (some v) => .ok (v, r.2)

/-- The scanner of time points as a custom argument, as for `calendarCustom`. /repo/include/scn/chrono.h:1553-1568, 1700-1724. -/
def timePointCustom (cfg : ChronoCfg) (gmtoff : Bool) (mktime : Tm → Int) (nanos : List Nat → Int) (num den : Nat) (pos src : List Nat) :
    List Nat × Res (Int × List Nat) :=
  match chronoParse cfg.enc gmtoff .components pos with
  | .ub => (pos, .ub)
  | .err e => (pos, .err e)
  | .ok (fmt, p) => (p, timePointScan cfg gmtoff mktime nanos num den fmt src)

end Scn
