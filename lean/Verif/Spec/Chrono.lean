import Verif.Spec.Ranges
import Verif.Spec.Numeral
import Verif.Model.Chrono
/-
Dates and times as texts. From the model only the vocabulary is taken: the names of the conversions (`ChronoCall`), the
fields, and the types `Tm` and `DateTime`.
-/
namespace Scn.Spec

/-- A date and time: the year, the month (January is 1), the days of the month (1…), of the week (Sunday is 0) and of
    the year (January 1st is 1), the time of day, and the offset from UTC in hours and minutes. -/
structure Civil where
  year : Nat
  month : Nat
  mday : Nat
  wday : Nat
  yday : Nat
  hour : Nat
  minute : Nat
  second : Nat
  west : Bool
  offHours : Nat
  offMinutes : Nat

/-- The fields are in their ranges. -/
structure Civil.Valid (c : Civil) : Prop where
  year : c.year ≤ 9999
  month : 1 ≤ c.month ∧ c.month ≤ 12
  mday : 1 ≤ c.mday ∧ c.mday ≤ 31
  wday : c.wday ≤ 6
  yday : 1 ≤ c.yday ∧ c.yday ≤ 366
  hour : c.hour ≤ 23
  minute : c.minute ≤ 59
  second : c.second ≤ 60

/-- The hour on a clock with 12 hours: 12, 1, …, 11, twice a day. -/
def hour12 (h : Nat) : Nat := if h % 12 = 0 then 12 else h % 12

/-- The offset from UTC in minutes. -/
def Civil.offset (c : Civil) : Int := (if c.west then -1 else 1) * (c.offHours * 60 + c.offMinutes : Nat)

/-- A decimal numeral with this value and between `lo` and `hi` digits; with fewer than `hi` no digit may
    follow. -/
structure Digits (lo hi v : Nat) (t : List Nat) (follow : List Nat → Prop) : Prop where
  digits : ∀ c ∈ t, IsDigit 10 c
  value : value 10 t = v
  low : lo ≤ t.length
  high : t.length ≤ hi
  follow : ∀ rest, follow rest → t.length = hi ∨ NoDigitFirst 10 rest

/-- The English names. -/
def monthName : Nat → List Nat
  | 1 => [74,97,110,117,97,114,121] | 2 => [70,101,98,114,117,97,114,121] | 3 => [77,97,114,99,104] | 4 => [65,112,114,105,108]
  | 5 => [77,97,121] | 6 => [74,117,110,101] | 7 => [74,117,108,121] | 8 => [65,117,103,117,115,116]
  | 9 => [83,101,112,116,101,109,98,101,114] | 10 => [79,99,116,111,98,101,114] | 11 => [78,111,118,101,109,98,101,114]
  | 12 => [68,101,99,101,109,98,101,114] | _ => []

def weekdayName : Nat → List Nat
  | 0 => [83,117,110,100,97,121] | 1 => [77,111,110,100,97,121] | 2 => [84,117,101,115,100,97,121]
  | 3 => [87,101,100,110,101,115,100,97,121] | 4 => [84,104,117,114,115,100,97,121] | 5 => [70,114,105,100,97,121]
  | 6 => [83,97,116,117,114,100,97,121] | _ => []

/-- The text begins with the name, in whatever case. -/
def StartsWithName (name s : List Nat) : Prop := EqUpToCase name (s.take name.length)

/-- A name, in whatever case: in full, or its first three letters if the full name does not stand there. -/
def Named (name t : List Nat) (follow : List Nat → Prop) : Prop :=
  EqUpToCase name t ∨ (EqUpToCase (name.take 3) t ∧ ∀ rest, follow rest → ¬ StartsWithName name (t ++ rest))

/-- The sign of an offset from UTC: `-` in the west; `+` or none in the east. -/
def OffsetSign (west : Bool) (sg : List Nat) : Prop := if west then sg = [45] else sg = [43] ∨ sg = []

/-- The text shows what the conversion is for, provided that what comes next satisfies `follow`. -/
inductive Shown (e : Enc) (c : Civil) : ChronoCall → List Nat → (List Nat → Prop) → Prop where
  | text (t : List Nat) (f) (h : ∀ x ∈ t, IsScalar x ∧ encode e x = [x]) : Shown e c (.text t) t f
  | whitespace (t : List Nat) (f) (h : Spaces t) (hf : ∀ rest, f rest → rest.dropWhile isSpace = rest) : Shown e c .whitespace t f
  | fullYear (s) (t f) (h : Digits 4 4 c.year t f) : Shown e c (.fullYear s) t f
  | shortYear (s) (t f) (h : Digits 2 2 (c.year % 100) t f) : Shown e c (.shortYear s) t f
  | century (s) (t f) (h : Digits 2 2 (c.year / 100) t f) : Shown e c (.century s) t f
  | decMonth (s) (t f) (h : Digits 1 2 c.month t f) : Shown e c (.decMonth s) t f
  | monthName (t f) (h : Named (Spec.monthName c.month) t f) : Shown e c .monthName t f
  | dayOfYear (t f) (h : Digits 1 3 c.yday t f) : Shown e c .dayOfYear t f
  | dayOfMonth (s) (t f) (h : Digits 1 2 c.mday t f) : Shown e c (.dayOfMonth s) t f
  | weekdayName (t f) (h : Named (Spec.weekdayName c.wday) t f) : Shown e c .weekdayName t f
  | dec0Weekday (s) (t f) (h : Digits 1 1 c.wday t f) : Shown e c (.dec0Weekday s) t f
  | hour24 (s) (t f) (h : Digits 1 2 c.hour t f) : Shown e c (.hour24 s) t f
  | hour12 (s) (t f) (h : Digits 1 2 (Spec.hour12 c.hour) t f) : Shown e c (.hour12 s) t f
  | minute (s) (t f) (h : Digits 1 2 c.minute t f) : Shown e c (.minute s) t f
  | second (s) (t f) (h : Digits 1 2 c.second t f) : Shown e c (.second s) t f
  | am (t f) (h : EqUpToCase [97,109] t ∨ EqUpToCase [97,46,109,46] t) (hh : c.hour < 12) : Shown e c .amPm t f
  | pm (t f) (h : EqUpToCase [112,109] t ∨ EqUpToCase [112,46,109,46] t) (hh : 12 ≤ c.hour) : Shown e c .amPm t f
  | tzOffset (s) (sg hh mm : List Nat) (colon : Bool) (f f') (h0 : OffsetSign c.west sg)
      (h1 : Digits (if s = .standard then 2 else 1) 2 c.offHours hh f')
      (h2 : Digits 2 2 c.offMinutes mm f) (h3 : s ≠ .standard → colon = true)
      (hf : ∀ rest, f rest → f' ((if colon then [58] else []) ++ (mm ++ rest))) :
      Shown e c (.tzOffset s) (sg ++ (hh ++ ((if colon then [58] else []) ++ mm))) f
  | tzHours (s) (sg hh : List Nat) (f) (h0 : OffsetSign c.west sg) (h1 : Digits (if s = .standard then 2 else 1) 2 c.offHours hh f)
      (h2 : c.offMinutes = 0)
      (hf : ∀ rest, f rest → (s = .standard → NoDigitFirst 10 rest) ∧ ∀ q, rest = 58 :: q → NoDigitFirst 10 q) :
      Shown e c (.tzOffset s) (sg ++ hh) f

/-- The texts of several conversions one after the other. -/
inductive ShownSeq (e : Enc) (c : Civil) : List ChronoCall → List Nat → List Nat → Prop where
  | nil (rest) : ShownSeq e c [] [] rest
  | cons (x cs t u f rest) (h : Shown e c x t f) (hf : f (u ++ rest)) (hs : ShownSeq e c cs u rest) : ShownSeq e c (x :: cs) (t ++ u) rest

/-- What a composite conversion stands for, as documented: `%c` is `%a %b %d %H:%M:%S %Y`, `%x` is `%m/%d/%Y`, `%X` and
    `%T` are `%H:%M:%S`, `%D` is `%m/%d/%y`, `%F` is `%Y-%m-%d`, `%r` is `%I:%M:%S %p`, `%R` is `%H:%M`. -/
def expansion : ChronoCall → List ChronoCall
  | .locDatetime _ =>
    [.weekdayName, .whitespace, .monthName, .whitespace, .dayOfMonth .standard, .whitespace, .hour24 .standard, .text [58],
     .minute .standard, .text [58], .second .standard, .whitespace, .fullYear .standard]
  | .locDate _ => [.decMonth .standard, .text [47], .dayOfMonth .standard, .text [47], .fullYear .standard]
  | .locTime _ | .isoTime => [.hour24 .standard, .text [58], .minute .standard, .text [58], .second .standard]
  | .usDate => [.decMonth .standard, .text [47], .dayOfMonth .standard, .text [47], .shortYear .standard]
  | .isoDate => [.fullYear .standard, .text [45], .decMonth .standard, .text [45], .dayOfMonth .standard]
  | .loc12HourTime => [.hour12 .standard, .text [58], .minute .standard, .text [58], .second .standard, .whitespace, .amPm]
  | .time24Hour => [.hour24 .standard, .text [58], .minute .standard]
  | x => [x]

/-- The field a conversion sets. -/
def fieldOf : ChronoCall → Option ChronoField
  | .fullYear _ => some .fullYear | .shortYear _ => some .shortYear | .century _ => some .century
  | .monthName => some .mon | .decMonth _ => some .mon | .dayOfYear => some .yday | .dayOfMonth _ => some .mday
  | .weekdayName => some .wday | .dec0Weekday _ => some .wday | .dec1Weekday _ => some .wday
  | .hour24 _ => some .hour24 | .hour12 _ => some .hour12 | .minute _ => some .min | .second _ => some .sec
  | .amPm => some .amPm | .tzOffset _ => some .tzoff | .tzName => some .tzname
  | _ => none

/-- The fields that these conversions set. -/
def fieldsOf (cs : List ChronoCall) : List ChronoField := cs.filterMap fieldOf

/-- Fields that may be set together: at most one of the two clocks, am/pm only with the 12-hour clock, the full
    year not with the short year or the century, at most one of the days of the week, the month and the year. -/
structure Compatible (fs : List ChronoField) : Prop where
  clock : ¬ (.hour24 ∈ fs ∧ .hour12 ∈ fs)
  amPm : .amPm ∈ fs → .hour12 ∈ fs
  year : .fullYear ∈ fs → .century ∉ fs ∧ .shortYear ∉ fs
  tz : ¬ (.tzoff ∈ fs ∧ .tzname ∈ fs)
  day : ¬ (.wday ∈ fs ∧ .mday ∈ fs) ∧ ¬ (.wday ∈ fs ∧ .yday ∈ fs) ∧ ¬ (.mday ∈ fs ∧ .yday ∈ fs)

/-- The hour that these fields determine. -/
def hourOf (fs : List ChronoField) (c : Civil) : Nat :=
  if .hour24 ∈ fs ∨ .amPm ∈ fs then c.hour else Spec.hour12 c.hour

/-- The year that these fields determine: short years alone are those of 1969 to 2068. -/
def yearOf (fs : List ChronoField) (c : Civil) : Nat :=
  if .fullYear ∈ fs ∨ (.century ∈ fs ∧ .shortYear ∈ fs) then c.year
  else if .shortYear ∈ fs then (if c.year % 100 < 69 then 2000 else 1900) + c.year % 100
  else c.year / 100 * 100

/-- A `std::tm` in which these fields are set. -/
def setTm (fs : List ChronoField) (c : Civil) (t : Tm) : Tm where
  sec := if .sec ∈ fs then c.second else t.sec
  min := if .min ∈ fs then c.minute else t.min
  hour := if .hour24 ∈ fs ∨ .hour12 ∈ fs then hourOf fs c else t.hour
  mday := if .mday ∈ fs then c.mday else t.mday
  mon := if .mon ∈ fs then (c.month : Int) - 1 else t.mon
  year := if .fullYear ∈ fs ∨ .shortYear ∈ fs ∨ .century ∈ fs then (yearOf fs c : Int) - 1900 else t.year
  wday := if .wday ∈ fs then c.wday else t.wday
  yday := if .yday ∈ fs then (c.yday : Int) - 1 else t.yday
  gmtoff := if .tzoff ∈ fs then c.offset * 60 else t.gmtoff

/-- A `tm_with_tz` in which these fields are set; `tm_gmtoff` where there is one. -/
def setTmTz (gmtoff : Bool) (fs : List ChronoField) (c : Civil) (t : TmWithTz) : TmWithTz where
  tm := { setTm fs c t.tm with gmtoff := if gmtoff = true ∧ .tzoff ∈ fs then c.offset * 60 else t.tm.gmtoff }
  tzOffset := if .tzoff ∈ fs then some c.offset else t.tzOffset
  tzName := t.tzName

/-- A `datetime_components` in which these fields are set. -/
def setDateTime (fs : List ChronoField) (c : Civil) (t : DateTime) : DateTime where
  subsec := t.subsec
  sec := if .sec ∈ fs then some (c.second : Int) else t.sec
  min := if .min ∈ fs then some (c.minute : Int) else t.min
  hour := if .hour24 ∈ fs ∨ .hour12 ∈ fs then some (hourOf fs c : Int) else t.hour
  mday := if .mday ∈ fs then some (c.mday : Int) else t.mday
  mon := if .mon ∈ fs then some (c.month : Int) else t.mon
  year := if .fullYear ∈ fs ∨ .shortYear ∈ fs ∨ .century ∈ fs then some (yearOf fs c : Int) else t.year
  wday := if .wday ∈ fs then some (c.wday : Int) else t.wday
  yday := if .yday ∈ fs then some ((c.yday : Int) - 1) else t.yday
  tzOffset := if .tzoff ∈ fs then some c.offset else t.tzOffset
  tzName := t.tzName

/-- A part of a chrono format: literal text, a whitespace character, or a conversion (its characters after `%`, and
    what they mean). -/
inductive FmtItem where
  | lit (t : List Nat)
  | space (c : Nat)
  | conv (t : List Nat) (c : ChronoCall)

/-- The conversions without modifiers: the character, and what it means (/repo/docs and POSIX). -/
def conversions : List (Nat × ChronoCall) :=
  [(37, .text [37]), (110, .whitespace), (116, .whitespace), (89, .fullYear .standard), (121, .shortYear .standard),
   (67, .century .standard), (98, .monthName), (66, .monthName), (104, .monthName), (109, .decMonth .standard), (106, .dayOfYear),
   (100, .dayOfMonth .standard), (101, .dayOfMonth .standard), (97, .weekdayName), (65, .weekdayName), (119, .dec0Weekday .standard),
   (117, .dec1Weekday .standard), (72, .hour24 .standard), (73, .hour12 .standard), (77, .minute .standard), (83, .second .standard),
   (122, .tzOffset .standard), (90, .tzName), (99, .locDatetime .standard), (120, .locDate .standard), (88, .locTime .standard),
   (68, .usDate), (70, .isoDate), (114, .loc12HourTime), (82, .time24Hour), (84, .isoTime), (112, .amPm)]

/-- The conversions with the modifiers `E` and `O` that are modelled here: the characters, and what they mean. -/
def modified : List (Nat × Nat × ChronoCall) :=
  [(69, 99, .locDatetime .altE), (69, 67, .century .altE), (69, 120, .locDate .altE), (69, 88, .locTime .altE),
   (69, 89, .fullYear .altE), (69, 122, .tzOffset .altE), (79, 100, .dayOfMonth .altO), (79, 101, .dayOfMonth .altO),
   (79, 72, .hour24 .altO), (79, 73, .hour12 .altO), (79, 109, .decMonth .altO), (79, 77, .minute .altO), (79, 83, .second .altO),
   (79, 119, .dec0Weekday .altO), (79, 121, .shortYear .altO), (79, 122, .tzOffset .altO)]

def FmtItem.Ok (e : Enc) : FmtItem → Prop
  | .lit t => t ≠ [] ∧ ∀ x ∈ t, IsScalar x ∧ encode e x = [x] ∧ isSpace x = false ∧ x ≠ 37 ∧ x ≠ 125
  | .space c => c = 32 ∨ 9 ≤ c ∧ c ≤ 13
  | .conv t c => (∃ x, t = [x] ∧ (x, c) ∈ conversions) ∨ ∃ m x, t = [m, x] ∧ (m, x, c) ∈ modified

def FmtItem.text : FmtItem → List Nat
  | .lit t => t
  | .space c => [c]
  | .conv t _ => 37 :: t

def FmtItem.call : FmtItem → ChronoCall
  | .lit t => .text t
  | .space _ => .whitespace
  | .conv _ c => c

def FmtItem.isLit : FmtItem → Bool
  | .lit _ => true
  | _ => false

/-- The text of a format. -/
def formatText (is : List FmtItem) : List Nat := is.flatMap FmtItem.text

/-- A format begins with a conversion and has no two literal texts side by side (they are one). -/
def FormatOk (e : Enc) (is : List FmtItem) : Prop :=
  (∃ t c js, is = .conv t c :: js) ∧ (∀ i ∈ is, i.Ok e) ∧
    ∀ pre a b post, is = pre ++ a :: b :: post → ¬ (a.isLit = true ∧ b.isLit = true)

/-- The simple conversions of a format. -/
def callsOf (is : List FmtItem) : List ChronoCall := is.flatMap fun i => expansion i.call

/-- The hour of the day that `h` o'clock am or pm is. -/
def clock24 (h : Nat) (pm : Bool) : Nat := if pm then (if h = 12 then 12 else h + 12) else if h = 12 then 0 else h

/-- Two and four decimal digits. -/
def pad2 (n : Nat) : List Nat := [48 + n / 10, 48 + n % 10]

def pad4 (n : Nat) : List Nat := pad2 (n / 100) ++ pad2 (n % 100)

/-- From `t0`, the fields `fs` were set, each to something in its range; nothing else was changed. -/
structure TmWithin (t0 : Tm) (fs : List ChronoField) (t : Tm) : Prop where
  sec : (.sec ∈ fs → 0 ≤ t.sec ∧ t.sec ≤ 60) ∧ (.sec ∉ fs → t.sec = t0.sec)
  min : (.min ∈ fs → 0 ≤ t.min ∧ t.min ≤ 59) ∧ (.min ∉ fs → t.min = t0.min)
  hour : (.hour24 ∈ fs ∨ .hour12 ∈ fs → 0 ≤ t.hour ∧ t.hour ≤ 23) ∧ (.hour24 ∉ fs → .hour12 ∉ fs → t.hour = t0.hour)
  mday : (.mday ∈ fs → 1 ≤ t.mday ∧ t.mday ≤ 31) ∧ (.mday ∉ fs → t.mday = t0.mday)
  mon : (.mon ∈ fs → 0 ≤ t.mon ∧ t.mon ≤ 11) ∧ (.mon ∉ fs → t.mon = t0.mon)
  wday : (.wday ∈ fs → 0 ≤ t.wday ∧ t.wday ≤ 6) ∧ (.wday ∉ fs → t.wday = t0.wday)
  yday : (.yday ∈ fs → 0 ≤ t.yday ∧ t.yday ≤ 365) ∧ (.yday ∉ fs → t.yday = t0.yday)
  year : .fullYear ∉ fs → .shortYear ∉ fs → .century ∉ fs → t.year = t0.year

/-- The same for `datetime_components`: what was set is present. -/
structure DateTimeWithin (t0 : DateTime) (fs : List ChronoField) (t : DateTime) : Prop where
  sec : (.sec ∈ fs → ∃ v, t.sec = some v ∧ 0 ≤ v ∧ v ≤ 60) ∧ (.sec ∉ fs → t.sec = t0.sec)
  min : (.min ∈ fs → ∃ v, t.min = some v ∧ 0 ≤ v ∧ v ≤ 59) ∧ (.min ∉ fs → t.min = t0.min)
  hour : (.hour24 ∈ fs ∨ .hour12 ∈ fs → ∃ v, t.hour = some v ∧ 0 ≤ v ∧ v ≤ 23) ∧ (.hour24 ∉ fs → .hour12 ∉ fs → t.hour = t0.hour)
  mday : (.mday ∈ fs → ∃ v, t.mday = some v ∧ 1 ≤ v ∧ v ≤ 31) ∧ (.mday ∉ fs → t.mday = t0.mday)
  mon : (.mon ∈ fs → ∃ v, t.mon = some v ∧ 1 ≤ v ∧ v ≤ 12) ∧ (.mon ∉ fs → t.mon = t0.mon)
  wday : (.wday ∈ fs → ∃ v, t.wday = some v ∧ 0 ≤ v ∧ v ≤ 6) ∧ (.wday ∉ fs → t.wday = t0.wday)
  yday : (.yday ∈ fs → ∃ v, t.yday = some v ∧ 0 ≤ v ∧ v ≤ 365) ∧ (.yday ∉ fs → t.yday = t0.yday)
  year : (.fullYear ∈ fs ∨ .shortYear ∈ fs ∨ .century ∈ fs → ∃ v, t.year = some v) ∧ (.fullYear ∉ fs → .shortYear ∉ fs → .century ∉ fs → t.year = t0.year)
  tz : (.tzoff ∈ fs → ∃ v, t.tzOffset = some v) ∧ (.tzoff ∉ fs → t.tzOffset = t0.tzOffset)
  tzname : (.tzname ∈ fs → ∃ v, t.tzName = some v) ∧ (.tzname ∉ fs → t.tzName = t0.tzName)

end Scn.Spec
