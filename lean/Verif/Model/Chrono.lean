import Verif.Model.Ranges
/-
Model of date and time scanning: the chrono format parser, the format checker, the setters and the reader,
/repo/include/scn/chrono.h:253-1535 and /repo/src/scn/impl.cpp:2040-3600.

Not modelled: the value of the `double` that subsecond digits are converted to (`ChronoCfg.subsec` says whether that succeeds),
the `std::time_get` facets of locales (`ChronoCfg.facet`), and `time_since_unix_epoch` (`std::mktime`).
-/
namespace Scn

/-- `numeric_system`, /repo/include/scn/chrono.h:339-343. -/
inductive NumSys where
  | standard | altE | altO
  deriving DecidableEq, Repr

/-- The member functions of a handler that `parse_chrono_format_specs` calls,
    /repo/include/scn/chrono.h:372-715 (their list: 1005-1170). -/
inductive ChronoCall where
  | text (t : List Nat) | whitespace | localized | error
  | fullYear (s : NumSys) | shortYear (s : NumSys) | century (s : NumSys)
  | isoWeekBasedYear | isoWeekBasedShortYear | locOffsetYear
  | monthName | decMonth (s : NumSys)
  | dec0WeekOfYear (s : NumSys) | dec1WeekOfYear | isoWeekOfYear
  | dayOfYear | dayOfMonth (s : NumSys)
  | weekdayName | dec0Weekday (s : NumSys) | dec1Weekday (s : NumSys)
  | hour24 (s : NumSys) | hour12 (s : NumSys) | minute (s : NumSys) | second (s : NumSys) | subsecond (s : NumSys)
  | tzOffset (s : NumSys) | tzName
  | locDatetime (s : NumSys) | locDate (s : NumSys) | locTime (s : NumSys)
  | usDate | isoDate | loc12HourTime | time24Hour | isoTime | amPm
  | epochOffset | durationTickCount | durationSuffix
  | verify
  deriving DecidableEq, Repr

/-- A handler of chrono format specifications: its reaction to a call (`none`: undefined behaviour) and `get_error`,
    /repo/include/scn/chrono.h:1465-1478 and /repo/src/scn/impl.cpp:3351-3367. -/
structure ChronoHandler (σ : Type) where
  call : σ → ChronoCall → Option σ
  ok : σ → Bool

/-- The `switch` on the character after `%`, /repo/include/scn/chrono.h:453-605, without `.`, `E` and `O`. -/
def chronoSpecifier : Nat → Option ChronoCall
  | 37 => some (.text [37])
  | 110 | 116 => some .whitespace
  | 89 => some (.fullYear .standard) | 121 => some (.shortYear .standard) | 67 => some (.century .standard)
  | 71 => some .isoWeekBasedYear | 103 => some .isoWeekBasedShortYear
  | 98 | 66 | 104 => some .monthName | 109 => some (.decMonth .standard)
  | 85 => some (.dec0WeekOfYear .standard) | 87 => some .dec1WeekOfYear | 86 => some .isoWeekOfYear
  | 106 => some .dayOfYear
  | 100 | 101 => some (.dayOfMonth .standard)
  | 97 | 65 => some .weekdayName | 119 => some (.dec0Weekday .standard) | 117 => some (.dec1Weekday .standard)
  | 72 | 107 => some (.hour24 .standard) | 73 | 108 => some (.hour12 .standard)
  | 77 => some (.minute .standard) | 83 => some (.second .standard)
  | 122 => some (.tzOffset .standard) | 90 => some .tzName
  | 99 => some (.locDatetime .standard) | 120 => some (.locDate .standard) | 88 => some (.locTime .standard)
  | 68 => some .usDate | 70 => some .isoDate | 114 => some .loc12HourTime
  | 82 => some .time24Hour | 84 => some .isoTime | 112 | 80 => some .amPm
  | 115 => some .epochOffset | 81 => some .durationTickCount | 113 => some .durationSuffix
  | _ => none

/-- The `switch` on the character after `%E`, /repo/include/scn/chrono.h:612-642. -/
def chronoSpecifierE : Nat → Option ChronoCall
  | 99 => some (.locDatetime .altE) | 67 => some (.century .altE) | 120 => some (.locDate .altE)
  | 88 => some (.locTime .altE) | 121 => some .locOffsetYear | 89 => some (.fullYear .altE)
  | 122 => some (.tzOffset .altE)
  | _ => none

/-- The `switch` on the character after `%O`, /repo/include/scn/chrono.h:651-697. -/
def chronoSpecifierO : Nat → Option ChronoCall
  | 100 | 101 => some (.dayOfMonth .altO)
  | 72 | 107 => some (.hour24 .altO) | 73 | 108 => some (.hour12 .altO)
  | 109 => some (.decMonth .altO) | 77 => some (.minute .altO) | 83 => some (.second .altO)
  | 85 => some (.dec0WeekOfYear .altO) | 119 => some (.dec0Weekday .altO) | 87 => some (.dec1Weekday .altO)
  | 121 => some (.shortYear .altO) | 122 => some (.tzOffset .altO)
  | _ => none

/-- One conversion specifier, from after the `%`: the call and the position after it, or `none` for `on_error` with
    the position of the return, /repo/include/scn/chrono.h:444-703. -/
def chronoConversion : List Nat → Option ChronoCall × List Nat
  | [] => (none, [])
  | 46 :: [] => (none, [])
  | 46 :: c :: r =>
    if c = 69 ∨ c = 79 then
      match r with
      | [] => (none, [])
      | 83 :: r => (some (.subsecond .altE), r)
      | r => (none, r)
    else if c = 83 then (some (.subsecond .standard), r)
    else (none, c :: r)
  | 69 :: [] => (none, [])
  | 69 :: c :: r => (chronoSpecifierE c, r)
  | 79 :: [] => (none, [])
  | 79 :: c :: r => (chronoSpecifierO c, r)
  | c :: r => (chronoSpecifier c, r)

/-- The end of `parse_chrono_format_specs`, /repo/include/scn/chrono.h:710-714. -/
def chronoFinish {σ : Type} (h : ChronoHandler σ) (st : σ) (acc p : List Nat) : Option (σ × List Nat) :=
  (if acc = [] then some st else h.call st (.text acc)).bind fun st =>
  (h.call st .verify).map fun st => (st, p)

/-- The loop of `parse_chrono_format_specs`, /repo/include/scn/chrono.h:398-709. `acc` is the text from `begin` to
    `p`. A literal character of several code units is consumed with the code unit after it (422-429, then 438); at the end
    of the format string this moves `p` beyond `end`: undefined. -/
def chronoLoop {σ : Type} (e : Enc) (h : ChronoHandler σ) : Nat → σ → List Nat → List Nat → Option (σ × List Nat)
  | 0, _, _, _ => none
  | _ + 1, st, acc, [] => chronoFinish h st acc []
  | n + 1, st, acc, ch :: q =>
    if ch = 125 then chronoFinish h st acc (ch :: q)
    else if ch ≠ 37 then
      if ch = 32 ∨ 9 ≤ ch ∧ ch ≤ 13 then
        (h.call st (.text acc)).bind fun st => (h.call st .whitespace).bind fun st => chronoLoop e h n st [] q
      else if cpLength e ch = 0 then (h.call st .error).map fun st => (st, ch :: q)
      else if cpLength e ch = 1 then chronoLoop e h n st (acc ++ [ch]) q
      else if (ch :: q).length < cpLength e ch then (h.call st .error).map fun st => (st, [])
      else
        (decodeCp e ((ch :: q).take (cpLength e ch))).bind fun cp =>
        if isCpSpace cp then
          (h.call st (.text acc)).bind fun st => (h.call st .whitespace).bind fun st =>
          chronoLoop e h n st [] ((ch :: q).drop (cpLength e ch))
        else
          match (ch :: q).drop (cpLength e ch) with
          | [] => none
          | d :: r => chronoLoop e h n st (acc ++ (ch :: q).take (cpLength e ch) ++ [d]) r
    else
      (if acc = [] then some st else h.call st (.text acc)).bind fun st =>
      match chronoConversion q with
      | (none, r) => (h.call st .error).map fun st => (st, r)
      | (some c, r) =>
        (h.call st c).bind fun st => if h.ok st then chronoLoop e h n st [] r else some (st, r)

/-- `parse_chrono_format_specs`, /repo/include/scn/chrono.h:372-715. -/
def parseChrono {σ : Type} (e : Enc) (h : ChronoHandler σ) (st : σ) (fmt : List Nat) : Option (σ × List Nat) :=
  match fmt with
  | [] => (h.call st .error).map fun st => (st, [])
  | c :: r =>
    if c = 125 then (h.call st .error).map fun st => (st, c :: r)
    else if c = 76 then
      (h.call st .localized).bind fun st =>
      match r with
      | [] => (h.call st .error).map fun st => (st, [])
      | d :: r' =>
        if d ≠ 37 then (h.call st .error).map fun st => (st, d :: r')
        else chronoLoop e h (fmt.length + 1) st [] (d :: r')
    else if c ≠ 37 then (h.call st .error).map fun st => (st, c :: r)
    else chronoLoop e h (fmt.length + 1) st [] (c :: r)

/-! ### The state of the setters -/

/-- The fields that `setter_state` keeps track of, /repo/include/scn/chrono.h:719-734. -/
inductive ChronoField where
  | subsec | sec | min | hour24 | hour12 | mday | mon | fullYear | century | shortYear | wday | yday | tzoff | tzname | amPm
  deriving DecidableEq, Repr

/-- `setter_state`, /repo/include/scn/chrono.h:717-763: the fields whose bit is set, `localized`, `is_pm`,
    `short_year_value` and `century_value`. -/
structure SetterState where
  set : List ChronoField := []
  localized : Bool := false
  isPm : Bool := false
  shortYear : Nat := 0
  century : Nat := 0
  deriving DecidableEq, Repr

/-- A `_set` bit, /repo/include/scn/chrono.h:719-736. -/
def SetterState.has (st : SetterState) (f : ChronoField) : Bool := st.set.contains f

/-- `set_##field`, /repo/include/scn/chrono.h:765-795: marks the field, and says whether it was set before. -/
def SetterState.mark (st : SetterState) (f : ChronoField) : SetterState × Bool :=
  ({ st with set := f :: st.set }, st.has f)

/-- `setter_state::verify`, /repo/include/scn/chrono.h:797-836: `false` is `set_error(invalid_format_string)`. -/
def SetterState.verify (st : SetterState) : Bool :=
  if st.has .hour24 && st.has .hour12 then false
  else if st.has .amPm && !st.has .hour12 then false
  else if st.has .amPm && st.has .hour24 then false
  else if st.has .fullYear && (st.has .century || st.has .shortYear) then false
  else if st.has .tzoff && st.has .tzname then false
  else if (st.has .wday || st.has .mday || st.has .yday) && !((st.has .wday ^^ st.has .mday) ^^ st.has .yday) then false
  else true

/-- `setter_state::handle_am_pm`, /repo/include/scn/chrono.h:838-862. A failed `assert` is undefined behaviour. -/
def SetterState.handleAmPm (st : SetterState) (hour : Int) : Option Int :=
  if st.has .hour12 = false ∨ hour > 12 then none
  else if st.isPm then some (if hour = 12 then hour else hour + 12)
  else some (if hour = 12 then 0 else hour)

/-- `setter_state::handle_short_year_and_century`, /repo/include/scn/chrono.h:864-882. -/
def SetterState.handleYear (st : SetterState) (year offset : Int) : Option Int :=
  if st.has .fullYear then none
  else if st.has .shortYear && st.has .century then some (st.century * 100 + st.shortYear - offset)
  else if st.has .shortYear then
    some (if st.shortYear ≥ 69 then 1900 + st.shortYear - offset else 2000 + st.shortYear - offset)
  else if st.has .century then some (100 * st.century - offset)
  else some year

/-! ### The format checker -/

/-- The types with a chrono scanner of their own, /repo/include/scn/chrono.h:1539-1549. -/
inductive TmKind where
  | tm | tmWithTz | components
  deriving DecidableEq, Repr

/-- What `always_supports_field` says about the three types, /repo/include/scn/chrono.h:902-925; `gmtoff`: whether `std::tm`
    has `tm_gmtoff`. The fields are those of `field_tags`, here by one of their `setter_state` fields. -/
def TmKind.supports (gmtoff : Bool) : TmKind → ChronoField → Bool
  | .tm, .subsec => false
  | .tm, .tzoff => gmtoff
  | .tm, .tzname => false
  | .tmWithTz, .subsec => false
  | _, _ => true

/-- `tm_format_checker`, /repo/include/scn/chrono.h:1172-1487: whether an error was reported, and the setter state. -/
structure Checker where
  failed : Bool := false
  st : SetterState := {}
  deriving DecidableEq, Repr

/-- `tm_format_checker::on_error`, /repo/include/scn/chrono.h:1469-1478. -/
def Checker.onError (c : Checker) : Checker := { c with failed := true }

/-- The pattern of the checks of fields, e.g. /repo/include/scn/chrono.h:1187-1193: an error if the type does not support the
    field, then `set_…` on the setter state. -/
def Checker.field (gmtoff : Bool) (k : TmKind) (f : ChronoField) (c : Checker) : Checker :=
  { failed := c.failed || !k.supports gmtoff f || (c.st.mark f).2, st := (c.st.mark f).1 }

/-- The fields that `tm_format_checker` sets for a call, in order, /repo/include/scn/chrono.h:1187-1402. `on_month_name` only
    checks that months are supported (all three types support them). -/
def ChronoCall.checkedFields : ChronoCall → List ChronoField
  | .fullYear _ => [.fullYear] | .shortYear _ => [.shortYear] | .century _ => [.century]
  | .decMonth _ => [.mon] | .dayOfYear => [.yday] | .dayOfMonth _ => [.mday]
  | .weekdayName => [.wday] | .dec0Weekday _ => [.wday] | .dec1Weekday _ => [.wday]
  | .hour24 _ => [.hour24] | .hour12 _ => [.hour12] | .minute _ => [.min] | .second _ => [.sec] | .subsecond _ => [.subsec]
  | .tzOffset _ => [.tzoff] | .tzName => [.tzname]
  | .locDatetime _ => [.fullYear, .mon, .mday, .hour24, .min, .sec]
  | .locDate _ => [.fullYear, .mon, .mday] | .locTime _ => [.hour24, .min, .sec]
  | .usDate => [.mon, .mday, .shortYear] | .isoDate => [.fullYear, .mon, .mday]
  | .loc12HourTime => [.hour24, .min, .sec] | .time24Hour => [.hour24, .min] | .isoTime => [.hour24, .min, .sec]
  | .amPm => [.amPm]
  | _ => []

/-- The calls that are not implemented, /repo/include/scn/chrono.h:1208-1228, 1244-1256, 1404-1415 and
    /repo/src/scn/impl.cpp:2787-2798, 2861-2872, 3327-3338. -/
def ChronoCall.unimplemented : ChronoCall → Bool
  | .isoWeekBasedYear | .isoWeekBasedShortYear | .locOffsetYear | .dec0WeekOfYear _ | .dec1WeekOfYear | .isoWeekOfYear
  | .epochOffset | .durationTickCount | .durationSuffix => true
  | _ => false

/-- The reactions of `tm_format_checker`, /repo/include/scn/chrono.h:1174-1463; no type here requires a field
    (`always_requires_field`, 976-977). -/
def Checker.call (gmtoff : Bool) (k : TmKind) (c : Checker) (x : ChronoCall) : Option Checker :=
  match x with
  | .error => some c.onError
  | .verify => some (if c.st.verify then c else c.onError)
  | x => if x.unimplemented then some c.onError else some (x.checkedFields.foldl (fun c f => c.field gmtoff k f) c)

/-- `tm_format_checker` as a handler, /repo/include/scn/chrono.h:1172-1487. -/
def checkHandler (gmtoff : Bool) (k : TmKind) : ChronoHandler Checker := ⟨fun c x => c.call gmtoff k x, fun c => !c.failed⟩

/-- `chrono_parse_impl`, /repo/include/scn/chrono.h:1489-1512: the format string kept by the scanner and the position after it,
    or an error. -/
def chronoParse (e : Enc) (gmtoff : Bool) (k : TmKind) (pos : List Nat) : Res (List Nat × List Nat) :=
  match pos with
  | [] => .err .invalidFormatString
  | c :: r =>
    if c = 125 then .err .invalidFormatString
    else
      match parseChrono e (checkHandler gmtoff k) {} (c :: r) with
      | none => .ub
      | some (chk, p) =>
        if chk.failed then .err .invalidFormatString
        else .ok ((c :: r).take ((c :: r).length - p.length), p)

/-! ### The reader -/

/-- The fields of `std::tm` that are set, including `tm_gmtoff` where there is one, /repo/src/scn/impl.cpp:2146-2298. -/
structure Tm where
  sec : Int := 0
  min : Int := 0
  hour : Int := 0
  mday : Int := 0
  mon : Int := 0
  year : Int := 0
  wday : Int := 0
  yday : Int := 0
  gmtoff : Int := 0
  deriving DecidableEq, Repr

/-- `tm_with_tz`, /repo/include/scn/chrono.h:333-336. -/
structure TmWithTz where
  tm : Tm := {}
  tzOffset : Option Int := none
  tzName : Option (List Nat) := none
  deriving DecidableEq, Repr

/-- `datetime_components`, /repo/include/scn/chrono.h:273-301. The months and weekdays are their numbers; `subsec` is the
    text of the digits whose value it is. -/
structure DateTime where
  subsec : Option (List Nat) := none
  sec : Option Int := none
  min : Option Int := none
  hour : Option Int := none
  mday : Option Int := none
  mon : Option Int := none
  year : Option Int := none
  wday : Option Int := none
  yday : Option Int := none
  tzOffset : Option Int := none
  tzName : Option (List Nat) := none
  deriving DecidableEq, Repr

/-- `tm_reader`, /repo/src/scn/impl.cpp:2698-2711, 3549-3554: `m_range` (from its begin), `m_begin`, `m_tm`, `m_st`, `m_error`. -/
structure Rd (T : Type) where
  range : List Nat
  pos : List Nat
  tm : T
  st : SetterState := {}
  err : Option Err := none

/-- `tm_reader::set_error`, /repo/src/scn/impl.cpp:3361-3366: the first error is kept. -/
def Rd.setError {T : Type} (r : Rd T) (e : Err) : Rd T :=
  match r.err with
  | none => { r with err := some e }
  | some _ => r

/-- `setter_state::set_…` with the reader as handler, /repo/include/scn/chrono.h:765-774. -/
def Rd.mark {T : Type} (r : Rd T) (f : ChronoField) : Rd T :=
  if (r.st.mark f).2 then { r with st := (r.st.mark f).1 }.setError .invalidFormatString
  else { r with st := (r.st.mark f).1 }

/-- The pattern of the setters with a range check, e.g. /repo/src/scn/impl.cpp:2155-2164. -/
def Rd.setField {T : Type} (r : Rd T) (f : ChronoField) (lo hi v : Int) (upd : T → T) : Rd T :=
  if v < lo ∨ v > hi then r.setError .invalidScannedValue else { r with tm := upd r.tm }.mark f

/-- `datetime_setter<T>`, /repo/src/scn/impl.cpp:2040-2041. -/
structure TmSetter (T : Type) where
  subsec : Rd T → List Nat → Rd T
  sec : Rd T → Int → Rd T
  min : Rd T → Int → Rd T
  hour24 : Rd T → Int → Rd T
  hour12 : Rd T → Int → Rd T
  mday : Rd T → Int → Rd T
  mon : Rd T → Int → Rd T
  fullYear : Rd T → Int → Rd T
  century : Rd T → Int → Rd T
  shortYear : Rd T → Int → Rd T
  wday : Rd T → Int → Rd T
  yday : Rd T → Int → Rd T
  tzOffset : Rd T → Int → Rd T
  tzName : Rd T → List Nat → Rd T
  handleAmPm : Rd T → Option (Rd T)
  handleYear : Rd T → Option (Rd T)

/-- `datetime_setter<std::tm>`, /repo/src/scn/impl.cpp:2146-2298, for any type that derives from `std::tm`: `upd` changes the
    `std::tm` part. A platform without `tm_gmtoff` reports an error (2273-2276). -/
def tmSetterOn {T : Type} (gmtoff : Bool) (get : T → Tm) (upd : (Tm → Tm) → T → T) : TmSetter T where
  subsec r _ := r.setError .invalidFormatString
  sec r v := r.setField .sec 0 60 v (upd fun t => { t with sec := v })
  min r v := r.setField .min 0 59 v (upd fun t => { t with min := v })
  hour24 r v := r.setField .hour24 0 23 v (upd fun t => { t with hour := v })
  hour12 r v := r.setField .hour12 1 12 v (upd fun t => { t with hour := v })
  mday r v := r.setField .mday 1 31 v (upd fun t => { t with mday := v })
  mon r v := r.setField .mon 1 12 v (upd fun t => { t with mon := v - 1 })
  fullYear r v :=
    if v < -2 ^ 31 + 1900 then r.setError .invalidScannedValue
    else { r with tm := upd (fun t => { t with year := v - 1900 }) r.tm }.mark .fullYear
  century r v := { r with st := { r.st with century := (v % 256).toNat } }.mark .century
  shortYear r v :=
    if v < 0 ∨ v > 99 then r.setError .invalidScannedValue
    else { r with st := { r.st with shortYear := (v % 256).toNat } }.mark .shortYear
  wday r v := r.setField .wday 0 6 v (upd fun t => { t with wday := v })
  yday r v := r.setField .yday 0 365 v (upd fun t => { t with yday := v })
  tzOffset r v :=
    if gmtoff then { r with tm := upd (fun t => { t with gmtoff := v * 60 }) r.tm } else r.setError .invalidFormatString
  tzName r _ := r.setError .invalidFormatString
  handleAmPm r := (r.st.handleAmPm (get r.tm).hour).map fun h => { r with tm := upd (fun t => { t with hour := h }) r.tm }
  handleYear r := (r.st.handleYear (get r.tm).year 1900).map fun y => { r with tm := upd (fun t => { t with year := y }) r.tm }

/-- `datetime_setter<std::tm>`, /repo/src/scn/impl.cpp:2146-2298. -/
def tmSetter (gmtoff : Bool) : TmSetter Tm := tmSetterOn gmtoff id (fun f => f)

/-- `datetime_setter<tm_with_tz>`, /repo/src/scn/impl.cpp:2488-2515. -/
def tmTzSetter (gmtoff : Bool) : TmSetter TmWithTz :=
  let base := tmSetterOn gmtoff (fun t : TmWithTz => t.tm) (fun f t => { t with tm := f t.tm })
  { base with
    tzOffset := fun r v =>
      let r := { r with tm := { r.tm with tzOffset := some v } }
      if gmtoff then base.tzOffset r v else r.mark .tzoff
    tzName := fun r n => { r with tm := { r.tm with tzName := some n } }.mark .tzname }

/-- `datetime_setter<datetime_components>`, /repo/src/scn/impl.cpp:2300-2486. The century and the short year are added to
    the year at once; `short_year_value` and `century_value` are not set. -/
def dtSetter : TmSetter DateTime where
  subsec r v := { r with tm := { r.tm with subsec := some v } }.mark .subsec
  sec r v := r.setField .sec 0 60 v fun t => { t with sec := some v }
  min r v := r.setField .min 0 59 v fun t => { t with min := some v }
  hour24 r v := r.setField .hour24 0 23 v fun t => { t with hour := some v }
  hour12 r v := r.setField .hour12 1 12 v fun t => { t with hour := some v }
  mday r v := r.setField .mday 1 31 v fun t => { t with mday := some v }
  mon r v := r.setField .mon 1 12 v fun t => { t with mon := some v }
  fullYear r v := { r with tm := { r.tm with year := some v } }.mark .fullYear
  century r v := { r with tm := { r.tm with year := some (r.tm.year.getD 0 + v * 100) } }.mark .century
  shortYear r v := { r with tm := { r.tm with year := some (r.tm.year.getD 0 + v) } }.mark .shortYear
  wday r v := r.setField .wday 0 6 v fun t => { t with wday := some v }
  yday r v := r.setField .yday 0 6 v fun t => { t with yday := some v }
  tzOffset r v := { r with tm := { r.tm with tzOffset := some v } }.mark .tzoff
  tzName r n := { r with tm := { r.tm with tzName := some n } }.mark .tzname
  handleAmPm r :=
    match r.tm.hour with
    | none => none
    | some h => (r.st.handleAmPm h).map fun h => { r with tm := { r.tm with hour := some h } }
  handleYear r :=
    match r.tm.year with
    | none => none
    | some y => (r.st.handleYear y 0).map fun y => { r with tm := { r.tm with year := some y } }

/-- What the reader is given: the character type, the whitespace skipping of the context's range, the locale's
    `time_get` facet (a format, the range; `none`: `failbit`) and decimal point, the conversion of subsecond digits
    (`.ub`: the result is not below 1, against the `assert`), and the scan of a string of a character set.
    /repo/src/scn/impl.cpp:3452-3540, 3023-3078, 3143-3161, 2308. -/
structure ChronoCfg where
  enc : Enc
  lay : List Nat → Layout
  facet : List Nat → List Nat → Option (Tm × List Nat)
  decimalPoint : Nat
  subsec : List Nat → Res Unit
  scanSet : List Nat → List Nat → Res (List Nat × List Nat)

/-- The conversion of the digits of a fraction of a second, /repo/src/scn/impl.cpp:3065-3072, 2308, as a `ChronoCfg.subsec`: "0." and the digits are
    scanned as a `double`, which is the nearest one. Above `1 - 2^-54` (and there, the tie goes to the even one) the nearest one is 1, against the
    `assert`. -/
def subsecNearest (ds : List Nat) : Res Unit :=
  if (10 ^ ds.length - ds.foldl (fun a c => a * 10 + (c - 48)) 0) * 2 ^ 54 ≤ 10 ^ ds.length then .ub else .ok ()

/-- The loop of `read_classic_unsigned_integer`, /repo/src/scn/impl.cpp:3381-3394: at most so many digits; how many were read,
    their value and the position after them. -/
def readTmDigits : Nat → Nat → Nat → List Nat → Nat × Nat × List Nat
  | 0, n, acc, s => (n, acc, s)
  | _ + 1, n, acc, [] => (n, acc, [])
  | k + 1, n, acc, c :: s => if c < 48 ∨ c > 57 then (n, acc, c :: s) else readTmDigits k (n + 1) (acc * 10 + (c - 48)) s

variable {T : Type}

/-- `read_classic_unsigned_integer`, /repo/src/scn/impl.cpp:3379-3401. -/
def Rd.readUInt (minDigits maxDigits : Nat) (r : Rd T) : Int × Rd T :=
  let d := readTmDigits maxDigits 0 0 r.pos
  if d.1 < minDigits then (-1, { r with pos := d.2.2 }.setError .invalidScannedValue)
  else (d.2.1, { r with pos := d.2.2 })

/-- A numeric field: the digits, then the setter, e.g. /repo/src/scn/impl.cpp:2754-2755. -/
def Rd.number (minDigits maxDigits : Nat) (set : Rd T → Int → Rd T) (r : Rd T) : Rd T :=
  set (r.readUInt minDigits maxDigits).2 (r.readUInt minDigits maxDigits).1

/-- `on_text`, /repo/src/scn/impl.cpp:2713-2725. -/
def Rd.onText : List Nat → Rd T → Rd T
  | [], r => r
  | c :: t, r =>
    match r.pos with
    | [] => r.setError .endOfInput
    | d :: q => if c ≠ d then r.setError .invalidFormatString else Rd.onText t { r with pos := q }

/-- `on_whitespace`, /repo/src/scn/impl.cpp:2726-2736. -/
def Rd.onWhitespace (cfg : ChronoCfg) (r : Rd T) : Option (Rd T) :=
  match skipSpace cfg.enc (cfg.lay r.pos) true r.pos with
  | .ok p => some { r with pos := p }
  | .err e => some (r.setError e)
  | .ub => none

/-- `do_read_localized`, /repo/src/scn/impl.cpp:3498-3525: from the begin of the range. -/
def Rd.readLocalized (cfg : ChronoCfg) (fmt : List Nat) (r : Rd T) : Option Tm × Rd T :=
  match cfg.facet fmt r.range with
  | none => (none, r.setError .invalidScannedValue)
  | some (t, p) => (some t, { r with pos := p })

/-- A field that is read by the locale, e.g. /repo/src/scn/impl.cpp:2746-2751. -/
def Rd.localizedField (cfg : ChronoCfg) (fmt : List Nat) (set : Rd T → Tm → Rd T) (r : Rd T) : Rd T :=
  match r.readLocalized cfg fmt with
  | (none, r) => r
  | (some t, r) => set r t

/-- The loops of `try_one_of_str_nocase`, /repo/src/scn/impl.cpp:3415-3450. The options that are no longer available are
    rotated to the end of the array and not looked at again; here they are removed. Indexing an option at or behind
    its end is undefined. `none` is undefined, `some none` no match. -/
def tryOneOf {α : Type} : List (List Nat × α) → Nat → List Nat → Option (Option (α × List Nat))
  | [], _, _ => some none
  | o :: os, k, s =>
    if o.1.length ≤ k then some (if os = [] then some (o.2, s) else none)
    else
      match s with
      | [] => some none
      | ch :: t =>
        if (o :: os).any (fun x => decide (x.1.length ≤ k)) then none
        else tryOneOf ((o :: os).filter fun x => ch ^^^ x.1.getD k 0 == 0 || ch ^^^ x.1.getD k 0 == 32) (k + 1) t

/-- The long month names of `on_month_name`, /repo/src/scn/impl.cpp:2811-2824. -/
def monthNames : List (List Nat × Int) :=
  [([74,97,110,117,97,114,121], 1), ([70,101,98,114,117,97,114,121], 2), ([77,97,114,99,104], 3), ([65,112,114,105,108], 4),
   ([77,97,121], 5), ([74,117,110,101], 6), ([74,117,108,121], 7), ([65,117,103,117,115,116], 8),
   ([83,101,112,116,101,109,98,101,114], 9), ([79,99,116,111,98,101,114], 10), ([78,111,118,101,109,98,101,114], 11),
   ([68,101,99,101,109,98,101,114], 12)]

/-- The short month names of `on_month_name`, /repo/src/scn/impl.cpp:2828-2840. -/
def monthNamesShort : List (List Nat × Int) :=
  [([74,97,110], 1), ([70,101,98], 2), ([77,97,114], 3), ([65,112,114], 4), ([74,117,110], 6), ([74,117,108], 7),
   ([65,117,103], 8), ([83,101,112], 9), ([79,99,116], 10), ([78,111,118], 11), ([68,101,99], 12)]

/-- The long weekday names of `on_weekday_name`, /repo/src/scn/impl.cpp:2904-2912. -/
def weekdayNames : List (List Nat × Int) :=
  [([83,117,110,100,97,121], 0), ([77,111,110,100,97,121], 1), ([84,117,101,115,100,97,121], 2),
   ([87,101,100,110,101,115,100,97,121], 3), ([84,104,117,114,115,100,97,121], 4), ([70,114,105,100,97,121], 5),
   ([83,97,116,117,114,100,97,121], 6)]

/-- The short weekday names of `on_weekday_name`, /repo/src/scn/impl.cpp:2916-2924. -/
def weekdayNamesShort : List (List Nat × Int) :=
  [([83,117,110], 0), ([77,111,110], 1), ([84,117,101], 2), ([87,101,100], 3), ([84,104,117], 4), ([70,114,105], 5),
   ([83,97,116], 6)]

/-- The spellings of `on_am_pm`, /repo/src/scn/impl.cpp:3313-3318. -/
def amPmNames : List (List Nat × Bool) :=
  [([97,109], false), ([97,46,109,46], false), ([112,109], true), ([112,46,109,46], true)]

/-- A field given by name: the long names, then the short names, /repo/src/scn/impl.cpp:2825-2844, 2913-2929. -/
def Rd.name {α : Type} (long short : List (List Nat × α)) (set : Rd T → α → Rd T) (r : Rd T) : Option (Rd T) :=
  (tryOneOf long 0 r.pos).bind fun
    | some (v, p) => some (set { r with pos := p } v)
    | none => (tryOneOf short 0 r.pos).map fun
      | some (v, p) => set { r with pos := p } v
      | none => r.setError .invalidScannedValue

/-- `adjust_wday` in `on_dec1_weekday`, /repo/src/scn/impl.cpp:2947-2952. -/
def adjustWday (d : Int) : Int := if d = 0 then 6 else d - 1

/-- Whether a field is read by the locale, e.g. /repo/src/scn/impl.cpp:2746. -/
def Rd.useLocale (r : Rd T) (s : NumSys) : Bool := r.st.localized && decide (s ≠ .standard)

/-- A numeric field that may be read by the locale, e.g. /repo/src/scn/impl.cpp:2743-2756. -/
def Rd.numberOr (cfg : ChronoCfg) (s : NumSys) (fmt : List Nat) (fromTm : Tm → Int) (conv : Int → Int) (minDigits maxDigits : Nat)
    (set : Rd T → Int → Rd T) (r : Rd T) : Rd T :=
  if r.useLocale s then r.localizedField cfg fmt fun r t => set r (conv (fromTm t))
  else r.number minDigits maxDigits fun r v => set r (conv v)

/-- `on_am_pm`, /repo/src/scn/impl.cpp:3311-3325. -/
def Rd.onAmPm (r : Rd T) : Option (Rd T) :=
  (tryOneOf amPmNames 0 r.pos).map fun
    | some (b, p) => { r with pos := p, st := { r.st with isPm := b } }.mark .amPm
    | none => r.setError .invalidScannedValue

/-- A digit comes next, /repo/src/scn/impl.cpp:3112-3113. -/
def digitNext : List Nat → Bool
  | [] => false
  | c :: _ => decide (48 ≤ c ∧ c ≤ 57)

/-- The minutes in `on_tz_offset` (`needColon`: with `E` or `O` only after a colon), /repo/src/scn/impl.cpp:3107-3119,
    3124-3136. -/
def Rd.tzMinutes (needColon : Bool) (r : Rd T) : Int × Rd T :=
  match r.pos with
  | [] => (0, r)
  | c :: q =>
    if c = 58 then (if digitNext q then { r with pos := q }.readUInt 2 2 else (0, r))
    else if needColon then (0, r)
    else if digitNext (c :: q) then r.readUInt 2 2 else (0, r)

/-- `on_tz_offset` after the sign, /repo/src/scn/impl.cpp:3098-3141. -/
def Rd.tzHours (set : Rd T → Int → Rd T) (sys : NumSys) (minus : Bool) (r : Rd T) : Rd T :=
  if r.pos = [] then r.setError .endOfInput
  else
    let h := r.readUInt (if sys = .standard then 2 else 1) 2
    let m := h.2.tzMinutes (decide (sys ≠ .standard))
    set m.2 ((if minus then -1 else 1) * (h.1 * 60 + m.1))

/-- `on_tz_offset`, /repo/src/scn/impl.cpp:3081-3142. -/
def Rd.onTzOffset (set : Rd T → Int → Rd T) (sys : NumSys) (r : Rd T) : Rd T :=
  match r.pos with
  | [] => r.setError .endOfInput
  | c :: q =>
    if c = 43 then { r with pos := q }.tzHours set sys false
    else if c = 45 then { r with pos := q }.tzHours set sys true
    else r.tzHours set sys false

/-- `on_tz_name`, /repo/src/scn/impl.cpp:3143-3161: after an error, the missing result is accessed. -/
def Rd.onTzName (cfg : ChronoCfg) (set : Rd T → List Nat → Rd T) (r : Rd T) : Option (Rd T) :=
  match cfg.scanSet [91, 97, 45, 122, 65, 45, 90, 48, 45, 57, 45, 43, 95, 47, 93] r.pos with
  | .ok (n, p) => some { set r n with pos := p }
  | _ => none

/-- `consume_ch`, /repo/src/scn/impl.cpp:3403-3413, takes a `char`: what a code unit is after the conversion to `char` (signed) and back. -/
def throughChar (e : Enc) (c : Nat) : Nat :=
  match e with
  | .utf8 => c
  | .utf16 => if c % 256 < 128 then c % 256 else 2 ^ 16 - 256 + c % 256
  | .utf32 => if c % 256 < 128 then c % 256 else 2 ^ 32 - 256 + c % 256

/-- `on_subsecond`, /repo/src/scn/impl.cpp:3023-3079. -/
def Rd.onSubsecond (cfg : ChronoCfg) (set : TmSetter T) (sys : NumSys) (r : Rd T) : Option (Rd T) :=
  let r := r.number 1 2 set.sec
  let point := if r.useLocale sys then throughChar cfg.enc cfg.decimalPoint else 46
  match r.pos with
  | [] => some (r.setError .invalidScannedValue)
  | c :: q =>
    if c ≠ point then some (r.setError .invalidScannedValue)
    else
      match cfg.scanSet [91, 48, 45, 57, 93] q with
      | .ub => none
      | .err e => some ({ r with pos := q }.setError e)
      | .ok (ds, p) =>
        if p = q then some ({ r with pos := q }.setError .invalidScannedValue)
        else
        match cfg.subsec ds with
        | .ub => none
        | .err e => some ({ r with pos := p }.setError e)
        | .ok _ => some (set.subsec { r with pos := p } ds)

/-- `verify`, /repo/src/scn/impl.cpp:3340-3349. -/
def Rd.verify (set : TmSetter T) (r : Rd T) : Option (Rd T) :=
  let r := if r.st.verify then r else r.setError .invalidFormatString
  (if r.st.has .amPm && r.st.has .hour12 then set.handleAmPm r else some r).bind fun r =>
  if !r.st.has .fullYear && (r.st.has .shortYear || r.st.has .century) then set.handleYear r else some r

/-- The calls that a composite specifier stands for in the "C" locale: `%c`, `%x`, `%X`, `%D`, `%F`, `%r`, `%R`, `%T`,
    /repo/src/scn/impl.cpp:3185-3199, 3221-3228, 3247-3310. -/
def ChronoCall.expand : ChronoCall → List ChronoCall
  | .locDatetime _ =>
    [.weekdayName, .whitespace, .monthName, .whitespace, .dayOfMonth .standard, .whitespace, .hour24 .standard, .text [58],
     .minute .standard, .text [58], .second .standard, .whitespace, .fullYear .standard]
  | .locDate _ => [.decMonth .standard, .text [47], .dayOfMonth .standard, .text [47], .fullYear .standard]
  | .locTime _ => [.hour24 .standard, .text [58], .minute .standard, .text [58], .second .standard]
  | .usDate => [.decMonth .standard, .text [47], .dayOfMonth .standard, .text [47], .shortYear .standard]
  | .isoDate => [.fullYear .standard, .text [45], .decMonth .standard, .text [45], .dayOfMonth .standard]
  | .loc12HourTime =>
    [.hour12 .standard, .text [58], .minute .standard, .text [58], .second .standard, .whitespace, .amPm]
  | .time24Hour => [.hour24 .standard, .text [58], .minute .standard]
  | .isoTime => [.hour24 .standard, .text [58], .minute .standard, .text [58], .second .standard]
  | _ => []

/-- What a composite specifier sets when it is read by the locale, /repo/src/scn/impl.cpp:3174-3181, 3211-3215, 3240-3244,
    3275-3279. -/
def ChronoCall.fromLocale (set : TmSetter T) (x : ChronoCall) (r : Rd T) (t : Tm) : Rd T :=
  let date := fun r => set.mday (set.mon (set.fullYear r (t.year + 1900)) (t.mon + 1)) t.mday
  let time := fun r => set.sec (set.min (set.hour24 r t.hour) t.min) t.sec
  match x with
  | .locDatetime _ => time (date r)
  | .locDate _ => date r
  | .locTime _ | .loc12HourTime => time r
  | _ => r

/-- The conversion that a composite specifier passes to the locale, /repo/src/scn/impl.cpp:3167-3171, 3205-3209, 3234-3238,
    3275; `%D`, `%F`, `%R` and `%T` are not localized. -/
def ChronoCall.localeFormat : ChronoCall → Option (List Nat)
  | .locDatetime s => some (if s = .standard then [37, 99] else [37, 69, 99])
  | .locDate s => some (if s = .standard then [37, 120] else [37, 69, 120])
  | .locTime s => some (if s = .standard then [37, 88] else [37, 69, 88])
  | .loc12HourTime => some [37, 114]
  | _ => none

/-- The reaction of `tm_reader` to calls that are not composite, /repo/src/scn/impl.cpp:2713-3161, 3311-3349. -/
def Rd.simple (cfg : ChronoCfg) (set : TmSetter T) (r : Rd T) : ChronoCall → Option (Rd T)
  | .text t => some (r.onText t)
  | .whitespace => r.onWhitespace cfg
  | .localized => some { r with st := { r.st with localized := true } }
  | .error => some (r.setError .invalidFormatString)
  | .fullYear s => some (r.numberOr cfg s [37, 69, 89] (fun t => t.year + 1900) id 4 4 set.fullYear)
  | .shortYear s => some (r.numberOr cfg s [37, 69, 121] (fun t => (t.year + 1900).tmod 100) id 2 2 set.shortYear)
  | .century s => some (r.numberOr cfg s [37, 69, 67] (fun t => (t.year + 1900).tdiv 100) id 2 2 set.century)
  | .monthName =>
    if r.st.localized then some (r.localizedField cfg [37, 98] fun r t => set.mon r (t.mon + 1))
    else r.name monthNames monthNamesShort set.mon
  | .decMonth s => some (r.numberOr cfg s [37, 79, 109] (fun t => t.mon + 1) id 1 2 set.mon)
  | .dayOfYear => some (r.number 1 3 fun r v => set.yday r (v - 1))
  | .dayOfMonth s => some (r.numberOr cfg s [37, 79, 100] (fun t => t.mday) id 1 2 set.mday)
  | .weekdayName =>
    if r.st.localized then some (r.localizedField cfg [37, 97] fun r t => set.wday r t.wday)
    else r.name weekdayNames weekdayNamesShort set.wday
  | .dec0Weekday s => some (r.numberOr cfg s [37, 79, 119] (fun t => t.wday) id 1 1 set.wday)
  | .dec1Weekday s => some (r.numberOr cfg s [37, 79, 119] (fun t => t.wday) adjustWday 1 1 set.wday)
  | .hour24 s => some (r.numberOr cfg s [37, 79, 72] (fun t => t.hour) id 1 2 set.hour24)
  | .hour12 s => some (r.numberOr cfg s [37, 79, 73] (fun t => t.hour) id 1 2 set.hour12)
  | .minute s => some (r.numberOr cfg s [37, 79, 77] (fun t => t.min) id 1 2 set.min)
  | .second s => some (r.numberOr cfg s [37, 79, 83] (fun t => t.sec) id 1 2 set.sec)
  | .subsecond s => r.onSubsecond cfg set s
  | .tzOffset s => some (r.onTzOffset set.tzOffset s)
  | .tzName => r.onTzName cfg set.tzName
  | .amPm => r.onAmPm
  | .verify => r.verify set
  | _ => some (r.setError .invalidFormatString)

/-- A sequence of calls that are not composite, as in the bodies at /repo/src/scn/impl.cpp:3186-3199. -/
def Rd.simples (cfg : ChronoCfg) (set : TmSetter T) : List ChronoCall → Rd T → Option (Rd T)
  | [], r => some r
  | c :: cs, r => (r.simple cfg set c).bind fun r => Rd.simples cfg set cs r

/-- The reaction of `tm_reader` to calls, /repo/src/scn/impl.cpp:2713-3349. -/
def Rd.call (cfg : ChronoCfg) (set : TmSetter T) (r : Rd T) (x : ChronoCall) : Option (Rd T) :=
  match x.expand with
  | [] => r.simple cfg set x
  | cs =>
    match r.st.localized, x.localeFormat with
    | true, some fmt => some (r.localizedField cfg fmt fun r t => x.fromLocale set r t)
    | _, _ => r.simples cfg set cs

/-- `tm_reader` as a handler, /repo/src/scn/impl.cpp:2698-3555. -/
def readHandler (cfg : ChronoCfg) (set : TmSetter T) : ChronoHandler (Rd T) := ⟨fun r x => r.call cfg set x, fun r => r.err.isNone⟩

/-- `chrono_scan_inner_impl`, /repo/src/scn/impl.cpp:3557-3576. -/
def chronoScan (cfg : ChronoCfg) (set : TmSetter T) (fmt : List Nat) (t : T) (s : List Nat) : Res (T × List Nat) :=
  (skipSpace cfg.enc (cfg.lay s) false s).bind fun p =>
  match parseChrono cfg.enc (readHandler cfg set) ⟨p, p, t, {}, none⟩ fmt with
  | none => .ub
  | some (r, _) =>
    match r.err with
    | some e => .err e
    | none => .ok (r.tm, r.pos)

/-- A chrono scanner as a custom argument: `scan_custom_arg` with `parse` and `scan`,
    /repo/include/scn/scan.h:5552-5584, 5617-5640, /repo/include/scn/chrono.h:1518-1535: the position in the format string
    after the specification, and the outcome. -/
def chronoCustom (cfg : ChronoCfg) (gmtoff : Bool) (k : TmKind) (set : TmSetter T) (t : T) (pos src : List Nat) :
    List Nat × Res (T × List Nat) :=
  match chronoParse cfg.enc gmtoff k pos with
  | .ub => (pos, .ub)
  | .err e => (pos, .err e)
  | .ok (fmt, p) => (p, chronoScan cfg set fmt t src)

/-- The scan of a string with a character set, as in `on_tz_name` and `on_subsecond`, /repo/src/scn/impl.cpp:3047-3055,
    3145-3153: `scan<std::string>(source, "{:[…]}")`. -/
def scanSetStd (e wide : Enc) (rx : RegexCfg) (loc : LocaleData) (lay : List Nat → Layout) (set s : List Nat) :
    Res (List Nat × List Nat) :=
  match parseSpecs rx e .narrowString ⟨{}, false⟩ (set ++ [125]) with
  | none => .ub
  | some (st, _) =>
    (builtinScan e wide loc 0 lay (.string .utf8) st.specs s).bind fun
      | (.string t, p) => .ok (t, p)
      | _ => .ub

end Scn
