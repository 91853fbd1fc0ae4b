import Verif.Model.CustomScan
import Verif.Model.Readers
import Verif.Model.Chrono
/-
Dates and times as arguments of a scan call, next to arguments of built-in types: /repo/src/scn/impl.cpp:3557-3592,
/repo/include/scn/chrono.h:1477-1551.
-/
namespace Scn

variable {L T V W : Type}

/-- `chrono_scan_impl`, /repo/src/scn/impl.cpp:3577-3592, in a context whose iterators are views (no parent): the segment from `ctx.begin()` on is
    scanned as a contiguous source, and `ctx.begin()` is advanced by what was scanned. What is undefined there is shown as a segment from
    beyond the end. The layout of the source of `cfg` is that of a contiguous source. -/
def chronoProg (cfg : Option L → ChronoCfg) (set : TmSetter T) (inj : T → V) (fmt : List Nat) (t : T) : ScanProg L V :=
  .locale fun l => .segment 0 fun s =>
    match chronoScan (cfg l) set fmt t s with
    | .ub => .segment (s.length + 1) fun _ => .fail .endOfInput
    | .err e => .fail e
    | .ok r => .done (inj r.1) (s.length - r.2.length)

/-- The types of dates and times whose scanners read in place, with a value, /repo/include/scn/chrono.h:1536-1548. -/
inductive DateVal where
  | tm (t : Tm)
  | tmWithTz (t : TmWithTz)
  | components (d : DateTime)

/-- `chrono_datetime_scanner`, /repo/include/scn/chrono.h:1515-1532, for an object that has a value: `parse` keeps the format (1477-1511),
    `scan` reads it. A `parse` that is undefined (C56) is given as one that throws. -/
def chronoScanner (e : Enc) (cfg : Option L → ChronoCfg) (gmtoff : Bool) (k : TmKind) (set : TmSetter T) (inj : T → V) (t : T) : CustomScanner L V where
  parse pos :=
    match chronoParse e gmtoff k pos with
    | .ok r => some (r.2, chronoProg cfg set inj r.1 t)
    | _ => none

/-- The scanners of the three types, /repo/include/scn/chrono.h:1536-1548. -/
def dateScanner (e : Enc) (cfg : Option L → ChronoCfg) (gmtoff : Bool) : DateVal → CustomScanner L DateVal
  | .tm t => chronoScanner e cfg gmtoff .tm (tmSetter gmtoff) .tm t
  | .tmWithTz t => chronoScanner e cfg gmtoff .tmWithTz (tmTzSetter gmtoff) .tmWithTz t
  | .components t => chronoScanner e cfg gmtoff .components dtSetter .components t

/-- The same scanner, its value taken for one of a union. Not in the code, where every argument has its type,
    /repo/include/scn/scan.h:5586-5643. -/
def ScanProg.map (f : V → W) : ScanProg L V → ScanProg L W
  | .done a off => .done (f a) off
  | .fail e => .fail e
  | .get off k => .get off fun c => (k c).map f
  | .inc off k => .inc off (k.map f)
  | .segment off k => .segment off fun s => (k s).map f
  | .locale k => .locale fun l => (k l).map f

/-- The same, of a `CustomScanner`; /repo/include/scn/scan.h:5619-5643. -/
def CustomScanner.map (f : V → W) (c : CustomScanner L V) : CustomScanner L W where
  parse pos := (c.parse pos).map fun r => (r.1, r.2.map f)

/-- The same, of the arguments of a call; /repo/include/scn/scan.h:5586-5643. -/
def Env.map (f : V → W) (env : Env V) : Env W where
  enc := env.enc
  cfg := env.cfg
  skip := env.skip
  count := env.count
  ty := env.ty
  readDefault id s := (env.readDefault id s).map fun r => (f r.1, r.2)
  readSpecs id sp s := (env.readSpecs id sp s).map fun r => (f r.1, r.2)
  readCustom id pos s := ((env.readCustom id pos s).1, (env.readCustom id pos s).2.map fun r => (f r.1, r.2))

/-- A scan call over the contiguous source `src` into built-in types and dates and times, /repo/src/scn/impl.cpp:1742-1788, 1549-1563 with
    `default_arg_reader`, `arg_reader` and `custom_reader`. The destination `bool` of a date is not used. -/
def datedEnv (e wide : Enc) (rx : RegexCfg) (loc : LocaleData) (old : Nat) (gmtoff : Bool) (cfg : Option L → ChronoCfg) (args : List (Dest ⊕ DateVal))
    (src : List Nat) (l : Option L) : Env (Val ⊕ DateVal) :=
  ((stdEnv e wide rx loc old (args.map (Sum.elim id fun _ => .bool))).map Sum.inl).withCustom false src l fun id =>
    match args[id]? with
    | some (.inr t) => some ((dateScanner e cfg gmtoff t).map Sum.inr)
    | _ => none

end Scn
