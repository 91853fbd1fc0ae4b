import Verif.Model.RegexMatch
/-
Scan calls whose destinations may be `regex_matches`, /repo/src/scn/impl.h:4699-4783.
-/
namespace Scn

/-- A destination of a built-in type, or a `basic_regex_matches` of characters of encoding `dst` with the backend that fills it,
    /repo/src/scn/impl.h:4699-4783, 5840-5888. -/
inductive AnyDest where
  | std (d : Dest)
  | captures (dst : Enc) (impl : List Nat → Nat → List Nat → Res (List (Option RegexMatch) × List Nat))

/-- The argument type, /repo/include/scn/scan.h:5590-5640. -/
def AnyDest.argTy : AnyDest → ArgTy
  | .std d => d.argTy
  | .captures dst _ => if dst = .utf8 then .narrowRegex else .wideRegex

/-- A value for a destination, see `AnyDest`; /repo/src/scn/impl.h:4699-4783. -/
inductive AnyVal where
  | std (v : Val)
  | captures (ms : List (Option RegexMatch))

/-- `regex_matches_reader::read_default`, /repo/src/scn/impl.h:4711-4719. -/
def capturesDefault : Reader AnyVal := ⟨true, fun _ _ => .err .invalidFormatString⟩

/-- As `stdEnv`, with `regex_matches` among the destinations: /repo/src/scn/impl.cpp:1742-1788 with `default_arg_reader` and
    `arg_reader`. -/
def anyEnv (e wide : Enc) (cfg : RegexCfg) (loc : LocaleData) (old : Nat) (ds : List AnyDest) : Env AnyVal where
  enc := e
  cfg := cfg
  skip := readWhileSpace e .contiguous
  count := ds.length
  ty id := ((ds[id]?).map AnyDest.argTy).getD .none
  readDefault id s :=
    match ds[id]? with
    | none => .ub
    | some (.std d) => (defaultRead e (d.defaultReader e wide) (fun _ => .contiguous) s).map fun r => (.std r.1, r.2)
    | some (.captures _ _) => defaultRead e capturesDefault (fun _ => .contiguous) s
  readSpecs id sp s :=
    match ds[id]? with
    | none => .ub
    | some (.std d) => (d.readSpecs e wide loc old sp (fun _ => .contiguous) s).map fun r => (.std r.1, r.2)
    | some (.captures dst impl) => (matchesSpecs e dst impl sp (fun _ => .contiguous) s).map fun r => (.captures r.1, r.2)
  readCustom _ pos _ := (pos, .ub)

end Scn
