import Verif.Model.DateArgs
import Verif.Model.Ranges
/-
`scn::discard<T>` for built-in types, and the scanners of built-in types that it uses: /repo/include/scn/scan.h:9008-9174,
/repo/src/scn/impl.cpp:230-243.
-/
namespace Scn

variable {L : Type}

/-- `scanner_parse_for_builtin_type`, /repo/include/scn/scan.h:9034-9132, at run time: the specification and the position after it. The
    errors of the parser and of the checks are kept in `checker`, which nothing looks at. Nothing is parsed at the end of the format string
    (9042-9044), as for fields without a specification. -/
def builtinParse (rx : RegexCfg) (e : Enc) (ty : ArgTy) (pos : List Nat) : Option (Specs × List Nat) :=
  if pos = [] then some ({}, []) else (parseSpecs rx e ty ⟨{}, false⟩ pos).map fun r => (r.1.specs, r.2)

/-- How `arg_reader` sees a view that is given to it as a range of `forward_iterator`s: as a string if there is no width and no precision
    and something is left, /repo/src/scn/impl.h:6236-6247, 980-1005; else as one segment. -/
def viewLayout (sp : Specs) (s : List Nat) : List Nat → Layout :=
  if s = [] ∨ sp.precision ≠ 0 ∨ sp.width ≠ 0 then fun r => .segmented r.length else fun _ => .contiguous

/-- `scanner_scan_for_builtin_type` on a context whose iterators are views, /repo/src/scn/impl.cpp:232-243. The locale of the context is not
    passed on: `{}` is an empty `locale_ref`, which stands for the global locale (312-318), here `gloc`. What is undefined is shown as a
    segment from beyond the end. -/
def builtinProg (e wide : Enc) (gloc : LocaleData) (d : Dest) (sp : Specs) : ScanProg L Val :=
  .segment 0 fun s =>
    match builtinScan e wide gloc 0 (viewLayout sp s) d sp s with
    | .ub => .segment (s.length + 1) fun _ => .fail .endOfInput
    | .err x => .fail x
    | .ok r => .done r.1 (s.length - r.2.length)

/-- `scanner<T>` of a built-in type, /repo/include/scn/scan.h:9013-9033. A `parse` that is undefined is given as one that throws. -/
def builtinScanner (rx : RegexCfg) (e wide : Enc) (gloc : LocaleData) (d : Dest) : CustomScanner L Val where
  parse pos := (builtinParse rx e d.argTy pos).map fun r => (r.2, builtinProg e wide gloc d r.1)

/-- `scanner<discard<T>>`, /repo/include/scn/scan.h:9166-9174: the value is dropped (`none`). -/
def discardScanner (rx : RegexCfg) (e wide : Enc) (gloc : LocaleData) (d : Dest) : CustomScanner L (Option Val) :=
  (builtinScanner rx e wide gloc d).map fun _ => none

/-- A scan call over the contiguous source `src` into these destinations, of which some are discarded (`true`),
    /repo/src/scn/impl.cpp:1742-1788, 1549-1563. `loc` is the locale of the call, `gloc` the global one. -/
def discardEnv (e wide : Enc) (rx : RegexCfg) (loc gloc : LocaleData) (old : Nat) (args : List (Dest × Bool)) (src : List Nat) : Env (Option Val) :=
  ((stdEnv e wide rx loc old (args.map Prod.fst)).map some).withCustom false src (none : Option Unit) fun id =>
    match args[id]? with
    | some (d, true) => some (discardScanner rx e wide gloc d)
    | _ => none

end Scn
