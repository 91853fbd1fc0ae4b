import Verif.Model.Readers
/-
Model of the scanners for ranges and tuples, /repo/include/scn/ranges.h:149-499.

A scanner of elements is a function on the remaining source. `lay` tells how the source is presented from
each position on.
-/
namespace Scn

/-- The loop of `scan_str`, /repo/include/scn/ranges.h:155-161: the iterator is dereferenced without a check
    for the end (`ub`). -/
def matchUnits : List Nat → List Nat → Res (List Nat)
  | [], it => .ok it
  | _ :: _, [] => .ub
  | ch :: str, c :: it => if ch ≠ c then .err .invalidScannedValue else matchUnits str it

/-- `scan_str`, /repo/include/scn/ranges.h:149-163, with `internal_skip_classic_whitespace`
    (/repo/src/scn/impl.cpp:245-252). -/
def scanStr (e : Enc) (lay : List Nat → Layout) (s str : List Nat) : Res (List Nat) :=
  (skipSpace e (lay s) false s).bind fun it => matchUnits str it

/-- `range_scanner_base`: separator and brackets, /repo/include/scn/ranges.h:226-246. -/
structure Brackets where
  opening : List Nat
  closing : List Nat
  separator : List Nat
  deriving DecidableEq, Repr

/-- Sequences, /repo/include/scn/ranges.h:243-245: `[`, `]` and `,`. -/
def Brackets.sequence : Brackets := ⟨[91], [93], [44]⟩
/-- Sets, /repo/include/scn/ranges.h:484-486: `{`, `}` and `,`. (The same for maps, 487-488.) -/
def Brackets.set : Brackets := ⟨[123], [125], [44]⟩
/-- Tuples and pairs, /repo/include/scn/ranges.h:314-318: `(`, `)` and `,`. -/
def Brackets.tuple : Brackets := ⟨[40], [41], [44]⟩
/-- The pairs of a map, /repo/include/scn/ranges.h:489-490: nothing and `:`. -/
def Brackets.mapEntry : Brackets := ⟨[], [], [58]⟩

variable {V C : Type}

/-- `scan_inner_loop`, /repo/include/scn/ranges.h:281-299: the separator, except before the first element,
    then the element. -/
def innerLoop (e : Enc) (lay : List Nat → Layout) (b : Brackets) (rd : List Nat → Res (V × List Nat)) (first : Bool)
    (s : List Nat) : Res (V × List Nat) :=
  (if first then .ok s else scanStr e lay s b.separator).bind rd

/-- The loop of `range_scanner_base_for_ranges::scan_impl`, /repo/include/scn/ranges.h:259-276, for the
    `left` values of `i` below `range_max_size` that are left; `add` is `add_element_to_range`
    (184-203). Yields the range and the position. -/
def rangeLoop (e : Enc) (lay : List Nat → Layout) (b : Brackets) (rd : List Nat → Res (V × List Nat)) (add : C → V → C) :
    Nat → Bool → C → List Nat → Res (C × List Nat)
  | 0, _, range, s => .ok (range, s)
  | left + 1, first, range, s =>
    match scanStr e lay s b.closing with
    | .ok _ => .ok (range, s)
    | .ub => .ub
    | .err _ => (innerLoop e lay b rd first s).bind fun r => rangeLoop e lay b rd add left false (add range r.1) r.2

/-- `range_scanner_base_for_ranges::scan_impl`, /repo/include/scn/ranges.h:249-279, on a range whose
    `max_size()` is `maxSize`. -/
def scanRange (e : Enc) (lay : List Nat → Layout) (b : Brackets) (rd : List Nat → Res (V × List Nat)) (add : C → V → C)
    (maxSize : Nat) (range : C) (s : List Nat) : Res (C × List Nat) :=
  (scanStr e lay s b.opening).bind fun s1 => (rangeLoop e lay b rd add maxSize true range s1).bind fun r =>
    (scanStr e lay r.2 b.closing).map fun s2 => (r.1, s2)

/-- The loop of `scan_for_each`, /repo/include/scn/ranges.h:341-376, over the scanners of the members; `first`
    is `index == 0`. -/
def tupleLoop (e : Enc) (lay : List Nat → Layout) (b : Brackets) :
    List (List Nat → Res (V × List Nat)) → Bool → List Nat → Res (List V × List Nat)
  | [], _, s => .ok ([], s)
  | rd :: rds, first, s =>
    (innerLoop e lay b rd first s).bind fun r =>
      (tupleLoop e lay b rds false r.2).map fun q => (r.1 :: q.1, q.2)

/-- The scanner of tuples, /repo/include/scn/ranges.h:327-336: the members and the position. -/
def scanTuple (e : Enc) (lay : List Nat → Layout) (b : Brackets) (rds : List (List Nat → Res (V × List Nat))) (s : List Nat) :
    Res (List V × List Nat) :=
  (scanStr e lay s b.opening).bind fun s1 => (tupleLoop e lay b rds true s1).bind fun r =>
    (scanStr e lay r.2 b.closing).map fun s2 => (r.1, s2)

/-- `scanner<T>::scan` of a built-in type with the specs given, `scanner_scan_for_builtin_type`,
    /repo/src/scn/impl.cpp:232-243. -/
def builtinScan (e wide : Enc) (loc : LocaleData) (old : Nat) (lay : List Nat → Layout) (d : Dest) (sp : Specs)
    (s : List Nat) : Res (Val × List Nat) := d.readSpecs e wide loc old sp lay s

end Scn
