import Verif.Model.Discard
/-
Ranges and tuples as arguments of a scan call, next to arguments of built-in types: /repo/include/scn/ranges.h:305-518,
/repo/src/scn/impl.cpp:230-252.
-/
namespace Scn

variable {L : Type}

/-- The types of ranges and tuples, /repo/include/scn/ranges.h:305-379, 381-418, 448-495: the element type is built in, or itself a range or a
    tuple; a range has brackets and a `max_size()`. A map is a range of pairs with the brackets `Brackets.mapEntry`. -/
inductive Coll where
  | item (d : Dest)
  | range (b : Brackets) (maxSize : Nat) (el : Coll)
  | tuple (b : Brackets) (ms : List Coll)

/-- Their values: the elements in the order in which they were added (/repo/include/scn/ranges.h:184-203), or the members. -/
inductive CollVal where
  | val (v : Val)
  | list (vs : List CollVal)

/-- The type whose scanner gets the specification, if any: `range_scanner::parse` passes it on to the elements, /repo/include/scn/ranges.h:400-405;
    `parse` of a tuple returns at once, 320-324. -/
def Coll.leaf : Coll → Option Dest
  | .item d => some d
  | .range _ _ el => el.leaf
  | .tuple _ _ => none

/-- `parse`, /repo/include/scn/ranges.h:320-324, 400-405: the specification of the elements and the position after it. -/
def collParse (rx : RegexCfg) (e : Enc) (c : Coll) (pos : List Nat) : Option (Specs × List Nat) :=
  match c.leaf with
  | some d => builtinParse rx e d.argTy pos
  | none => some ({}, pos)

/-- How `scan_str` sees a context whose iterators are views, /repo/include/scn/ranges.h:149-163 with
    /repo/src/scn/impl.cpp:245-252: as one segment. -/
def viewSource (s : List Nat) : Layout := .segmented s.length

mutual
/-- `scan` of the scanners, /repo/include/scn/ranges.h:326-379, 407-414, 448-478, in a context whose iterators are views, into a range that holds
    `init`. Elements begin empty (264), and the members of tuples are read by scanners that have parsed nothing (366). The locale of the context is not
    passed on, /repo/src/scn/impl.cpp:237: `gloc` is the global one. -/
def Coll.scan (e wide : Enc) (gloc : LocaleData) : Coll → Specs → List CollVal → List Nat → Res (CollVal × List Nat)
  | .item d, sp, _, s => (builtinScan e wide gloc 0 (viewLayout sp s) d sp s).map fun r => (.val r.1, r.2)
  | .range b n el, sp, init, s =>
    (scanRange e viewSource b (fun s => el.scan e wide gloc sp [] s) (fun l v => l ++ [v]) n init s).map fun r => (.list r.1, r.2)
  | .tuple b ms, _, _, s => (scanTuple e viewSource b (Coll.scans e wide gloc ms) s).map fun r => (.list r.1, r.2)
/-- The scanners of the members of a tuple, /repo/include/scn/ranges.h:366-367. -/
def Coll.scans (e wide : Enc) (gloc : LocaleData) : List Coll → List (List Nat → Res (CollVal × List Nat))
  | [] => []
  | m :: ms => (fun s => m.scan e wide gloc {} [] s) :: Coll.scans e wide gloc ms
end

/-- `scan` as a program on the context, /repo/include/scn/ranges.h:326-336, 407-414. What is undefined is shown as a segment from beyond the end. -/
def collProg (e wide : Enc) (gloc : LocaleData) (c : Coll) (sp : Specs) (init : List CollVal) : ScanProg L CollVal :=
  .segment 0 fun s =>
    match c.scan e wide gloc sp init s with
    | .ub => .segment (s.length + 1) fun _ => .fail .endOfInput
    | .err x => .fail x
    | .ok r => .done r.1 (s.length - r.2.length)

/-- `scanner` of a range or a tuple, /repo/include/scn/ranges.h:305-336, 381-418, 497-518. A `parse` that is undefined is given as one that throws. -/
def collScanner (rx : RegexCfg) (e wide : Enc) (gloc : LocaleData) (c : Coll) (init : List CollVal) : CustomScanner L CollVal where
  parse pos := (collParse rx e c pos).map fun r => (r.2, collProg e wide gloc c r.1 init)

/-- A scan call over the contiguous source `src` into built-in types, ranges and tuples, /repo/src/scn/impl.cpp:1742-1788, 1549-1563. `loc` is the locale
    of the call, `gloc` the global one. The destination `bool` of a range is not used. -/
def listedEnv (e wide : Enc) (rx : RegexCfg) (loc gloc : LocaleData) (old : Nat) (args : List (Dest ⊕ (Coll × List CollVal))) (src : List Nat) :
    Env (Val ⊕ CollVal) :=
  ((stdEnv e wide rx loc old (args.map (Sum.elim id fun _ => .bool))).map Sum.inl).withCustom false src (none : Option Unit) fun id =>
    match args[id]? with
    | some (.inr c) => some ((collScanner rx e wide gloc c.1 c.2).map Sum.inr)
    | _ => none

end Scn
