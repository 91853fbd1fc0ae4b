import Verif.Model.Unicode
import Verif.Model.Bits
/-
Model of the whitespace finders, /repo/src/scn/impl.cpp:108-224 and
/repo/src/scn/impl.h:428-488, and of the basic reading algorithms,
/repo/src/scn/impl.h:1935-2240 and 3061-3077.
-/
namespace Scn

/-- `is_ascii_space_lookup`, /repo/src/scn/impl.h:428-454. -/
def isAsciiSpaceTable : List Bool :=
  [false, false, false, false, false, false, false, false, false, true, true, true, true, true, false, false,
   false, false, false, false, false, false, false, false, false, false, false, false, false, false, false, false,
   true, false, false, false, false, false, false, false, false, false, false, false, false, false, false, false,
   false, false, false, false, false, false, false, false, false, false, false, false, false, false, false, false,
   false, false, false, false, false, false, false, false, false, false, false, false, false, false, false, false,
   false, false, false, false, false, false, false, false, false, false, false, false, false, false, false, false,
   false, false, false, false, false, false, false, false, false, false, false, false, false, false, false, false,
   false, false, false, false, false, false, false, false, false, false, false, false, false, false, false, false,
   false, false, false, false, false, false, false, false, false, false, false, false, false, false, false, false,
   false, false, false, false, false, false, false, false, false, false, false, false, false, false, false, false,
   false, false, false, false, false, false, false, false, false, false, false, false, false, false, false, false,
   false, false, false, false, false, false, false, false, false, false, false, false, false, false, false, false,
   false, false, false, false, false, false, false, false, false, false, false, false, false, false, false, false,
   false, false, false, false, false, false, false, false, false, false, false, false, false, false, false, false,
   false, false, false, false, false, false, false, false, false, false, false, false, false, false, false, false,
   false, false, false, false, false, false, false, false, false, false, false, false, false, false, false, false]

/-- `is_ascii_space(char)`, /repo/src/scn/impl.h:456-460. -/
def isAsciiSpace (c : Nat) : Bool := isAsciiSpaceTable.getD c false

/-- `is_ascii_space(wchar_t)`, /repo/src/scn/impl.h:462-465. -/
def isAsciiSpaceWide (c : Nat) : Bool := c == 0x20 || (c ≥ 0x09 && c ≤ 0x0d)

/-- `has_nonascii_char_64`, /repo/src/scn/impl.cpp:115-124: up to eight bytes, zero padded to a
    word on a little-endian machine. -/
def hasNonascii64 (sv : List Nat) : Bool := hasByteGreater (word8 sv) 127 != 0

/-- The `for` loop of `find_classic_impl`, /repo/src/scn/impl.cpp:147-158. Arguments: bound on
    the iterations (`sv.size()` suffices), `i`, `sv.size()`, position. The result says whether a
    match was returned, and the position; `none` is a violated precondition. -/
def findInner (cpCb : Nat → Bool) : Nat → Nat → Nat → List Nat → Option (Bool × List Nat)
  | 0, _, _, _ => none
  | n + 1, i, svSize, it =>
    if i < svSize then
      match getNext .utf8 it with
      | none => none
      | some (r, cp) =>
        if cpCb cp then some (true, it)
        else findInner cpCb n (i + (it.length - r.length) + 1) svSize r
    else some (false, it)

/-- `find_classic_impl`, /repo/src/scn/impl.cpp:126-161: the outer `while` loop, its iterations
    bounded by the first argument. -/
def findClassicAux (cuCb cpCb : Nat → Bool) : Nat → List Nat → Option (List Nat)
  | _, [] => some []
  | 0, _ :: _ => none
  | n + 1, c :: cs =>
    let it := c :: cs
    let sv := it.take 8
    if ¬ hasNonascii64 sv then
      let tmp := sv.dropWhile (fun ch => ! cuCb ch)
      let it' := it.drop (sv.length - tmp.length)
      if tmp ≠ [] then some it' else findClassicAux cuCb cpCb n it'
    else
      match findInner cpCb (sv.length + 1) 0 sv.length it with
      | none => none
      | some (true, it') => some it'
      | some (false, it') => findClassicAux cuCb cpCb n it'

/-- `find_classic_space_narrow_fast`, /repo/src/scn/impl.cpp:204-210. -/
def findSpace (s : List Nat) : Option (List Nat) := findClassicAux isAsciiSpace isCpSpace s.length s

/-- `find_classic_nonspace_narrow_fast`, /repo/src/scn/impl.cpp:212-218. -/
def findNonspace (s : List Nat) : Option (List Nat) :=
  findClassicAux (fun ch => ! isAsciiSpace ch) (fun cp => ! isCpSpace cp) s.length s

/-- `read_code_point_into`, /repo/src/scn/impl.h:1993-2017: the rest and the units of the code
    point (empty when the start is invalid); `none` on empty input. -/
def readCpInto (e : Enc) (s : List Nat) : Option (List Nat × List Nat) :=
  match s with
  | [] => none
  | c :: cs =>
    let len := cpLength e c
    if len = 0 then some (startNext e cs, [])
    else if len = 1 then some (cs, [c])
    else some (s.drop len, s.take len)

/-- `read_until_code_point`, /repo/src/scn/impl.h:2156-2175, iterations bounded by the first
    argument. -/
def readUntilCpAux (e : Enc) (pred : Nat → Bool) : Nat → List Nat → Option (List Nat)
  | _, [] => some []
  | 0, _ :: _ => none
  | n + 1, s@(_ :: _) =>
    match readCpInto e s with
    | none => none
    | some (r, units) =>
      if units = [] then readUntilCpAux e pred n r
      else
        match decodeCp e units with
        | none => none
        | some cp => if pred cp then some s else readUntilCpAux e pred n r

/-- `read_until_code_point`, /repo/src/scn/impl.h:2156-2175: the loop runs until the end. -/
def readUntilCp (e : Enc) (pred : Nat → Bool) (s : List Nat) : Option (List Nat) :=
  readUntilCpAux e pred s.length s

/-- `read_while_code_point`, /repo/src/scn/impl.h:2177-2182. -/
def readWhileCp (e : Enc) (pred : Nat → Bool) (s : List Nat) : Option (List Nat) :=
  readUntilCp e (fun cp => ! pred cp) s

/-- How a source presents its characters: `contiguous` (a string view), or a forward range whose
    contiguous segment at the current position has the given number of units
    (`get_contiguous_beginning`, /repo/src/scn/impl.h:1037-1061). -/
inductive Layout where
  | contiguous
  | segmented (firstSegment : Nat)
  deriving DecidableEq, Repr

/-- `read_until_classic_space`, /repo/src/scn/impl.h:2184-2211. -/
def readUntilSpace (e : Enc) (l : Layout) (s : List Nat) : Option (List Nat) :=
  match e, l with
  | .utf8, .contiguous => findSpace s
  | .utf8, .segmented k =>
    let seg := s.take k
    match findSpace seg with
    | none => none
    | some segIt =>
      if segIt ≠ [] then some (s.drop (seg.length - segIt.length))
      else readUntilCp .utf8 isCpSpace (s.drop seg.length)
  | e, _ => readUntilCp e isCpSpace s

/-- `read_while_classic_space`, /repo/src/scn/impl.h:2213-2240 (the final call restarts from the
    beginning of the range). -/
def readWhileSpace (e : Enc) (l : Layout) (s : List Nat) : Option (List Nat) :=
  match e, l with
  | .utf8, .contiguous => findNonspace s
  | .utf8, .segmented k =>
    let seg := s.take k
    match findNonspace seg with
    | none => none
    | some segIt =>
      if segIt ≠ [] then some (s.drop (seg.length - segIt.length))
      else readWhileCp .utf8 isCpSpace s
  | e, _ => readWhileCp e isCpSpace s

/-- `skip_classic_whitespace`, /repo/src/scn/impl.h:3061-3077; the end of the source is an error
    unless exhaustion is allowed. -/
def skipSpace (e : Enc) (l : Layout) (allowExhaustion : Bool) (s : List Nat) : Res (List Nat) :=
  match readWhileSpace e l s with
  | none => .ub
  | some it => if ¬ allowExhaustion ∧ it = [] then .err .endOfInput else .ok it

end Scn
