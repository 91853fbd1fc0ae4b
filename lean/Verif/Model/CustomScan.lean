import Verif.Model.VScan
import Verif.Model.Buffer
/-
Scanners of custom types: what their `scan` does with the context it is given, and how the contexts are made and read back,
/repo/include/scn/scan.h:4442-4630, 8919-8991, /repo/src/scn/impl.h:2968-3041, 5934-5980, 6268-6292, /repo/src/scn/impl.cpp:1513-1568, 1742-1788.
-/
namespace Scn

/-- What the `scan` of a scanner does with the context (/repo/include/scn/scan.h:8944-8991): compare an iterator with the end and, if it is not
    there, dereference it; increment an iterator; take the segment from an iterator on; look at the locale (`none`: an empty
    `locale_ref`); return a value and an iterator, or an error. An iterator is given by its distance from `begin()`: `position()`, which
    tells more, is not modelled. -/
inductive ScanProg (L A : Type) where
  | done (a : A) (off : Nat)
  | fail (e : Err)
  | get (off : Nat) (k : Option Nat → ScanProg L A)
  | inc (off : Nat) (k : ScanProg L A)
  | segment (off : Nat) (k : List Nat → ScanProg L A)
  | locale (k : Option L → ScanProg L A)

variable {L A V : Type}

/-- `scan` on a context whose iterators are views of `text` (`null`: of a null pointer), from position `base` on: the value and the position
    of the iterator. `operator*`, `operator++`, `contiguous_segment`, `stores_parent` and `is_at_end`,
    /repo/include/scn/scan.h:4462-4526, 4579-4610. A `null` view is taken for one with a parent: `assert(m_begin)` fails, or a null
    pointer is used. -/
def ScanProg.onView (null : Bool) (text : List Nat) (base : Nat) (loc : Option L) : ScanProg L A → Res (A × Nat)
  | .done a off => .ok (a, base + off)
  | .fail e => .err e
  | .get off k =>
    if null then (k none).onView null text base loc
    else if base + off = text.length then (k none).onView null text base loc
    else
      match text[base + off]? with
      | some c => (k (some c)).onView null text base loc
      | none => .ub
  | .inc _ k => if null then .ub else k.onView null text base loc
  | .segment off k =>
    if null ∨ text.length < base + off then .ub else (k (text.drop (base + off))).onView null text base loc
  | .locale k => (k loc).onView null text base loc

/-- `default_arg_reader::operator()(handle)` with `make_custom_ctx` on a contiguous source of which `cur` remains,
    /repo/src/scn/impl.h:5934-5966. -/
def customDefault (null : Bool) (loc : Option L) (p : ScanProg L A) (cur : List Nat) : Res (A × List Nat) :=
  (p.onView null cur 0 loc).bind fun r => if r.2 ≤ cur.length then .ok (r.1, cur.drop r.2) else .ub

/-- `custom_reader` on a contiguous source `all` of which `cur` remains: `contiguous_context_wrapper::get_custom`,
    /repo/src/scn/impl.cpp:1549-1563, and `advance_to` and `begin_position` of the contiguous context, /repo/src/scn/impl.h:3011-3035. -/
def customSpecs (null : Bool) (all : List Nat) (loc : Option L) (p : ScanProg L A) (cur : List Nat) : Res (A × List Nat) :=
  (p.onView null all (all.length - cur.length) loc).bind fun r => if r.2 ≤ all.length then .ok (r.1, all.drop r.2) else .ub

/-- `scan` on the context of a source that is not contiguous, whose iterators have the buffer as their parent; in a field with or without a
    specification. The value, the position and the buffer afterwards. /repo/include/scn/scan.h:4487-4526, 4579-4610,
    /repo/src/scn/impl.h:5948, 5967-5969, /repo/src/scn/impl.cpp:1513-1531. -/
def ScanProg.onBuf (base : Nat) (loc : Option L) : ScanProg L A → Buf → Res ((A × Nat) × Buf)
  | .done a off, b => .ok ((a, base + off), b)
  | .fail e, _ => .err e
  | .get off k, b =>
    match b.get (base + off) with
    | none => .ub
    | some r => (k r.2).onBuf base loc r.1
  | .inc off k, b =>
    match b.readAt (base + off + 1) with
    | none => .ub
    | some r => k.onBuf base loc r.1
  | .segment off k, b =>
    match b.segmentAt (base + off) with
    | none => .ub
    | some seg => (k seg).onBuf base loc b
  | .locale k, b => (k loc).onBuf base loc b

/-- A scanner of a custom type: what `parse` makes of the format string from the specification on (`none`: it throws), where it ends, and
    what `scan` then does. /repo/include/scn/scan.h:5552-5583, 5619-5643 -/
structure CustomScanner (L A : Type) where
  parse : List Nat → Option (List Nat × ScanProg L A)

/-- The arguments of a call on a contiguous source, some of which (`sc`) are of custom types. A field without a specification parses an
    empty one. /repo/src/scn/impl.h:5951-5966, 6268-6289, /repo/src/scn/impl.cpp:1549-1563 -/
def Env.withCustom (env : Env V) (null : Bool) (all : List Nat) (loc : Option L) (sc : Nat → Option (CustomScanner L V)) : Env V where
  enc := env.enc
  cfg := env.cfg
  skip := env.skip
  count := env.count
  ty id := if (sc id).isSome then .custom else env.ty id
  readDefault id s :=
    match sc id with
    | none => env.readDefault id s
    | some c =>
      match c.parse [] with
      | none => .err .invalidFormatString
      | some r => customDefault null loc r.2 s
  readSpecs := env.readSpecs
  readCustom id pos s :=
    match sc id with
    | none => env.readCustom id pos s
    | some c =>
      match c.parse pos with
      | none => (pos, .err .invalidFormatString)
      | some r => (r.1, customSpecs null all loc r.2 s)

/-- `vscan_internal` with a locale, /repo/src/scn/impl.cpp:1742-1788: for the format string "{}" and one argument, `scan_simple_single_argument`
    is called without the locale, 1752, 1773; then it is empty, 1328. -/
def vscanWithLocale (env : Option L → Env V) (loc : Option L) (fmt src : List Nat) : Option (Except Err (List Nat) × List (Event V)) :=
  if fmt = [123, 125] ∧ (env loc).count = 1 then vscan (env none) fmt src else vscan (env loc) fmt src

end Scn
