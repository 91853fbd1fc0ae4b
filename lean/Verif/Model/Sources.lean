/-
What a source given to `scn::scan` contributes, and the range left over.
-/
namespace Scn

/-- The kinds of ranges `make_scan_buffer` tells apart (/repo/include/scn/scan.h:5243-5365): views, strings and other contiguous
    sized ranges (used where they are, as a `basic_string_view`), arrays of characters, and ranges that are only forward ranges
    (copied bit by bit into a `basic_scan_forward_buffer_impl`). The list holds all elements of the range: for an array, all `N`
    of them. Files and scan buffers themselves are modelled in `Verif/Model/FileScan.lean` and `Verif/Model/Buffer.lean`. The
    compile-time refusals (5214-5226, 5335-5363, 5376-5424) are modelled in `Verif/Model/Scannable.lean`. -/
inductive Source where
  | contiguous (units : List Nat)
  | array (units : List Nat)
  | forward (units : List Nat)
deriving DecidableEq, Repr

/-- What is scanned (/repo/include/scn/scan.h:5256-5306, 5336-5363): of an array always all but the last element (5291-5297), which
    is taken to be the terminator of a string literal. -/
def Source.scanned : Source → List Nat
  | .contiguous us => us
  | .array us => us.take (us.length - 1)
  | .forward us => us

/-- The range returned after `n` units were consumed: `make_vscan_result_range` (/repo/include/scn/scan.h:6698-6726). It begins `n`
    elements into the source and ends where the source ends, for an array before its last element (6703-6708). The type is a
    subrange of the source's iterators: contiguous for an array. -/
def Source.unused (n : Nat) : Source → Source
  | .contiguous us => .contiguous (us.drop n)
  | .array us => .contiguous ((us.take (us.length - 1)).drop n)
  | .forward us => .forward (us.drop n)

end Scn
