import Verif.Model.Space
import Verif.Model.IntReader
/-
Model of the scan buffers: /repo/include/scn/scan.h:4323-4790 (buffer, iterator, forward buffer),
4854-5165 (files, reference buffer) and /repo/src/scn/impl.h:1134-1229 (file buffer); and of how
`default_arg_reader` uses a segment, /repo/src/scn/impl.h:981-1084, 5891-5927.
-/
namespace Scn

/-- The kinds of non-contiguous buffers: over a forward range
    (/repo/include/scn/scan.h:4746-4790), over a `FILE` whose buffer is accessible
    (`has_buffering()` is true, 4916-5022) and over one that is read character by character
    (4876-4914, 5024-5066). -/
inductive BufKind where
  | forward
  | buffered
  | unbuffered
  deriving DecidableEq, Repr

/-- `basic_scan_buffer` with what is not yet read, /repo/include/scn/scan.h:4326-4439: the putback
    area, the current view, and the pieces later calls of `fill` will deliver (single characters
    unless the kind is `buffered`). -/
structure Buf where
  kind : BufKind
  putback : List Nat
  view : List Nat
  pending : List (List Nat)
  deriving DecidableEq, Repr

/-- `chars_available`, /repo/include/scn/scan.h:4355-4358. -/
def Buf.available (b : Buf) : Nat := b.putback.length + b.view.length

/-- `fill`: `basic_scan_forward_buffer_impl`, /repo/include/scn/scan.h:4767-4789, and
    `basic_scan_file_buffer`, /repo/src/scn/impl.h:1149-1177. -/
def Buf.fill (b : Buf) : Buf × Bool :=
  match b.pending with
  | [] =>
    match b.kind with
    | .forward => (b, false)
    | _ => ({ b with putback := b.putback ++ b.view, view := [] }, false)
  | c :: cs => ({ b with putback := b.putback ++ b.view, view := c, pending := cs }, ! c.isEmpty)

/-- `get_segment_starting_at`, /repo/include/scn/scan.h:4374-4384; `none` is a violated
    precondition. -/
def Buf.segmentAt (b : Buf) (pos : Nat) : Option (List Nat) :=
  if pos < b.putback.length then some (b.putback.drop pos)
  else if pos - b.putback.length ≤ b.view.length then some (b.view.drop (pos - b.putback.length))
  else none

/-- `get_character_at`, /repo/include/scn/scan.h:4386-4395. -/
def Buf.charAt (b : Buf) (pos : Nat) : Option Nat :=
  if pos < b.putback.length then b.putback[pos]? else b.view[pos - b.putback.length]?

/-- The loop of `forward_iterator::read_at_position`, /repo/include/scn/scan.h:4581-4599, bounded
    by the first argument. -/
def Buf.readAtAux : Nat → Buf → Nat → Option (Buf × Bool)
  | 0, _, _ => none
  | n + 1, b, pos =>
    if pos < b.available then some (b, true)
    else
      match b.fill with
      | (b', false) => some (b', false)
      | (b', true) => Buf.readAtAux n b' pos

/-- `forward_iterator::read_at_position`, /repo/include/scn/scan.h:4581-4599: false is the end. -/
def Buf.readAt (b : Buf) (pos : Nat) : Option (Buf × Bool) := Buf.readAtAux (b.pending.length + 2) b pos

/-- Comparing an iterator with the end (`is_at_end`, /repo/include/scn/scan.h:4601-4610) and, if not
    at the end, dereferencing it (`operator*`, 4519-4528). The result is `none` at the end. -/
def Buf.get (b : Buf) (pos : Nat) : Option (Buf × Option Nat) :=
  match b.readAt pos with
  | none => none
  | some (b', false) => some (b', none)
  | some (b', true) => (b'.charAt pos).map fun c => (b', some c)

/-- Several accesses, in any order, by any number of iterators, /repo/include/scn/scan.h:4442-4610. -/
def Buf.gets : Buf → List Nat → Option (Buf × List (Option Nat))
  | b, [] => some (b, [])
  | b, p :: ps =>
    match b.get p with
    | none => none
    | some (b', c) => (Buf.gets b' ps).map fun r => (r.1, c :: r.2)

/-- `is_segment_contiguous` of the range from `pos`, whose contiguous segment is `seg`, to the default sentinel,
    /repo/src/scn/impl.h:979-1010: the segment is not empty and ends where the current view ends. -/
def Buf.segmentContiguous (b : Buf) (pos : Nat) (seg : List Nat) : Bool :=
  ! seg.isEmpty && decide (b.putback.length ≤ pos)

/-- `default_arg_reader::operator()` on a non-contiguous source, /repo/src/scn/impl.h:5908-5932.
    `rd` is the reader (with its whitespace skipping) on a source presented in one of the layouts;
    `rest` is everything from `pos` on, which the iterators present. The result is the value and the
    new position. -/
def defaultArg {V : Type} (rd : Layout → List Nat → Res (V × List Nat)) (b : Buf) (pos : Nat) (rest : List Nat) :
    Res (V × Nat) :=
  match b.segmentAt pos with
  | none => .ub
  | some seg =>
    if b.segmentContiguous pos seg then
      (rd .contiguous seg).map fun r => (r.1, pos + (seg.length - r.2.length))
    else (rd (.segmented seg.length) rest).map fun r => (r.1, pos + (rest.length - r.2.length))

/-- `basic_scan_ref_buffer` over another buffer, /repo/include/scn/scan.h:5121-5162. -/
structure RefBuf where
  other : Buf
  start : Nat
  propagate : Bool
  putback : List Nat
  view : List Nat
  deriving DecidableEq, Repr

/-- Constructor of `basic_scan_ref_buffer`, /repo/include/scn/scan.h:5125-5133. Two segments end at
    the same address if both end in the putback area or both in the current view. -/
def RefBuf.make (other : Buf) (start : Nat) : Option RefBuf :=
  (other.segmentAt start).map fun v =>
    { other, start, propagate := decide (0 < other.putback.length) == decide (start < other.putback.length),
      putback := [], view := v }

/-- `basic_scan_ref_buffer::fill`, /repo/include/scn/scan.h:5140-5159; `none` when `substr` is
    called past the end (it would throw). -/
def RefBuf.fill (r : RefBuf) : Option (RefBuf × Bool) :=
  if r.propagate then
    let f := r.other.fill
    if f.1.putback.length < r.start then none
    else some ({ r with other := f.1, view := f.1.view, putback := f.1.putback.drop r.start }, f.2)
  else some ({ r with propagate := true, putback := r.view, view := r.other.view }, true)

/-- What a reference buffer presents without further fills, /repo/include/scn/scan.h:4374-4395. -/
def RefBuf.presented (r : RefBuf) : List Nat := r.putback ++ r.view

/-- `chars_available` of the reference buffer, /repo/include/scn/scan.h:4355-4358. -/
def RefBuf.available (r : RefBuf) : Nat := r.putback.length + r.view.length

/-- `get_character_at` of the reference buffer, /repo/include/scn/scan.h:4386-4395. -/
def RefBuf.charAt (r : RefBuf) (pos : Nat) : Option Nat :=
  if pos < r.putback.length then r.putback[pos]? else r.view[pos - r.putback.length]?

/-- `forward_iterator::read_at_position` over a reference buffer,
    /repo/include/scn/scan.h:4581-4599; `none` when `substr` throws (or the bound is exhausted). -/
def RefBuf.readAtAux : Nat → RefBuf → Nat → Option (RefBuf × Bool)
  | 0, _, _ => none
  | n + 1, r, pos =>
    if pos < r.available then some (r, true)
    else
      match r.fill with
      | none => none
      | some (r', false) => some (r', false)
      | some (r', true) => RefBuf.readAtAux n r' pos

/-- Testing for the end and dereferencing over a reference buffer, /repo/include/scn/scan.h:4519-4528
    and 4601-4610. -/
def RefBuf.get (r : RefBuf) (pos : Nat) : Option (RefBuf × Option Nat) :=
  match RefBuf.readAtAux (r.other.pending.length + 3) r pos with
  | none => none
  | some (r', false) => some (r', none)
  | some (r', true) => (r'.charAt pos).map fun c => (r', some c)

/-- Several accesses over a reference buffer, /repo/include/scn/scan.h:4442-4610. -/
def RefBuf.gets : RefBuf → List Nat → Option (RefBuf × List (Option Nat))
  | r, [] => some (r, [])
  | r, p :: ps =>
    match r.get p with
    | none => none
    | some (r', c) => (RefBuf.gets r' ps).map fun x => (x.1, c :: x.2)

/-- `ungetc` of the units of a list, last first, where `cap` more characters can be pushed back:
    whether all succeeded, how many more could, and what the file then reads.
    /repo/include/scn/scan.h:4959-4962. -/
def ungetAll : Nat → List Nat → List Nat → Bool × List Nat
  | _, [], file => (true, file)
  | 0, _ :: _, file => (false, file)
  | cap + 1, c :: cs, file => ungetAll cap cs (c :: file)

/-- `basic_scan_file_buffer::sync`, /repo/src/scn/impl.h:1179-1227: success, and the characters a
    following read of the file gets; `none` is undefined behaviour. While a file is scanned its
    position is the beginning of the current view (`buffered`) or behind it (`unbuffered`). -/
def Buf.sync (cap : Nat) (b : Buf) (pos : Nat) : Option (Bool × List Nat) :=
  match b.kind with
  | .forward => none
  | .buffered =>
    let file := b.view ++ b.pending.flatten
    if pos < b.putback.length then some (ungetAll cap (b.putback.drop pos).reverse file)
    else if pos - b.putback.length ≤ b.view.length then some (true, file.drop (pos - b.putback.length))
    else none
  | .unbuffered =>
    let file := b.pending.flatten
    if pos = b.available then some (true, file)
    else
      match b.view with
      | [c] =>
        if pos > b.putback.length then none
        else match cap with
          | 0 => some (ungetAll 0 (b.putback.drop pos).reverse file)
          | cap + 1 => some (ungetAll cap (b.putback.drop pos).reverse (c :: file))
      | _ => none

/-- `sync_after_vscan`, /repo/src/scn/impl.cpp:1844-1864: the result of the scan (a consumed length
    or an error) as reported, and what a following read of the file gets. -/
def syncAfter (cap : Nat) (b : Buf) : Res Nat → Option (Res Nat × List Nat)
  | .ub => none
  | .ok n => (b.sync cap n).map fun r => (if r.1 then .ok n else .err .invalidSourceState, r.2)
  | .err e => (b.sync cap 0).map fun r => (if r.1 then .err e else .err .invalidSourceState, r.2)

/-- `default_arg_reader::impl` for an integer type, /repo/src/scn/impl.h:5894-5906 and 3575-3581:
    skip whitespace, then read. -/
def intField (e : Enc) (T : IntTy) (l : Layout) (s : List Nat) : Res (Int × List Nat) :=
  (skipSpace e l false s).bind fun it =>
    readIntDefault ⟨decide (e = .utf8), decide (l = .contiguous)⟩ T it

end Scn
