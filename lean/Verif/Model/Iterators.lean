import Verif.Model.Buffer
/-
Iterators over the source and how they are moved: /repo/include/scn/scan.h:4442-4707 and /repo/src/scn/impl.h:68-419.
-/
namespace Scn

/-- What a `forward_iterator` is over, /repo/include/scn/scan.h:4454-4467, 4612-4618: a view of the units, or a buffer (which is passed around). -/
inductive ItOver where
  | view (s : List Nat)
  | parent
  deriving DecidableEq, Repr

/-- `forward_iterator` with its position, /repo/include/scn/scan.h:4442-4619. -/
structure SrcIt where
  over : ItOver
  pos : Nat
  deriving DecidableEq, Repr

/-- `is_at_end`, /repo/include/scn/scan.h:4601-4610. A pointer behind the end is undefined. -/
def SrcIt.atEnd (b : Buf) (it : SrcIt) : Option (Buf × Bool) :=
  match it.over with
  | .view s => if s.length < it.pos then none else some (b, it.pos == s.length)
  | .parent => (b.readAt it.pos).map fun r => (r.1, ! r.2)

/-- `operator*`, /repo/include/scn/scan.h:4516-4529. -/
def SrcIt.deref (b : Buf) (it : SrcIt) : Option (Buf × Nat) :=
  match it.over with
  | .view s => (s[it.pos]?).map fun c => (b, c)
  | .parent =>
    match b.readAt it.pos with
    | some (b', true) => (b'.charAt it.pos).map fun c => (b', c)
    | _ => none

/-- `operator++`, /repo/include/scn/scan.h:4502-4507. -/
def SrcIt.inc (b : Buf) (it : SrcIt) : Option (Buf × SrcIt) :=
  match it.over with
  | .view _ => some (b, { it with pos := it.pos + 1 })
  | .parent => (b.readAt (it.pos + 1)).map fun r => (r.1, { it with pos := it.pos + 1 })

/-- `batch_advance`, /repo/include/scn/scan.h:4531-4536. -/
def SrcIt.batchAdvance (n : Int) (it : SrcIt) : Option SrcIt :=
  if 0 ≤ n then some { it with pos := it.pos + n.toNat } else none

/-- `batch_advance_to`, /repo/include/scn/scan.h:4538-4543. -/
def SrcIt.batchAdvanceTo (i : Int) (it : SrcIt) : Option SrcIt :=
  if (it.pos : Int) ≤ i then some { it with pos := i.toNat } else none

/-- A loop over a range of iterators, from `it` to the default sentinel: `for (; it != default_sentinel; ++it) … *it …`, as done in
    /repo/src/scn/impl.h:1951-1976 and elsewhere, bounded by the first argument. /repo/include/scn/scan.h:4545-4577. -/
def SrcIt.collect : Nat → Buf → SrcIt → Option (Buf × List Nat)
  | 0, _, _ => none
  | n + 1, b, it =>
    match it.atEnd b with
    | none => none
    | some (b, true) => some (b, [])
    | some (b, false) =>
      match it.deref b with
      | none => none
      | some (b, c) =>
        match it.inc b with
        | none => none
        | some (b, it) => (SrcIt.collect n b it).map fun r => (r.1, c :: r.2)

/-- `common_forward_iterator`, /repo/include/scn/scan.h:4621-4687: an iterator, or one made from the default sentinel, which is not over
    anything. -/
structure CommonIt where
  it : Option SrcIt
  isEnd : Bool
  deriving DecidableEq, Repr

/-- `common_forward_iterator{it}`, /repo/include/scn/scan.h:4629-4632. -/
def CommonIt.of (b : Buf) (it : SrcIt) : Option (Buf × CommonIt) :=
  (it.atEnd b).map fun r => (r.1, ⟨some it, r.2⟩)

/-- `common_forward_iterator{default_sentinel}`, /repo/include/scn/scan.h:4633-4636. -/
def CommonIt.last : CommonIt := ⟨none, true⟩

/-- `operator++`, /repo/include/scn/scan.h:4638-4643; of one that is not over anything it is undefined. -/
def CommonIt.inc (b : Buf) (x : CommonIt) : Option (Buf × CommonIt) :=
  match x.it with
  | none => none
  | some it =>
    match it.inc b with
    | none => none
    | some (b, it) => CommonIt.of b it

/-- `batch_advance`, /repo/include/scn/scan.h:4652-4657. -/
def CommonIt.batchAdvance (n : Int) (b : Buf) (x : CommonIt) : Option (Buf × CommonIt) :=
  match x.it with
  | none => none
  | some it =>
    match it.batchAdvance n with
    | none => none
    | some it => CommonIt.of b it

/-- `operator==`, /repo/include/scn/scan.h:4666-4677, 4545-4549. -/
def CommonIt.eq (x y : CommonIt) : Bool :=
  if x.isEnd && y.isEnd then true
  else if x.isEnd != y.isEnd then false
  else x.it == y.it

/-- A loop from `x` to the end of `get_common_range`, /repo/include/scn/scan.h:4699-4706, bounded by the first argument. -/
def CommonIt.collect : Nat → Buf → CommonIt → Option (Buf × List Nat)
  | 0, _, _ => none
  | n + 1, b, x =>
    if x.eq CommonIt.last then some (b, [])
    else
      match x.it with
      | none => none
      | some it =>
        match it.deref b with
        | none => none
        | some (b, c) =>
          match x.inc b with
          | none => none
          | some (b, x) => (CommonIt.collect n b x).map fun r => (r.1, c :: r.2)

/-! ### Moving iterators

The helpers of /repo/src/scn/impl.h:68-419 on any iterators over a range of `N` elements, given by their positions. What leaves the
range is undefined. -/

/-- The kinds of iterators that are told apart, /repo/src/scn/impl.h:145-184. -/
inductive ItKind where
  | random
  | bidirectional
  | forward
  deriving DecidableEq, Repr

/-- `++i`, `n` times; the loops of /repo/src/scn/impl.h:163-165 and 180-182. -/
def stepUp (N : Nat) : Nat → Nat → Option Nat
  | 0, i => some i
  | n + 1, i => if i < N then stepUp N n (i + 1) else none

/-- `--i`, `n` times; the loop of /repo/src/scn/impl.h:168-170. -/
def stepDown : Nat → Nat → Option Nat
  | 0, i => some i
  | _ + 1, 0 => none
  | n + 1, i + 1 => stepDown n i

/-- `impl_i_n`, /repo/src/scn/impl.h:145-184. The overload for `batch_advance` (137-143) has another name and is never chosen. -/
def advanceBy (k : ItKind) (N : Nat) (n : Int) (i : Nat) : Option Nat :=
  match k with
  | .random => if 0 ≤ (i : Int) + n ∧ (i : Int) + n ≤ N then some ((i : Int) + n).toNat else none
  | .bidirectional => if 0 < n then stepUp N n.toNat i else stepDown (-n).toNat i
  | .forward => stepUp N n.toNat i

/-- `impl_i_s` where the sentinel is not an iterator, /repo/src/scn/impl.h:200-206, bounded by the first argument. If it is one, it is
    assigned (186-191). The overload of 193-198 lacks an argument and does not compile. -/
def walkTo (N bound : Nat) : Nat → Nat → Option Nat
  | 0, _ => none
  | f + 1, i => if i = bound then some i else if i < N then walkTo N bound f (i + 1) else none

/-- The loops of /repo/src/scn/impl.h:235-240 and 255-258: where it ends, and how often it was incremented. -/
def boundedUp (N bound : Nat) : Nat → Nat → Int → Option (Nat × Int)
  | 0, i, c => some (i, c)
  | n + 1, i, c => if i = bound then some (i, c) else if i < N then boundedUp N bound n (i + 1) (c + 1) else none

/-- The loop of /repo/src/scn/impl.h:229-234, for a positive number of steps: the first one is not checked. -/
def boundedDown (bound : Nat) : Nat → Nat → Int → Option (Nat × Int)
  | 0, i, c => some (i, c)
  | _ + 1, 0, _ => none
  | n + 1, i + 1, c => if n = 0 ∨ i = bound then some (i, c - 1) else boundedDown bound n i (c - 1)

/-- `impl_i_n_s`, /repo/src/scn/impl.h:208-261: with a sentinel that can be subtracted (`sized`), or not. -/
def advanceSteps (k : ItKind) (sized : Bool) (N : Nat) (n : Int) (bound i : Nat) : Option (Nat × Int) :=
  if sized then
    if ((bound : Int) - i).natAbs ≤ n.natAbs then some (bound, (bound : Int) - i) else (advanceBy k N n i).map fun j => (j, n)
  else if k ≠ .forward ∧ n < 0 then boundedDown bound n.natAbs i 0
  else boundedUp N bound n.toNat i 0

/-- `advance(i, n, bound)`, /repo/src/scn/impl.h:278-284: where it ends, and what is left of `n`. -/
def advanceBounded (k : ItKind) (sized : Bool) (N : Nat) (n : Int) (bound i : Nat) : Option (Nat × Int) :=
  (advanceSteps k sized N n bound i).map fun r => (r.1, n - r.2)

/-- The counting loop of `distance`, /repo/src/scn/impl.h:88-99, bounded by the first argument. -/
def countTo (N last : Nat) : Nat → Nat → Int → Option Int
  | 0, _, _ => none
  | f + 1, i, c => if i = last then some c else if i < N then countTo N last f (i + 1) (c + 1) else none

/-- `distance`, /repo/src/scn/impl.h:72-113; the overload for `position()` is never chosen, as the tag has priority 0 (107). -/
def iterDistance (sized : Bool) (N first last : Nat) : Option Int :=
  if sized then some ((last : Int) - first) else countTo N last (N + 1) first 0

/-- The loop of `prev_backtrack`, /repo/src/scn/impl.h:355-361, bounded by the first argument. -/
def backtrackLoop (N it : Nat) : Nat → Nat → Option Nat
  | 0, _ => none
  | f + 1, beg => if beg < N then (if beg + 1 = it then some beg else backtrackLoop N it f (beg + 1)) else none

/-- `prev_backtrack`, /repo/src/scn/impl.h:331-374: for bidirectional iterators, for iterators with a position (`batch`), and for others. -/
def prevBacktrack (k : ItKind) (batch : Bool) (N it beg : Nat) : Option Nat :=
  if k ≠ .forward then (if it = 0 then none else some (it - 1))
  else if batch then (if it = 0 then none else some (beg + (it - 1)))
  else if it = beg then none else backtrackLoop N it (N + 1) beg

/-- The loop of `less_backtrack`, /repo/src/scn/impl.h:399-407, bounded by the first argument. -/
def lessLoop (N lhs rhs : Nat) : Nat → Nat → Option Bool
  | 0, _ => none
  | f + 1, beg => if beg = rhs then some false else if beg = lhs then some true else if beg < N then lessLoop N lhs rhs f (beg + 1) else none

/-- `less_backtrack`, /repo/src/scn/impl.h:377-419: by comparison (also of positions), or by the loop. -/
def lessBacktrack (ordered : Bool) (N lhs rhs beg : Nat) : Option Bool :=
  if ordered then some (decide (lhs < rhs)) else lessLoop N lhs rhs (N + 1) beg

end Scn
