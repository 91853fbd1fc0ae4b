import Verif.Model.ArgReader
/-
Model of `counted_width_iterator` as an iterator, /repo/src/scn/impl.h:2457-2815: moving forwards and backwards, and comparing.
(The increments alone, up to the sentinel, are `takeWidthAux` in `Verif/Model/ArgReader.lean`.)
-/
namespace Scn

/-- The members of the iterator, /repo/src/scn/impl.h:2803-2806: `m_current` as what is behind it (last first) and what is before it up to
    `m_end`, `m_count`, `m_multibyte_left`. -/
structure WidthIt where
  behind : List Nat
  ahead : List Nat
  count : Int
  left : Int
  deriving DecidableEq, Repr

/-- The constructor, /repo/src/scn/impl.h:2480-2483. -/
def WidthIt.start (s : List Nat) (n : Int) : WidthIt := ⟨[], s, n, 0⟩

/-- `operator++` with `_increment_current`, /repo/src/scn/impl.h:2541-2546 and 2775-2787; at the end a precondition is violated. -/
def WidthIt.next (e : Enc) (it : WidthIt) : Option WidthIt :=
  match it.ahead with
  | [] => none
  | c :: cs =>
    if it.left = 0 then some ⟨c :: it.behind, cs, it.count - widthAt e (c :: cs), (cpLength e c : Int) - 1⟩
    else some ⟨c :: it.behind, cs, it.count, it.left - 1⟩

/-- `operator--` with `_decrement_current`, /repo/src/scn/impl.h:2555-2562 and 2789-2801; undefined at the beginning of the text. -/
def WidthIt.prev (e : Enc) (it : WidthIt) : Option WidthIt :=
  match it.behind with
  | [] => none
  | c :: cs =>
    if cpLength e c = 0 then some ⟨cs, c :: it.ahead, it.count, it.left + 1⟩
    else some ⟨cs, c :: it.ahead, it.count + widthAt e (c :: it.ahead), (cpLength e c : Int) - 1⟩

/-- `operator<`, /repo/src/scn/impl.h:2662-2673. -/
def WidthIt.lt (a b : WidthIt) : Bool :=
  if a.count = b.count then decide (a.left > b.left) else decide (a.count > b.count)

/-- `operator>`, /repo/src/scn/impl.h:2675-2682. -/
def WidthIt.gt (a b : WidthIt) : Bool := ! b.lt a

/-- `operator<=`, /repo/src/scn/impl.h:2684-2691. -/
def WidthIt.le (a b : WidthIt) : Bool := ! b.lt a

/-- `operator>=`, /repo/src/scn/impl.h:2693-2700. -/
def WidthIt.ge (a b : WidthIt) : Bool := ! a.lt b

/-- `ranges::next(it, n)` for a forward iterator: `n` increments (/repo/src/scn/impl.h:2541-2546). -/
def WidthIt.advance (e : Enc) : Nat → WidthIt → Option WidthIt
  | 0, it => some it
  | n + 1, it => (it.next e).bind (WidthIt.advance e n)

end Scn
