import Verif.Model.Float
import Verif.Model.IntReader
/-
Specification vocabulary: a text and the same text behind a minus sign.
-/
namespace Scn.Spec

/-- The errors of a number and of its opposite: too large on one side is too large on the other, and too small likewise; the others are the same. -/
def OppositeErr (x y : Err) : Prop :=
  match x with
  | .valuePositiveOverflow => y = .valueNegativeOverflow
  | .valuePositiveUnderflow => y = .valueNegativeUnderflow
  | _ => y = x

/-- The second outcome is that of the opposite number: the same value with its sign set, with the same text left, or the opposite error. -/
def OppositeOutcome {V : Type} (minus : V → V) (a b : Res (V × List Nat)) : Prop :=
  match a with
  | .ok (v, r) => b = .ok (minus v, r)
  | .err x => ∃ y, OppositeErr x y ∧ b = .err y
  | .ub => b = .ub

/-- The second outcome is that of the opposite integer: the opposite value, with the same text left, or the opposite error; where the first is too large,
    the second may be the least value of the type, which has no opposite. -/
def OppositeInt (T : IntTy) (a b : Res (Int × List Nat)) : Prop :=
  match a with
  | .ok (v, r) => b = .ok (-v, r)
  | .err .valuePositiveOverflow => b = .err .valueNegativeOverflow ∨ ∃ r, b = .ok (-(2 ^ (T.bits - 1)), r)
  | .err x => b = .err x
  | .ub => b = .ub

end Scn.Spec
