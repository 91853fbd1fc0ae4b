/-
Shared vocabulary of the model.

Characters are code units modelled as `Nat` (a `char` is its value as `unsigned char`,
a `wchar_t` its code value). A position in a source is modelled by the list of the
code units that are left to read; "end" is `[]`.
-/
namespace Scn

/-- Error codes of the library.
    /repo/include/scn/scan.h:3686-3746 (`scan_error::code`). -/
inductive Err where
  | endOfInput
  | invalidFormatString
  | invalidScannedValue
  | invalidLiteral
  | invalidFill
  | lengthTooShort
  | invalidSourceState
  | valuePositiveOverflow
  | valueNegativeOverflow
  | valuePositiveUnderflow
  | valueNegativeUnderflow
  deriving DecidableEq, Repr

/-- Outcome of a library call: a value, a reported error, or undefined behaviour
    (a violated `SCN_EXPECT`, which is an optimiser assumption in release builds
    (/repo/include/scn/fwd.h:915-931), or an out-of-bounds access). -/
inductive Res (α : Type) where
  | ok (a : α)
  | err (e : Err)
  | ub
  deriving DecidableEq, Repr

namespace Res
/-- `SCN_TRY`, /repo/include/scn/scan.h:3925-3940: continue on success, propagate errors. -/
def bind {α β : Type} : Res α → (α → Res β) → Res β
  | ok a, f => f a
  | err e, _ => err e
  | ub, _ => ub

@[simp] theorem bind_ok {α β : Type} (a : α) (f : α → Res β) : (ok a).bind f = f a := rfl
@[simp] theorem bind_err {α β : Type} (e : Err) (f : α → Res β) : (err e).bind f = err e := rfl
@[simp] theorem bind_ub {α β : Type} (f : α → Res β) : (ub : Res α).bind f = ub := rfl

/-- `expected::transform` (/repo/include/scn/scan.h): change the value of a successful outcome. -/
def map {α β : Type} (f : α → β) : Res α → Res β
  | ok a => ok (f a)
  | err e => err e
  | ub => ub

@[simp] theorem map_ok {α β : Type} (a : α) (f : α → β) : (ok a).map f = ok (f a) := rfl
@[simp] theorem map_err {α β : Type} (e : Err) (f : α → β) : (err e).map f = err e := rfl
@[simp] theorem map_ub {α β : Type} (f : α → β) : (ub : Res α).map f = ub := rfl

instance : Monad Res where
  pure := ok
  bind := bind
end Res

end Scn
