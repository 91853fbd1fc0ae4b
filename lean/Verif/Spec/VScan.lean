import Verif.Model.VScan
/-
Vocabulary for the history of a scan call, independent of how the driver keeps its books.
-/
namespace Scn.Spec
variable {V : Type}

/-- How an event failed, if it did. -/
def failure : Event V → Option Err
  | .literal _ _ _ f => f
  | .visit _ _ (.err e) => some e
  | .visit _ _ _ => none

/-- The argument whose reader ran. -/
def visitOf : Event V → Option Nat
  | .literal .. => none
  | .visit id _ _ => some id

/-- The argument that received a value. -/
def writeOf : Event V → Option Nat
  | .visit id _ (.ok _) => some id
  | _ => none

/-- The arguments whose readers ran, in order. -/
def visits (evs : List (Event V)) : List Nat := evs.filterMap visitOf

/-- The arguments that received a value, in order. -/
def writes (evs : List (Event V)) : List Nat := evs.filterMap writeOf

/-- The reader calls with their source positions and results, in order. -/
def reads (evs : List (Event V)) : List (Nat × List Nat × Res (V × List Nat)) :=
  evs.filterMap fun
    | .literal .. => none
    | .visit id s r => some (id, s, r)

/-- After a failure no argument's reader runs any more. -/
def QuietAfterFailure (evs : List (Event V)) : Prop :=
  evs.Pairwise fun a b => failure a ≠ none → visitOf b = none

/-- Where an event started and where it left the source; a failed reader leaves it unchanged. -/
def eventFrom : Event V → List Nat
  | .literal _ s _ _ => s
  | .visit _ s _ => s

def eventTo : Event V → List Nat
  | .literal _ _ r _ => r
  | .visit _ _ (.ok (_, r)) => r
  | .visit _ s _ => s

/-- The events lead from `s` to `t`, each starting where the previous one ended. -/
inductive Leads : List Nat → List (Event V) → List Nat → Prop where
  | nil (s) : Leads s [] s
  | snoc {s evs m} (e : Event V) : Leads s evs m → eventFrom e = m → Leads s (evs ++ [e]) (eventTo e)

end Scn.Spec
