import Verif.Spec.Calls
/-
Format strings whose literal texts contain braces, which are written twice (/repo/include/scn/scan.h:8032-8035).
-/
namespace Scn.Spec
variable {V : Type}

/-- A literal text as it is written in a format string: braces are doubled. -/
def doubled (t : List Nat) : List Nat := t.flatMap fun c => if c = 123 ∨ c = 125 then [c, c] else [c]

/-- The format string for fields with any literal texts before, between and after them. -/
def escapedFormat (auto : Bool) (fs : List (CallField V)) (last : List Nat) : List Nat :=
  callFormat auto (fs.map fun f => { f with gap := doubled f.gap }) (doubled last)

end Scn.Spec
