import Verif.Spec.Chrono
/-
A source that begins with a date.
-/
namespace Scn.Spec

/-- The source has some whitespace, then a text that shows this date in this format, then `rest`. -/
def DateWritten (e : Enc) (is : List FmtItem) (c : Civil) (src rest : List Nat) : Prop :=
  ∃ ws text, src = ws ++ (text ++ rest) ∧ Spaces ws ∧ text ++ rest ≠ [] ∧ (text ++ rest).dropWhile isSpace = text ++ rest ∧
    ShownSeq e c (callsOf is) text rest

end Scn.Spec
