import Verif.Spec.Space
/-
Places between the characters of a text.
-/
namespace Scn.Spec

/-- `s` is what is left of the text at a place between two of its characters, or at one of its ends. -/
def Between (e : Enc) (cps s : List Nat) : Prop := ∃ t, t <:+ cps ∧ s = encodes e t

/-- Characters of one unit that is their number. -/
def Single (e : Enc) (u : Nat) : Prop := IsScalar u ∧ encode e u = [u]

end Scn.Spec
