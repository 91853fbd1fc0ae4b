import Verif.Spec.IntScan
import Verif.Spec.Float
/-
The parts of the text of an integer that make no difference to its value.
-/
namespace Scn.Spec

/-- The prefixes of the bases: `0x`, `0b`, `0o`, with a letter of either case. -/
def PrefixOf : Nat → List Nat → Prop
  | 16, p => p = [48, 120] ∨ p = [48, 88]
  | 2, p => p = [48, 98] ∨ p = [48, 66]
  | 8, p => p = [48, 111] ∨ p = [48, 79]
  | _, _ => False

/-- The text does not begin with the prefix of the base and a digit after it. -/
def Unprefixed (b : Nat) (t : List Nat) : Prop := ∀ p d r, PrefixOf b p → IsDigit b d → t ≠ p ++ d :: r

end Scn.Spec
