/-
Specification vocabulary for byte lanes.
-/
namespace Scn.Spec

/-- Byte number `i` of a word, least significant first. -/
def byteOf (w i : Nat) : Nat := w / 256 ^ i % 256

/-- `i` is the first index below `n` with property `p`. -/
def IsFirst (n : Nat) (p : Nat → Prop) (i : Nat) : Prop := i < n ∧ p i ∧ ∀ j < i, ¬ p j

end Scn.Spec
