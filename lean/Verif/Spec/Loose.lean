import Verif.Spec.Format
import Verif.Spec.Calls
/-
Fields with whitespace in front of them in the format string.
-/
namespace Scn.Spec
variable {V : Type}

/-- A field, the literal text before it, and whitespace that may stand between them; its specification, if it has one, as text. -/
structure LooseField (V : Type) where
  gap : List Nat
  ws : List Nat
  id : Nat
  spec : Option (List Nat)
  read : List Nat → Res (V × List Nat)

/-- The field as written, with or without the whitespace. -/
def LooseField.written (e : Enc) (spaced : Bool) (x : LooseField V) : CallField V :=
  ⟨encodes e (x.gap ++ if spaced then x.ws else []), x.id, x.spec.map (encodes e), x.read⟩

end Scn.Spec
