import Verif.Spec.AnyEncoding
import Verif.Spec.IntScan
/-
Arguments of wider integer types, and values that fit the narrower ones.
-/
namespace Scn.Spec

/-- `d'` is an integer type as wide as `d` or wider, both signed or both unsigned; or it is the same type. -/
def Widened : Dest → Dest → Prop
  | .int T ty, d' => ∃ T' ty', d' = .int T' ty' ∧ T.Std ∧ T'.Std ∧ T.signed = T'.signed ∧ T.bits ≤ T'.bits ∧
      (ty.category = some .integer ∨ ty.category = some .unsignedInteger) ∧ (ty'.category = some .integer ∨ ty'.category = some .unsignedInteger)
  | d, d' => d' = d

/-- Argument by argument. -/
structure AllWidened (ds ds' : List Dest) : Prop where
  length : ds'.length = ds.length
  each : ∀ (i : Nat) d, ds[i]? = some d → ∃ d', ds'[i]? = some d' ∧ Widened d d'

/-- An integer for argument `i` is in the range of its type; other values fit anyway. -/
def Fits (ds : List Dest) (p : Nat × Val) : Prop :=
  ∀ T ty x, ds[p.1]? = some (.int T ty) → p.2 = .int x → InRange T x

end Scn.Spec
