import Verif.Model.CustomScan
/-
What a scanner of a custom type should see: the rest of the source, and the locale of the call.
-/
namespace Scn.Spec
variable {L A : Type}

/-- A scanner on a text. Beyond the end of the text, and for an end that is incremented, nothing is specified. -/
def onRest (rest : List Nat) (loc : Option L) : ScanProg L A → Res (A × List Nat)
  | .done a off => if off ≤ rest.length then .ok (a, rest.drop off) else .ub
  | .fail e => .err e
  | .get off k => if off ≤ rest.length then onRest rest loc (k rest[off]?) else .ub
  | .inc off k => if off < rest.length then onRest rest loc k else .ub
  | .segment off k => if off ≤ rest.length then onRest rest loc (k (rest.drop off)) else .ub
  | .locale k => onRest rest loc (k loc)

/-- A scanner that looks at the characters one by one. -/
def OneByOne : ScanProg L A → Prop
  | .done _ _ => True
  | .fail _ => True
  | .get _ k => ∀ c, OneByOne (k c)
  | .inc _ k => OneByOne k
  | .segment _ _ => False
  | .locale k => ∀ l, OneByOne (k l)

end Scn.Spec
