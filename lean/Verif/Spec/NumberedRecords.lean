import Verif.Spec.Padded
import Verif.Spec.Braces
/-
Records of values printed with literal texts between them, where the fields name their arguments and the literal texts may have
braces in them.
-/
namespace Scn.Spec

/-- The format string: the literal texts with their braces doubled, and `{}`, `{:…}`, `{id}` or `{id:…}` for the values. -/
def numberedFormat (e : Enc) (auto : Bool) (xs : List (Nat × PrintedField)) (last : List Nat) : List Nat :=
  xs.flatMap (fun x => doubled (encodes e x.2.gap) ++
    123 :: ((if auto then [] else numeral 10 x.1) ++ (match x.2.spec with | none => [] | some w => 58 :: w.render e) ++ [125])) ++
  doubled (encodes e last)

end Scn.Spec
