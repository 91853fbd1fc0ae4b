import Verif.Spec.Ranges
import Verif.Spec.Boundary
import Verif.Spec.IntScan
import Verif.Model.RangeArgs
/-
The texts of ranges and tuples, as they are described in /repo/docs/pages and /repo/include/scn/ranges.h:226-246, 314-318, 481-493: values between
brackets, with separators in between, and any whitespace in front of brackets and separators. How a single value is written is left to a relation:
`R p v q` says that the text `p` begins with the value `v`, and that `q` comes after it.
-/
namespace Scn.Spec

variable {V : Type}

/-- A reader on well-formed text, as a relation. -/
def Reads (e : Enc) (rd : List Nat → Res (V × List Nat)) (p : List Nat) (v : V) (q : List Nat) : Prop :=
  q <:+ p ∧ rd (encodes e p) = .ok (v, encodes e q)

/-- Successful reads of well-formed text end between two characters. -/
def Wholly (e : Enc) (rd : List Nat → Res (V × List Nat)) : Prop :=
  ∀ p, (∀ c ∈ p, IsScalar c) → ∀ v r, rd (encodes e p) = .ok (v, r) → Between e p r

/-- Nothing, or one ASCII character that is no whitespace. -/
def Mark (t : List Nat) : Prop := t = [] ∨ ∃ c, t = [c] ∧ c < 128 ∧ isSpace c = false

/-- Brackets of one ASCII character each, or none. -/
structure BracketMarks (b : Brackets) : Prop where
  opening : Mark b.opening
  closing : Mark b.closing
  separator : Mark b.separator

/-- After any whitespace the text goes on with `t`, and then `q`; it does not end in front of `t`. -/
def SkipsTo (t p q : List Nat) : Prop := p.dropWhile isSpace = t ++ q ∧ t ++ q ≠ []

/-- Values `vs`, one for each relation, with a separator in front of each but the first. -/
def Listed (sep : List Nat) : Bool → List (List Nat → V → List Nat → Prop) → List V → List Nat → List Nat → Prop
  | _, [], [], p, q => p = q
  | first, R :: Rs, v :: vs, p, q =>
    ∃ p1 p2, (if first then p1 = p else SkipsTo sep p p1) ∧ R p1 v p2 ∧ Listed sep false Rs vs p2 q
  | _, _, _, _, _ => False

/-- The values of a tuple in its brackets, and `r` after them. -/
def TupleText (b : Brackets) (Rs : List (List Nat → V → List Nat → Prop)) (vs : List V) (p r : List Nat) : Prop :=
  ∃ p1 q, SkipsTo b.opening p p1 ∧ Listed b.separator true Rs vs p1 q ∧ SkipsTo b.closing q r

/-- The values of a range in its brackets, at most `n` of them, and `r` after them. The opening bracket is followed by the closing one if and only if
    there are no values. -/
def RangeText (b : Brackets) (R : List Nat → V → List Nat → Prop) (n : Nat) (vs : List V) (p r : List Nat) : Prop :=
  vs.length ≤ n ∧ TupleText b (List.replicate vs.length R) vs p r ∧
    (vs ≠ [] → ∀ p1 r', SkipsTo b.opening p p1 → ¬ SkipsTo b.closing p1 r')

/-- After any whitespace the text begins with a decimal integer `x` that fits the type: a sign if there is one, and all the digits that follow. -/
def IntegerAt (T : IntTy) (p : List Nat) (x : Int) (q : List Nat) : Prop :=
  ∃ sg ds, p.dropWhile isSpace = sg ++ (ds ++ q) ∧ (sg = [] ∨ sg = [43] ∨ sg = [45] ∧ T.signed = true) ∧ ds ≠ [] ∧ (∀ c ∈ ds, IsDigit 10 c) ∧
    (∀ c, q.head? = some c → ¬ IsDigit 10 c) ∧ x = signed (decide (sg = [45])) (value 10 ds) ∧ InRange T x

mutual
/-- The text `p` begins with the value of a range or a tuple, `q` comes after it; `R d sp` says how values of the built-in type `d` are read with the
    specification `sp`. What a range holds already stays in front. -/
def CollText (R : Dest → Specs → List Nat → Val → List Nat → Prop) : Coll → Specs → List CollVal → List Nat → CollVal → List Nat → Prop
  | .item d, sp, _, p, v, q => ∃ x, v = .val x ∧ R d sp p x q
  | .range b n el, sp, init, p, v, q => ∃ vs, v = .list (init ++ vs) ∧ RangeText b (CollText R el sp []) n vs p q
  | .tuple b ms, _, _, p, v, q => ∃ vs, v = .list vs ∧ TupleText b (CollTexts R ms) vs p q
/-- The same for each member of a tuple: specifications do not reach them. -/
def CollTexts (R : Dest → Specs → List Nat → Val → List Nat → Prop) : List Coll → List (List Nat → CollVal → List Nat → Prop)
  | [] => []
  | m :: ms => CollText R m {} [] :: CollTexts R ms
end

end Scn.Spec
