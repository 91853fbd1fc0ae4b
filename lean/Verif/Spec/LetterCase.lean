import Verif.Spec.Calls
import Verif.Spec.Float
import Verif.Spec.AnyEncoding
import Verif.Model.Basic
/-
Texts that differ in the case of ASCII letters only.
-/
namespace Scn.Spec

/-- The texts are equal, but for the case of ASCII letters. -/
def SameButCase (s s' : List Nat) : Prop := s.map lower = s'.map lower

/-- The results of reading two such texts: the same value, and rests that differ in the case of letters only; or the same error; or both undefined. -/
def SameReading {V : Type} : Res (V × List Nat) → Res (V × List Nat) → Prop
  | .ok (v, r), .ok (v', r') => v = v' ∧ SameButCase r r'
  | .err x, .err x' => x = x'
  | .ub, .ub => True
  | _, _ => False

/-- A text without ASCII letters. -/
def NoLetters (t : List Nat) : Prop := ∀ c ∈ t, ¬ (65 ≤ c ∧ c ≤ 90) ∧ ¬ (97 ≤ c ∧ c ≤ 122)

/-- The outcomes of two calls, which are what is left or the error, and the values stored: the same values, and the same error or rests that differ in
    the case of letters only; or both undefined. -/
def SameOutcome : Option (Except Err (List Nat) × List (Nat × Val)) → Option (Except Err (List Nat) × List (Nat × Val)) → Prop
  | some (.ok r, vs), some (.ok r', vs') => vs = vs' ∧ SameButCase r r'
  | some (.error x, vs), some (.error x', vs') => vs = vs' ∧ x = x'
  | none, none => True
  | _, _ => False

/-- A field for an integer, without a specification or with a letter only, or for a pointer, without a specification; after a text without
    letters. -/
def NumberField (ks : List Common) (x : CommonField) : Prop :=
  NoLetters x.gap ∧ ((∃ T ty, ks[x.id]? = some (.int T ty) ∧ (x.spec = none ∨ ∃ c p, intLetter c = some p ∧ x.spec = some { letter := some c })) ∨
    (ks[x.id]? = some .pointer ∧ x.spec = none))

/-- The numbers that the library reads, of those there are (C39): they begin with a decimal digit, or are infinities, or are NaNs, not with a
    parenthesis after them that is not closed; and, on sources that are not contiguous, not with `0x` before what is no hexadecimal digit. -/
def CommonFloat (contiguous : Bool) (ty : Pres) (src : List Nat) : Prop :=
  ∀ sg t rest, src = sg ++ t ++ rest → SignText sg → Longest (FloatText ty) (t ++ rest) t →
    ((∃ c cs, t = c :: cs ∧ IsDigit 10 c) ∨ InfText t ∨ (NanText t ∧ (t.length = 3 → ∀ cs, rest ≠ 40 :: cs))) ∧
      (contiguous = true ∨ (ty ≠ .none ∧ ty ≠ .floatHex) ∨ ¬ BarePrefix (t ++ rest))

end Scn.Spec
