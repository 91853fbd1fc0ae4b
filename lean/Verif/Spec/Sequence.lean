import Verif.Model.VScan
import Verif.Spec.Unicode
import Verif.Spec.Space
/-
What a scan with default fields and literal text in between should do: one step after the other.
-/
namespace Scn.Spec
variable {V : Type}

/-- The format string `g1{}g2{}...gn{}last`. -/
def fieldsFormat (gaps : List (List Nat)) (last : List Nat) : List Nat :=
  gaps.flatMap (fun g => g ++ [123, 125]) ++ last

/-- Left to right: match the literal text (by `lit`), read the next argument (by `rd`), and so on, each
    step starting where the previous one ended; stop at the first failure. -/
def leftToRight (lit : List Nat → List Nat → Res (List Nat)) (rd : Nat → List Nat → Res (V × List Nat)) :
    Nat → List (List Nat) → List Nat → List Nat → Res (List V × List Nat)
  | _, [], last, s => (lit last s).map fun r => ([], r)
  | i, g :: gs, last, s =>
    (lit g s).bind fun s1 => (rd i s1).bind fun r =>
      (leftToRight lit rd (i + 1) gs last r.2).map fun q => (r.1 :: q.1, q.2)

/-- The values stored during a scan, in order, with the arguments they were stored in. -/
def stored (evs : List (Event V)) : List (Nat × V) :=
  evs.filterMap fun
    | .visit id _ (.ok (v, _)) => some (id, v)
    | _ => none

/-- `v0, v1, …` stored in arguments `i, i+1, …`. -/
def numberedFrom (i : Nat) : List V → List (Nat × V)
  | [] => []
  | v :: vs => (i, v) :: numberedFrom (i + 1) vs

/-- One word of a source: whitespace `sep` in front of it, and the whitespace `gap` written before its
    field in the format string (all as code points). -/
structure Word where
  gap : List Nat
  sep : List Nat
  text : List Nat

/-- A non-empty text of characters that are not whitespace, between whitespace. -/
structure Word.Ok (w : Word) : Prop where
  gap : ∀ c ∈ w.gap, IsScalar c ∧ isSpace c = true
  sep : ∀ c ∈ w.sep, IsScalar c ∧ isSpace c = true
  text : ∀ c ∈ w.text, IsScalar c ∧ isSpace c = false
  ne : w.text ≠ []

/-- The source: the words with their separators, then `rest`. -/
def wordsSource (ws : List Word) (rest : List Nat) : List Nat := ws.flatMap (fun w => w.sep ++ w.text) ++ rest

/-- Text that does not continue a word. -/
def Breaks (s : List Nat) : Prop := s = [] ∨ ∃ c t, s = c :: t ∧ isSpace c = true

end Scn.Spec
