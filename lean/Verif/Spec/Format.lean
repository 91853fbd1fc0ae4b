import Verif.Spec.Numeral
import Verif.Spec.Space
import Verif.Spec.Unicode
/-
Specification of format string matters, independent of the parser: what literal text means, what
a replacement field looks like, what it means to mix the two kinds of argument ids.
-/
namespace Scn.Spec

/-- Matching format text against source text, both as code points: a whitespace character in the
    text consumes all whitespace at the source position, any other character must be the next
    character of the source. The result is what is left of the source. -/
def matchText : List Nat → List Nat → Option (List Nat)
  | [], s => some s
  | c :: t, s =>
    if isSpace c then matchText t (s.dropWhile isSpace)
    else
      match s with
      | [] => none
      | d :: s => if d = c then matchText t s else none

/-- Literal text written in a format string: braces are doubled. -/
def escape : List Nat → List Nat
  | [] => []
  | c :: t => if c = 123 ∨ c = 125 then c :: c :: escape t else c :: escape t

/-- A replacement field: an argument id or none, and an optional one-letter presentation type. -/
structure Field where
  id : Option Nat
  letter : Option Nat

/-- How a field is written: `{}`, `{3}`, `{:d}`, `{3:d}`. -/
def Field.render (f : Field) : List Nat :=
  [123] ++ (match f.id with | none => [] | some n => numeral 10 n) ++
    (match f.letter with | none => [] | some c => [58, c]) ++ [125]

/-- A format string: texts and fields in turn, and a final text. -/
def renderFormat (parts : List (List Nat × Field)) (tail : List Nat) : List Nat :=
  parts.flatMap (fun p => escape p.1 ++ p.2.render) ++ escape tail

/-- A specification as written, /repo/include/scn/scan.h:8060-8076 (the grammar in the
    documentation): fill and alignment, width, precision, `L`, a one-letter type. Alignment is the
    alignment character `<`, `>` or `^`. -/
structure Written where
  align : Option (Option Nat × Nat) := none
  width : Option Nat := none
  precision : Option Nat := none
  localized : Bool := false
  letter : Option Nat := none

/-- `[fill] align` as written. -/
def Written.alignPart (e : Enc) (w : Written) : List Nat :=
  match w.align with
  | none => []
  | some (none, a) => [a]
  | some (some cp, a) => encode e cp ++ [a]

/-- `[width]` as written. -/
def Written.widthPart (w : Written) : List Nat :=
  match w.width with | none => [] | some n => numeral 10 n

/-- `[precision]` as written. -/
def Written.precisionPart (w : Written) : List Nat :=
  match w.precision with | none => [] | some n => 46 :: numeral 10 n

/-- `['L']` as written. -/
def Written.localizedPart (w : Written) : List Nat := if w.localized then [76] else []

/-- `[type]` as written. -/
def Written.letterPart (w : Written) : List Nat :=
  match w.letter with | none => [] | some c => [c]

/-- The characters of a specification. -/
def Written.render (e : Enc) (w : Written) : List Nat :=
  w.alignPart e ++ (w.widthPart ++ (w.precisionPart ++ (w.localizedPart ++ w.letterPart)))

end Scn.Spec
