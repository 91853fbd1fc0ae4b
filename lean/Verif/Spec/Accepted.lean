import Verif.Spec.Chrono
/-
What the conversions of a date and time format take from a text, and when literal text of the format does not stand
there.
-/
namespace Scn.Spec

/-- The fewest digits of a number. -/
def fewestDigits : ChronoCall → Nat
  | .fullYear _ => 4
  | .shortYear _ | .century _ => 2
  | _ => 1

/-- The most digits of a number. -/
def mostDigits : ChronoCall → Nat
  | .fullYear _ => 4
  | .dayOfYear => 3
  | .dec0Weekday _ | .dec1Weekday _ => 1
  | _ => 2

/-- The text that one conversion takes in front of `rest`: literal text itself, all the whitespace, as many digits as there
    are up to the most, a name in full or abbreviated; for the half of the day two or four characters, for an offset from
    UTC any of its characters. -/
def Piece : ChronoCall → List Nat → List Nat → Prop
  | .text t, w, _ => w = t
  | .whitespace, w, rest => Spaces w ∧ rest.dropWhile isSpace = rest
  | .monthName, w, _ => ∃ m, 1 ≤ m ∧ m ≤ 12 ∧ (EqUpToCase (monthName m) w ∨ EqUpToCase ((monthName m).take 3) w)
  | .weekdayName, w, _ => ∃ d, d ≤ 6 ∧ (EqUpToCase (weekdayName d) w ∨ EqUpToCase ((weekdayName d).take 3) w)
  | .amPm, w, _ => w.length = 2 ∨ w.length = 4
  | .tzOffset _, w, _ => ∀ c ∈ w, IsDigit 10 c ∨ c = 43 ∨ c = 45 ∨ c = 58
  | x, w, rest => (∀ c ∈ w, IsDigit 10 c) ∧ fewestDigits x ≤ w.length ∧ w.length ≤ mostDigits x ∧ (w.length = mostDigits x ∨ NoDigitFirst 10 rest)

/-- The text that conversions take one after the other, in front of `rest`. -/
def Pieces : List ChronoCall → List Nat → List Nat → Prop
  | [], w, _ => w = []
  | x :: cs, w, rest => ∃ v w', w = v ++ w' ∧ Piece x v (w' ++ rest) ∧ Pieces cs w' rest

/-- Where literal text of these conversions is due in the text, behind what the conversions before it take, it agrees
    with the text for a while, and then another character stands there. -/
def Mismatch (cs : List ChronoCall) (s : List Nat) : Prop :=
  ∃ pre a c t post w d q, cs = pre ++ .text (a ++ c :: t) :: post ∧ s = w ++ (a ++ d :: q) ∧ Pieces pre w (a ++ d :: q) ∧ c ≠ d

end Scn.Spec
