/-
Specification of numerals, independent of the model: what a digit character is, which
number a digit string denotes, how a number is written.
-/
namespace Scn.Spec

/-- Value of an ASCII digit/letter in positional notation: '0'..'9', 'A'..'Z', 'a'..'z'. -/
def digit? (c : Nat) : Option Nat :=
  if 48 ≤ c ∧ c ≤ 57 then some (c - 48)
  else if 65 ≤ c ∧ c ≤ 90 then some (c - 65 + 10)
  else if 97 ≤ c ∧ c ≤ 122 then some (c - 97 + 10)
  else none

/-- `c` is a digit of base `b`. -/
def IsDigit (b c : Nat) : Prop := ∃ d, digit? c = some d ∧ d < b

instance (b c : Nat) : Decidable (IsDigit b c) :=
  match h : digit? c with
  | none => isFalse (by rintro ⟨d, hd, _⟩; simp [h] at hd)
  | some d =>
    if hb : d < b then isTrue ⟨d, h, hb⟩
    else isFalse (by rintro ⟨d', hd, hlt⟩; rw [h] at hd; cases hd; exact hb hlt)

/-- The number denoted by a digit string, most significant digit first. -/
def value (b : Nat) (s : List Nat) : Nat :=
  s.foldl (fun a c => a * b + (digit? c).getD 0) 0

/-- `s` is a non-empty string of base-`b` digits. -/
def IsNumeral (b : Nat) (s : List Nat) : Prop := s ≠ [] ∧ ∀ c ∈ s, IsDigit b c

/-- The text does not start with a base-`b` digit. -/
def NoDigitFirst (b : Nat) (s : List Nat) : Prop := ∀ c, s.head? = some c → ¬ IsDigit b c

/-- The lower-case character of a digit value. -/
def digitChar (d : Nat) : Nat := if d < 10 then 48 + d else 97 + (d - 10)

/-- Canonical numeral of `n` in base `b ≥ 2` (no leading zeros; "0" for zero). -/
def numeral (b n : Nat) : List Nat :=
  if _h : 2 ≤ b ∧ b ≤ n then numeral b (n / b) ++ [digitChar (n % b)] else [digitChar n]
termination_by n
decreasing_by exact Nat.div_lt_self (by omega) (by omega)

/-- The mathematical value of a signed numeral. -/
def signed (neg : Bool) (v : Nat) : Int := if neg then -(v : Int) else v

end Scn.Spec

namespace Scn.Spec

/-- The same character, or the same ASCII letter in different case. -/
def SameLetter (x y : Nat) : Prop :=
  x = y ∨ (65 ≤ x ∧ x ≤ 90 ∧ y = x + 32) ∨ (65 ≤ y ∧ y ≤ 90 ∧ x = y + 32)

instance (x y : Nat) : Decidable (SameLetter x y) := by unfold SameLetter; infer_instance

/-- Equal up to ASCII letter case. -/
def EqUpToCase : List Nat → List Nat → Prop
  | [], [] => True
  | x :: xs, y :: ys => SameLetter x y ∧ EqUpToCase xs ys
  | _, _ => False

def decEqUpToCase : (a b : List Nat) → Decidable (EqUpToCase a b)
  | [], [] => isTrue trivial
  | x :: xs, y :: ys =>
    have := decEqUpToCase xs ys
    inferInstanceAs (Decidable (SameLetter x y ∧ EqUpToCase xs ys))
  | [], _ :: _ => isFalse id
  | _ :: _, [] => isFalse id

instance (a b : List Nat) : Decidable (EqUpToCase a b) := decEqUpToCase a b

end Scn.Spec
