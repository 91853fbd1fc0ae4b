/-
Regex patterns in format strings.
-/
namespace Scn.Spec

/-- A pattern as written between slashes: every slash is preceded by a backslash. -/
def escapeSlashes : List Nat → List Nat
  | [] => []
  | c :: cs => if c = 47 then 92 :: 47 :: escapeSlashes cs else c :: escapeSlashes cs

/-- Removing the backslashes in front of slashes. -/
def unescapeSlashes : List Nat → List Nat
  | [] => []
  | [c] => [c]
  | c :: d :: cs => if c = 92 ∧ d = 47 then 47 :: unescapeSlashes cs else c :: unescapeSlashes (d :: cs)

/-- The flags written as letters: their bits. -/
def flagBit (c : Nat) : Nat := if c = 109 then 1 else if c = 115 then 2 else if c = 105 then 4 else if c = 110 then 8 else 0

end Scn.Spec
