import Verif.Spec.Space
/-
Specification of character sets `[...]`: what is written, and which characters it denotes
(documentation of the `[` type, /repo/include/scn/scan.h:8222-8232). A set lists characters and
inclusive ranges; `[^` denotes the others, and a `]` directly after `[^` is listed.
-/
namespace Scn.Spec

/-- One listed item. -/
inductive SetItem where
  | one (c : Nat)
  | range (a b : Nat)
  deriving DecidableEq, Repr

/-- The characters of an item. -/
def SetItem.has : SetItem → Nat → Bool
  | .one c, x => x == c
  | .range a b, x => a ≤ x && x ≤ b

/-- The first character of an item as written. -/
def SetItem.start : SetItem → Nat
  | .one c => c
  | .range a _ => a

def SetItem.text (e : Enc) : SetItem → List Nat
  | .one c => encode e c
  | .range a b => encode e a ++ 45 :: encode e b

/-- A set as written: `bracket` is the `]` directly after `[^`. -/
structure SetText where
  inverted : Bool
  bracket : Bool
  items : List SetItem
  deriving DecidableEq, Repr

def SetText.opening (t : SetText) : List Nat :=
  91 :: ((if t.inverted then [94] else []) ++ if t.bracket then [93] else [])

def SetText.text (t : SetText) (e : Enc) : List Nat :=
  t.opening ++ (t.items.flatMap (SetItem.text e) ++ [93])

/-- The characters listed, and those denoted. -/
def SetText.listed (t : SetText) (x : Nat) : Bool := (t.bracket && x == 93) || t.items.any (·.has x)
def SetText.denotes (t : SetText) (x : Nat) : Bool := t.listed x != t.inverted

/-- Items that can be written: characters, not starting with `]`; ranges in order, not ending in
    `]` (that would close the set). -/
def SetItem.Ok : SetItem → Prop
  | .one c => IsScalar c ∧ c ≠ 93
  | .range a b => IsScalar a ∧ IsScalar b ∧ a ≠ 93 ∧ b ≠ 93 ∧ a ≤ b

/-- No single character is followed by an item starting with `-` (the three would be read as a
    range), except by a `-` at the very end. -/
def Separated : List SetItem → Prop
  | .one _ :: x :: rest => (x.start = 45 → x = .one 45 ∧ rest = []) ∧ Separated (x :: rest)
  | _ :: rest => Separated rest
  | [] => True

/-- A set is unambiguously written. -/
structure SetText.Ok (t : SetText) : Prop where
  items : ∀ i ∈ t.items, i.Ok
  separated : Separated t.items
  bracket : t.bracket = true → t.inverted = true
  nonempty : t.bracket = true ∨ t.items ≠ []
  caret : t.inverted = false → ∀ i, t.items.head? = some i → i.start ≠ 94

end Scn.Spec
