/-
Specification of Unicode encodings, written from the Unicode standard (D76, D90-D92,
table 3-6), independent of the model.
-/
namespace Scn.Spec

/-- Unicode scalar value. -/
def IsScalar (cp : Nat) : Prop := cp < 0x110000 ∧ ¬ (0xD800 ≤ cp ∧ cp ≤ 0xDFFF)

instance (cp : Nat) : Decidable (IsScalar cp) := by unfold IsScalar; infer_instance

/-- The UTF-8 encoding form. -/
def utf8 (cp : Nat) : List Nat :=
  if cp < 0x80 then [cp]
  else if cp < 0x800 then [0xC0 + cp / 64, 0x80 + cp % 64]
  else if cp < 0x10000 then [0xE0 + cp / 4096, 0x80 + cp / 64 % 64, 0x80 + cp % 64]
  else [0xF0 + cp / 262144, 0x80 + cp / 4096 % 64, 0x80 + cp / 64 % 64, 0x80 + cp % 64]

/-- The UTF-16 encoding form. -/
def utf16 (cp : Nat) : List Nat :=
  if cp < 0x10000 then [cp]
  else [0xD800 + (cp - 0x10000) / 1024, 0xDC00 + (cp - 0x10000) % 1024]

/-- Encoding of a code point sequence. -/
def utf8s (cps : List Nat) : List Nat := cps.flatMap utf8
def utf16s (cps : List Nat) : List Nat := cps.flatMap utf16

/-- Well-formed UTF-8: the encoding of some sequence of scalar values. -/
def WellFormed8 (s : List Nat) : Prop := ∃ cps, (∀ cp ∈ cps, IsScalar cp) ∧ s = utf8s cps

/-- Code points with the Unicode property Pattern_White_Space. -/
def PatternWhiteSpace : List Nat :=
  [0x09, 0x0A, 0x0B, 0x0C, 0x0D, 0x20, 0x85, 0x200E, 0x200F, 0x2028, 0x2029]

end Scn.Spec

namespace Scn.Spec

/-- The shape of one element of the byte strings the library's validation accepts: a lead
    byte, the number of continuation bytes it announces, and a value below 0x110000. Unlike a
    well-formed element it may be longer than necessary or denote a surrogate. -/
def LooseUnit (p : List Nat) : Prop :=
  match p with
  | [a] => a < 0x80
  | [a, b] => (0xC0 ≤ a ∧ a < 0xE0) ∧ (0x80 ≤ b ∧ b < 0xC0)
  | [a, b, c] => (0xE0 ≤ a ∧ a < 0xF0) ∧ (0x80 ≤ b ∧ b < 0xC0) ∧ (0x80 ≤ c ∧ c < 0xC0)
  | [a, b, c, d] => (0xF0 ≤ a ∧ a < 0xF5) ∧ (0x80 ≤ b ∧ b < 0xC0) ∧ (0x80 ≤ c ∧ c < 0xC0) ∧
      (0x80 ≤ d ∧ d < 0xC0) ∧ (a = 0xF4 → b < 0x90)
  | _ => False

/-- The value a loose element denotes: the payload bits, most significant first. -/
def looseValue (p : List Nat) : Nat :=
  match p with
  | [a] => a
  | [a, b] => (a - 0xC0) * 64 + (b - 0x80)
  | [a, b, c] => (a - 0xE0) * 4096 + (b - 0x80) * 64 + (c - 0x80)
  | [a, b, c, d] => (a - 0xF0) * 262144 + (b - 0x80) * 4096 + (c - 0x80) * 64 + (d - 0x80)
  | _ => 0

/-- Well-formed UTF-16: the encoding of some sequence of scalar values. -/
def WellFormed16 (s : List Nat) : Prop := ∃ cps, (∀ cp ∈ cps, IsScalar cp) ∧ s = utf16s cps

end Scn.Spec
