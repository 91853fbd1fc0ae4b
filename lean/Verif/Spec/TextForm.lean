import Verif.Spec.Texts
/-
Specification vocabulary: well-formed text.
-/
namespace Scn.Spec

/-- Well-formed text of an encoding: the encoding of some sequence of scalar values. -/
def WellFormedIn (e : Enc) (s : List Nat) : Prop := ∃ cps, (∀ cp ∈ cps, IsScalar cp) ∧ s = encodes e cps

/-- There is nowhere in the text what looks like a character but is none: in UTF-8 an encoding that is longer than necessary, or that of a surrogate; in
    UTF-32 a surrogate. -/
def NoImpostor (e : Enc) (s : List Nat) : Prop :=
  match e with
  | .utf8 => ∀ p, p <:+: s → LooseUnit p → IsScalar (looseValue p) ∧ p.length = (utf8 (looseValue p)).length
  | .utf16 => True
  | .utf32 => ∀ c ∈ s, ¬ (0xD800 ≤ c ∧ c ≤ 0xDFFF)

end Scn.Spec
