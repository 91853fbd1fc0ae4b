import Verif.Spec.Space
/-
Specification of what a text denotes, for texts that need not be well-formed. Independent of the
model (of which it uses the names of the encodings).
-/
namespace Scn.Spec

/-- Code units of an encoding. -/
def Units (e : Enc) (s : List Nat) : Prop :=
  match e with
  | .utf8 => ∀ c ∈ s, c < 256
  | .utf16 => ∀ c ∈ s, c < 65536
  | .utf32 => True

/-- `p` is one element of a text, and its value is `cp`. In UTF-8 an element may be longer than necessary, and denote
    a surrogate (`C14_violated`); in UTF-32 it may be a surrogate. -/
def Element (e : Enc) (p : List Nat) (cp : Nat) : Prop :=
  match e with
  | .utf8 => LooseUnit p ∧ looseValue p = cp
  | .utf16 => IsScalar cp ∧ p = utf16 cp
  | .utf32 => p = [cp] ∧ cp < 0x110000

/-- The text `s` consists of elements with the values `cps`. -/
inductive Denotes (e : Enc) : List Nat → List Nat → Prop where
  | nil : Denotes e [] []
  | cons {p s : List Nat} {cp : Nat} {cps : List Nat} (h : Element e p cp) (hs : Denotes e s cps) : Denotes e (p ++ s) (cp :: cps)

/-- `v` is the text `s` of encoding `e` in the encoding `dst`. -/
def Transcribed (e dst : Enc) (s v : List Nat) : Prop :=
  ∃ cps, Denotes e s cps ∧ if e = dst then v = s else v = encodes dst cps

/-- The value is a part of the source, in the encoding of the destination; except in UTF-16, if there are characters above
    U+FFFF (`C15_wide16_violated`). -/
def PartOf (e dst : Enc) (s rest v : List Nat) : Prop :=
  ∃ pre mid post, s = pre ++ mid ++ post ∧ rest <:+ post ∧
    (Transcribed e dst mid v ∨ (dst = .utf16 ∧ e ≠ .utf16 ∧ ∃ cps, Denotes e mid cps ∧ ∃ cp ∈ cps, 0x10000 ≤ cp))

end Scn.Spec
