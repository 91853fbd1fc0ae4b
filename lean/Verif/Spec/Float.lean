import Verif.Model.Float
import Verif.Spec.Numeral
/-
What the texts of floating-point numbers are, and what the conversions of them do, per ISO C 7.24.1.5 (`strtod`) and ISO
C++ [charconv.from.chars]. From the model only the names of options and conversions are taken.
-/
namespace Scn.Spec

/-- Digits with a point before, between or after them, or none. -/
def Significand (base : Nat) (t : List Nat) : Prop :=
  ∃ i f, t = i ++ f ∧ (∀ c ∈ i, IsDigit base c) ∧ (f = [] ∨ ∃ ds, f = 46 :: ds ∧ ∀ c ∈ ds, IsDigit base c) ∧ (i ≠ [] ∨ 2 ≤ f.length)

/-- The same with the thousands separator and the decimal point of a locale: separators are among the digits before the point. -/
def LocSignificand (loc : FloatLoc) (base : Nat) (t : List Nat) : Prop :=
  ∃ i f, t = i ++ f ∧ (∀ c ∈ i, IsDigit base c ∨ (loc.sep ≠ 0 ∧ c = loc.sep)) ∧ (f = [] ∨ ∃ ds, f = loc.point :: ds ∧ ∀ c ∈ ds, IsDigit base c) ∧
    (i ≠ [] ∨ 2 ≤ f.length)

/-- A letter, a sign or none, and decimal digits. -/
def Exponent (letters t : List Nat) : Prop :=
  ∃ c sg ds, t = c :: (sg ++ ds) ∧ c ∈ letters ∧ (sg = [] ∨ sg = [43] ∨ sg = [45]) ∧ ds ≠ [] ∧ ∀ d ∈ ds, IsDigit 10 d

/-- A decimal number without a sign: without an exponent, if `fixed`, or with one, if `sci`. -/
def DecText (fixed sci : Bool) (t : List Nat) : Prop :=
  ∃ m x, t = m ++ x ∧ Significand 10 m ∧ (x = [] ∧ fixed = true ∨ sci = true ∧ Exponent [101, 69] x)

/-- The same with the separator and the point of a locale. -/
def LocDecText (loc : FloatLoc) (fixed sci : Bool) (t : List Nat) : Prop :=
  ∃ m x, t = m ++ x ∧ LocSignificand loc 10 m ∧ (x = [] ∧ fixed = true ∨ sci = true ∧ Exponent [101, 69] x)

/-- A text with the separator and the point of a locale, without and with `.` for them. -/
def delocalize (loc : FloatLoc) (t : List Nat) : List Nat :=
  (t.filter fun c => !(loc.sep != 0 && c == loc.sep)).map fun c => if c = loc.point then 46 else c

/-- The separator and the point are no parts of other numbers, nor are they the same; and the separator is not `.`. -/
def LocOk (loc : FloatLoc) : Prop :=
  (¬ IsDigit 10 loc.point ∧ loc.point ∉ [101, 69, 43, 45]) ∧
    (loc.sep ≠ 0 → ¬ IsDigit 10 loc.sep ∧ loc.sep ∉ [101, 69, 43, 45] ∧ loc.sep ≠ loc.point ∧ loc.sep ≠ 46)

/-- A hexadecimal number without a sign and without a prefix. -/
def HexText (t : List Nat) : Prop := ∃ m x, t = m ++ x ∧ Significand 16 m ∧ (x = [] ∨ Exponent [112, 80] x)

/-- A hexadecimal number with a prefix. -/
def PrefixedHex (t : List Nat) : Prop := ∃ x h, t = 48 :: x :: h ∧ (x = 120 ∨ x = 88) ∧ HexText h

/-- Lower case, of the Latin letters. -/
def lower (c : Nat) : Nat := if 65 ≤ c ∧ c ≤ 90 then c + 32 else c

/-- `inf` or `infinity`, in any case. -/
def InfText (t : List Nat) : Prop := t.map lower = [105, 110, 102] ∨ t.map lower = [105, 110, 102, 105, 110, 105, 116, 121]

/-- Letters, digits and underscores. -/
def IsWordChar (c : Nat) : Prop := (48 ≤ c ∧ c ≤ 57) ∨ (65 ≤ c ∧ c ≤ 90) ∨ (97 ≤ c ∧ c ≤ 122) ∨ c = 95

/-- `nan` in any case, or that and a payload in parentheses. -/
def NanText (t : List Nat) : Prop :=
  ∃ a p, t = a ++ p ∧ a.map lower = [110, 97, 110] ∧ (p = [] ∨ ∃ q, p = 40 :: (q ++ [41]) ∧ ∀ c ∈ q, IsWordChar c)

/-- The texts of finite numbers without a sign, by presentation, as documented at /repo/include/scn/scan.h:8339-8384: hexadecimal
    numbers, with or without a prefix; numbers with an exponent; numbers without; both; both and hexadecimal ones, with a
    prefix. -/
def NumberText : Pres → List Nat → Prop
  | .floatHex, t => PrefixedHex t ∨ HexText t
  | .floatScientific, t => DecText false true t
  | .floatFixed, t => DecText true false t
  | .floatGeneral, t => DecText true true t
  | .none, t => DecText true true t ∨ PrefixedHex t
  | _, _ => False

/-- The decimal numbers with the separator and the point of a locale, by presentation. -/
def LocNumberText (loc : FloatLoc) : Pres → List Nat → Prop
  | .floatScientific, t => LocDecText loc false true t
  | .floatFixed, t => LocDecText loc true false t
  | .floatGeneral, t => LocDecText loc true true t
  | .none, t => LocDecText loc true true t
  | _, _ => False

/-- The texts without a sign, by presentation: infinities and NaNs are in all of them. -/
def FloatText (ty : Pres) (t : List Nat) : Prop := InfText t ∨ NanText t ∨ NumberText ty t

/-- The presentations for floating-point numbers. -/
def FloatPres (ty : Pres) : Prop := ty = .none ∨ ty = .floatHex ∨ ty = .floatScientific ∨ ty = .floatFixed ∨ ty = .floatGeneral

/-- The text that says which number it is whatever the presentation: hexadecimal numbers get a prefix. -/
def NumberMeans (ty : Pres) (t t' : List Nat) : Prop := t' = t ∧ (ty = .floatHex → PrefixedHex t) ∨ ty = .floatHex ∧ HexText t ∧ t' = 48 :: 120 :: t

/-- The longest beginning of a text that has a property. -/
def Longest (P : List Nat → Prop) (s p : List Nat) : Prop := P p ∧ p <+: s ∧ ∀ q, P q → q <+: s → q.length ≤ p.length

/-- What a number in a text is, rounded to a type: a number of the type, or too large, or too small to be distinguished from
    0 though it is not 0. -/
inductive Rounded (V : Type) where
  | finite (v : V)
  | tooLarge
  | tooSmall

/-- The texts of numbers for `strtod`, except infinities and NaNs. -/
def StrtodText (t : List Nat) : Prop := DecText true true t ∨ PrefixedHex t

/-- The conversions, on texts that begin with a decimal digit: they read the longest beginning that is a number, and give what
    that is (`round`). `fast_float::from_chars` may also leave the conversion to others. `0x0` is `0`. -/
structure ConvOk {V : Type} (cv : FloatConv V) (round : List Nat → Rounded V) : Prop where
  fast : ∀ fixed sci c cs p, IsDigit 10 c → Longest (DecText fixed sci) (c :: cs) p →
    cv.fast fixed sci (c :: cs) = .outOfRange ∨ ∃ v, round p = .finite v ∧ cv.fast fixed sci (c :: cs) = .ok v p.length
  fastNone : ∀ fixed sci c cs, IsDigit 10 c → (∀ p, DecText fixed sci p → ¬ p <+: c :: cs) → cv.fast fixed sci (c :: cs) = .invalid
  strtod : ∀ c cs p, IsDigit 10 c → Longest StrtodText (c :: cs) p → (cv.strtod (c :: cs)).read = p.length ∧
    match round p with
    | .finite v => (cv.strtod (c :: cs)).value = v ∧ cv.isInf v = false ∧ (cv.isZero v = true → (cv.strtod (c :: cs)).erange = false)
    | .tooLarge => cv.isInf (cv.strtod (c :: cs)).value = true ∧ cv.isZero (cv.strtod (c :: cs)).value = false
    | .tooSmall => cv.isZero (cv.strtod (c :: cs)).value = true ∧ (cv.strtod (c :: cs)).erange = true
  zero : round [48, 120, 48] = round [48]

/-- The value of a text without a sign. -/
def FloatMeans {V : Type} (cv : FloatConv V) (round : List Nat → Rounded V) (ty : Pres) (t : List Nat) (r : Rounded V) : Prop :=
  InfText t ∧ r = .finite cv.inf ∨ NanText t ∧ r = .finite cv.nan ∨ NumberText ty t ∧ ∃ t', NumberMeans ty t t' ∧ r = round t'

/-- What a scan gives for a value: the value with the sign and the rest, or the error for it. -/
def scanned {V : Type} (cv : FloatConv V) (sg rest : List Nat) : Rounded V → Res (V × List Nat)
  | .finite v => .ok (cv.copysign (decide (sg = [45])) v, rest)
  | .tooLarge => .err (if sg = [45] then .valueNegativeOverflow else .valuePositiveOverflow)
  | .tooSmall => .err (if sg = [45] then .valueNegativeUnderflow else .valuePositiveUnderflow)

/-- `0x` and no hexadecimal digit after it. -/
def BarePrefix (s : List Nat) : Prop := ∃ x r, s = 48 :: x :: r ∧ (x = 120 ∨ x = 88) ∧ ∀ d ds, r = d :: ds → ¬ IsDigit 16 d

/-- A sign or none. -/
def SignText (t : List Nat) : Prop := t = [] ∨ t = [43] ∨ t = [45]

end Scn.Spec
