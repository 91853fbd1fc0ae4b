import Verif.Spec.Numeral
import Verif.Model.IntReader
/-
Specification of integer scanning, stated on text and mathematical integers. Only the
vocabulary (`Res`, `Err`, `IntTy` = width and signedness) is taken from the model.
-/
namespace Scn.Spec

/-- `x` is representable in the integer type. -/
def InRange (T : IntTy) (x : Int) : Prop :=
  if T.signed then -(2 ^ (T.bits - 1) : Int) ≤ x ∧ x < 2 ^ (T.bits - 1)
  else 0 ≤ x ∧ x < 2 ^ T.bits

instance (T : IntTy) (x : Int) : Decidable (InRange T x) := by unfold InRange; infer_instance

/-- Maximal run of base-`b` digits at the start of the text. -/
def digitRun (b : Nat) (s : List Nat) : List Nat := s.takeWhile (fun c => decide (IsDigit b c))

/-- What follows the digit run. -/
def afterRun (b : Nat) (s : List Nat) : List Nat := s.dropWhile (fun c => decide (IsDigit b c))

/-- Scanning an integer: the maximal digit run denotes a number; it is stored if it fits,
    an overflow error is reported if it does not, and it is an error if there is none. -/
def scanDigits (T : IntTy) (neg : Bool) (b : Nat) (s : List Nat) : Res (Int × List Nat) :=
  if digitRun b s = [] then .err .invalidScannedValue
  else if InRange T (signed neg (value b (digitRun b s))) then
    .ok (signed neg (value b (digitRun b s)), afterRun b s)
  else .err (if neg then .valueNegativeOverflow else .valuePositiveOverflow)

/-- Number of base-`b` digits needed to write every 64-bit word. -/
def fullDigits (b : Nat) : Nat := ((List.range 65).find? (fun d => 2 ^ 64 ≤ b ^ d)).getD 0

/-- The numerals for which the library reports a wrapped value instead of an overflow: not
    longer than a full 64-bit word, with a wrapped value that again uses the full number
    of digits and fits the type. (The intended behaviour is that there are none.) -/
def Wraps (T : IntTy) (neg : Bool) (b V : Nat) : Prop :=
  V < b ^ fullDigits b ∧ b ^ (fullDigits b - 1) ≤ V % 2 ^ 64 ∧
    InRange T (signed neg (V % 2 ^ 64))

instance (T : IntTy) (neg : Bool) (b V : Nat) : Decidable (Wraps T neg b V) := by
  unfold Wraps; infer_instance

/-- As `scanDigits`, with the actual behaviour on numerals in `Wraps`. -/
def scanDigitsW (T : IntTy) (neg : Bool) (b : Nat) (s : List Nat) : Res (Int × List Nat) :=
  if digitRun b s = [] then .err .invalidScannedValue
  else if InRange T (signed neg (value b (digitRun b s))) then
    .ok (signed neg (value b (digitRun b s)), afterRun b s)
  else if Wraps T neg b (value b (digitRun b s)) then
    .ok (signed neg (value b (digitRun b s) % 2 ^ 64), afterRun b s)
  else .err (if neg then .valueNegativeOverflow else .valuePositiveOverflow)

/-- The text starts with '0', one of the two letters, and a digit of base `b`. -/
def HasPrefix (lo up b : Nat) : List Nat → Prop
  | c :: l :: d :: _ => c = 48 ∧ (l = lo ∨ l = up) ∧ IsDigit b d
  | _ => False

instance (lo up b : Nat) (s : List Nat) : Decidable (HasPrefix lo up b s) := by
  unfold HasPrefix; split <;> infer_instance

/-- Documented base prefix handling (/repo/include/scn/scan.h:8244-8300): which base is used
    and where its digits start, for text after the sign. A prefix counts only when a
    digit follows it. -/
def chooseBase (base : Nat) (t : List Nat) : Nat × List Nat :=
  if base = 16 then (16, if HasPrefix 120 88 16 t then t.drop 2 else t)
  else if base = 2 then (2, if HasPrefix 98 66 2 t then t.drop 2 else t)
  else if base = 8 then (8, if HasPrefix 111 79 8 t then t.drop 2 else t)
  else if base = 0 then
    if HasPrefix 120 88 16 t then (16, t.drop 2)
    else if HasPrefix 98 66 2 t then (2, t.drop 2)
    else if HasPrefix 111 79 8 t then (8, t.drop 2)
    else if t.head? = some 48 then (8, t)
    else (10, t)
  else (base, t)

/-- The text after an optional sign. -/
def afterSign : List Nat → List Nat
  | [] => []
  | c :: cs => if c = 45 ∨ c = 43 then cs else c :: cs

/-- Text of an integer in base `b`: '-' for negative numbers, then the numeral. -/
def intText (b : Nat) (x : Int) : List Nat :=
  (if x < 0 then [45] else []) ++ numeral b x.natAbs

end Scn.Spec

namespace Scn.Spec

/-- Scanning a signed integer with optional base prefix from text without leading
    whitespace: empty input, sign, forbidden '-', prefix, digits. -/
def scanInt (T : IntTy) (base : Nat) (unsignedOnly : Bool) (s : List Nat) : Res (Int × List Nat) :=
  match s with
  | [] => .err .endOfInput
  | c :: cs =>
    let neg : Bool := c == 45
    let t := if c = 45 ∨ c = 43 then cs else c :: cs
    if neg ∧ (T.signed = false ∨ unsignedOnly) then .err .invalidScannedValue
    else scanDigits T neg (chooseBase base t).1 (chooseBase base t).2

/-- As `scanInt`, with the actual behaviour on numerals in `Wraps`. -/
def scanIntW (T : IntTy) (base : Nat) (unsignedOnly : Bool) (s : List Nat) :
    Res (Int × List Nat) :=
  match s with
  | [] => .err .endOfInput
  | c :: cs =>
    let neg : Bool := c == 45
    let t := if c = 45 ∨ c = 43 then cs else c :: cs
    if neg ∧ (T.signed = false ∨ unsignedOnly) then .err .invalidScannedValue
    else scanDigitsW T neg (chooseBase base t).1 (chooseBase base t).2

end Scn.Spec

namespace Scn.Spec

/-- Maximal run of digits and separators. -/
def sepRun (sep b : Nat) (s : List Nat) : List Nat :=
  s.takeWhile (fun c => decide (c = sep ∨ IsDigit b c))

/-- What follows the run of digits and separators. -/
def afterSepRun (sep b : Nat) (s : List Nat) : List Nat :=
  s.dropWhile (fun c => decide (c = sep ∨ IsDigit b c))

/-- Scanning digits with a thousands separator: the separators of the run are ignored. -/
def scanSepW (T : IntTy) (neg : Bool) (b sep : Nat) (s : List Nat) : Res (Int × List Nat) :=
  (scanDigitsW T neg b ((sepRun sep b s).filter (fun c => c ≠ sep))).map
    fun r => (r.1, afterSepRun sep b s)

end Scn.Spec
