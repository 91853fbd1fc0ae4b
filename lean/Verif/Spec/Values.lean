import Verif.Spec.IntScan
import Verif.Spec.Sequence
import Verif.Spec.Float
import Verif.Model.Readers
/-
What boolean, character and pointer fields should read, and texts that show values. Only the
vocabulary (`Dest`, `Val`, `Pres`) is taken from the model.
-/
namespace Scn.Spec

/-- "true" and "false". -/
def trueWord : List Nat := [116, 114, 117, 101]
def falseWord : List Nat := [102, 97, 108, 115, 101]

/-- How a boolean may be written as text, and as a number. -/
def boolText : List (List Nat × Bool) := [(trueWord, true), (falseWord, false)]
def boolNumbers : List (List Nat × Bool) := [([48], false), ([49], true)]

/-- The documented spellings, by presentation (/repo/include/scn/scan.h:8385-8408): both without one,
    text with `s`, a number with an integer presentation. -/
def boolWords : Pres → List (List Nat × Bool)
  | .none => boolNumbers ++ boolText
  | .string => boolText
  | _ => boolNumbers

/-- The result `r` of reading `s` is the one of these words `s` begins with, and an error if it begins
    with none. -/
def ReadsWord (words : List (List Nat × Bool)) (s : List Nat) (r : Res (Bool × List Nat)) : Prop :=
  (∃ w b rest, (w, b) ∈ words ∧ s = w ++ rest ∧ r = .ok (b, rest)) ∨
    ((∀ w b, (w, b) ∈ words → ¬ w <+: s) ∧ r = .err .invalidScannedValue)

/-- `text` shows the value `v` of a destination `d`, if what follows satisfies the condition: integers in
    decimal, booleans as words, strings without whitespace, characters other than whitespace, addresses
    in hexadecimal with prefix, floating-point numbers in any notation that begins with a digit, and infinities. -/
inductive Shows (e : Enc) : Dest → Val → List Nat → (List Nat → Prop) → Prop where
  | int (T : IntTy) (ty : ArgTy) (x : Int) (hT : T.Std) (hx : InRange T x) :
      Shows e (.int T ty) (.int x) (intText 10 x) (NoDigitFirst 10)
  | bool (b : Bool) : Shows e .bool (.bool b) (if b then trueWord else falseWord) (fun _ => True)
  | string (t : List Nat) (ht : ∀ c ∈ t, IsScalar c ∧ isSpace c = false) (hne : t ≠ []) :
      Shows e (.string e) (.string (encodes e t)) t Breaks
  | char (c : Nat) (hc : c < 128) (hs : isSpace c = false) (he : e = .utf8) : Shows e .char (.char c) [c] (fun _ => True)
  | codePoint (c : Nat) (hc : IsScalar c) (hs : isSpace c = false) : Shows e .codePoint (.char c) [c] (fun _ => True)
  | pointer (a : Nat) (ha : a < 2 ^ 64) :
      Shows e .pointer (.pointer a) ([48, 120] ++ numeral 16 a) (NoDigitFirst 16)
  | view (t : List Nat) (ht : ∀ c ∈ t, IsScalar c ∧ isSpace c = false) (hne : t ≠ []) :
      Shows e (.view e false) (.string (encodes e t)) t Breaks
  | float (ty : ArgTy) (cv : FloatConv Nat) (seg : Bool) (round : List Nat → Rounded Nat) (hcv : ConvOk cv round) (sg t : List Nat) (v : Nat)
      (hsg : SignText sg) (ht : (∃ c cs, t = c :: cs ∧ IsDigit 10 c) ∨ InfText t) (hv : FloatMeans cv round .none t (.finite v)) :
      Shows e (.float ty cv seg) (.float (cv.copysign (decide (sg = [45])) v)) (sg ++ t)
        (fun rest => Longest (FloatText .none) (t ++ encodes e rest) t ∧ ¬ BarePrefix (t ++ encodes e rest))

/-- One entry of a record: literal text, then a value shown as text. -/
structure Entry where
  gap : List Nat
  dest : Dest
  val : Val
  text : List Nat
  follow : List Nat → Prop

/-- The record printed: the literal texts and the shown values in turn, then `tail`. -/
def printed (es : List Entry) (tail : List Nat) : List Nat := es.flatMap (fun x => x.gap ++ x.text) ++ tail

/-- Each value is followed by something its text cannot be confused with. -/
def WellSeparated : List Entry → List Nat → Prop
  | [], _ => True
  | x :: es, tail => x.follow (printed es tail) ∧ WellSeparated es tail

end Scn.Spec
