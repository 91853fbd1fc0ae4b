import Verif.Spec.Width
import Verif.Spec.Values
import Verif.Spec.Format
import Verif.Spec.Calls
import Verif.Spec.Types
/-
Values printed with padding, as `std::format` pads them, and when a field with the same specification should read them back.
-/
namespace Scn.Spec

/-- The fill character of a written specification. -/
def Written.fillChar (w : Written) : Nat := (w.align.bind Prod.fst).getD 32

/-- The side on which a written specification has fill characters skipped (`<`: after the value; `>`: before it; `^`: both). -/
def Written.side (w : Written) : Side :=
  match w.align with
  | none => .unspecified
  | some (_, a) => if a = 60 then .after else if a = 62 then .before else if a = 94 then .both else .unspecified

/-- The field of a written specification. -/
def Written.field (w : Written) : PaddedField := ⟨w.width.getD 0, w.precision.getD 0, w.side, w.fillChar⟩

/-- Without an alignment, numbers are printed at the right of their field and other values at the left
    ([format.string.std]). Booleans are numbers only with an integer presentation. -/
def rightByDefault : Dest → Option Nat → Bool
  | .int _ _, _ | .float _ _ _, _ | .pointer, _ => true
  | .bool, some c => c != 115
  | _, _ => false

/-- Characters are read without skipping whitespace before them. -/
def keepsSpace : Dest → Bool
  | .char | .wchar | .codePoint => true
  | _ => false

/-- What is printed before and after a text to make it as wide as the field: spaces on the default side without an alignment,
    or the fill on the other side of the alignment, or on both sides. -/
def PaddedField.fills (F : PaddedField) (right : Bool) (text : List Nat) : List Nat × List Nat :=
  let n := F.width - cols text
  match F.side with
  | .before => (List.replicate n F.fill, [])
  | .after => ([], List.replicate n F.fill)
  | .both => (List.replicate (n / 2) F.fill, List.replicate (n - n / 2) F.fill)
  | .unspecified => if right then (List.replicate n 32, []) else ([], List.replicate n 32)

/-- The text printed with its padding. -/
def PaddedField.pad (F : PaddedField) (right : Bool) (text : List Nat) : List Nat :=
  (F.fills right text).1 ++ (text ++ (F.fills right text).2)

/-- What the field may still look at of what follows the printed text: nothing, if the precision is used up. -/
def PaddedField.beyond (F : PaddedField) (right : Bool) (text tail : List Nat) : List Nat := F.view (cols (F.pad right text)) tail

/-- `text` shows the value `v` of a destination `d` in a field with the presentation `letter`, if what follows it satisfies the
    condition: integers in the base of the letter, booleans as words or numbers, strings (of type `s` up to a fill character, if
    there may be one after them; without whitespace otherwise), characters, addresses and floating-point numbers. -/
inductive ShownAs (e : Enc) (F : PaddedField) : Option Nat → Dest → Val → List Nat → (List Nat → Prop) → Prop where
  | int (T : IntTy) (ty : ArgTy) (letter : Option Nat) (b : Nat) (uo : Bool) (x : Int) (hT : T.Std)
      (hty : ty.category = some .integer ∨ ty.category = some .unsignedInteger)
      (hl : (letter.map intLetter).getD (some (10, false)) = some (b, uo)) (hb : b ≠ 0) (hx : InRange T x) (hu : uo = true → 0 ≤ x) :
      ShownAs e F letter (.int T ty) (.int x) (intText b x)
        (fun rest => NoDigitFirst b rest ∧ (x = 0 → b ≠ 10 → ∀ l, rest.head? = some l → l ∉ [98, 66, 111, 79, 120, 88]))
  | boolWord (letter : Option Nat) (b : Bool) (hl : letter = none ∨ letter = some 115) :
      ShownAs e F letter .bool (.bool b) (if b then trueWord else falseWord) (fun _ => True)
  | boolNumber (c : Nat) (b : Bool) (hl : ∃ x, intLetter c = some x) :
      ShownAs e F (some c) .bool (.bool b) (if b then [49] else [48]) (fun _ => True)
  | word (letter : Option Nat) (t : List Nat) (hl : letter = none ∨ letter = some 115) (hside : F.side = .before ∨ F.side = .unspecified)
      (ht : ∀ c ∈ t, IsScalar c ∧ isSpace c = false) (hne : t ≠ []) : ShownAs e F letter (.string e) (.string (encodes e t)) t Breaks
  | filled (t : List Nat) (hside : F.side = .after ∨ F.side = .both) (ht : ∀ c ∈ t, IsScalar c ∧ c ≠ F.fill) (hne : t ≠ []) :
      ShownAs e F (some 115) (.string e) (.string (encodes e t)) t (fun rest => ∀ c, rest.head? = some c → c = F.fill)
  | char (c : Nat) (hc : c < 128) (he : e = .utf8) :
      ShownAs e F none .char (.char c) [c] (fun _ => True)
  | codePoint (letter : Option Nat) (c : Nat) (hl : letter = none ∨ letter = some 99) (hc : IsScalar c) :
      ShownAs e F letter .codePoint (.char c) [c] (fun _ => True)
  | pointer (letter : Option Nat) (a : Nat) (hl : letter = none ∨ letter = some 112) (ha : a < 2 ^ 64) :
      ShownAs e F letter .pointer (.pointer a) ([48, 120] ++ numeral 16 a) (NoDigitFirst 16)
  | float (letter : Option Nat) (ty : ArgTy) (p : Pres) (cv : FloatConv Nat) (seg : Bool) (round : List Nat → Rounded Nat) (hcv : ConvOk cv round)
      (hty : ty.category = some .floating) (hl : letter = none ∧ p = .none ∨ ∃ c, letter = some c ∧ letterMeaning c = some p) (hp : FloatPres p)
      (sg t : List Nat) (v : Nat) (hsg : SignText sg) (ht : (∃ c cs, t = c :: cs ∧ IsDigit 10 c) ∨ InfText t)
      (hv : FloatMeans cv round p t (.finite v)) :
      ShownAs e F letter (.float ty cv seg) (.float (cv.copysign (decide (sg = [45])) v)) (sg ++ t)
        (fun rest => Longest (FloatText p) (t ++ encodes e rest) t ∧ ¬ BarePrefix (t ++ encodes e rest))

/-- Nothing around a printed text can be confused with it or its padding: the text does not begin with the fill that is skipped
    before it; what the field can see beyond the padding does not begin with the fill that is skipped after it; the whole is
    not wider than the precision; what follows the text satisfies its condition. Without an alignment, characters are not
    followed by further whitespace within the field, and words are not narrower than the field (C91_violated_…). -/
structure PaddedField.Clear (F : PaddedField) (right keeps : Bool) (text : List Nat) (follow : List Nat → Prop) (tail : List Nat) : Prop where
  first : F.side = .before ∨ F.side = .both → text.head? ≠ some F.fill
  beyond : F.side = .after ∨ F.side = .both → (F.beyond right text tail).head? ≠ some F.fill
  fits : F.precision = 0 ∨ cols (F.pad right text) ≤ F.precision
  follow : follow ((F.fills right text).2 ++ F.beyond right text tail)
  wide : F.side = .unspecified → right = false → keeps = false → F.width ≤ cols text
  still : F.side = .unspecified → keeps = true → F.unfinished (cols text) → ∀ c, (F.beyond right text tail).head? = some c → isSpace c = false

end Scn.Spec

namespace Scn.Spec

/-- One field of a record: literal text, then a value shown as text, in a default field or in one with a specification. -/
structure PrintedField where
  gap : List Nat
  spec : Option Written
  dest : Dest
  val : Val
  text : List Nat
  follow : List Nat → Prop

/-- The value as it is printed. -/
def PrintedField.shown (x : PrintedField) : List Nat :=
  match x.spec with
  | none => x.text
  | some w => w.field.pad (rightByDefault x.dest w.letter) x.text

/-- The record printed: the literal texts and the values in turn, then `tail`. -/
def printedRecord (es : List PrintedField) (tail : List Nat) : List Nat := es.flatMap (fun x => x.gap ++ x.shown) ++ tail

/-- The format string: the same literal texts, and `{}` or `{:…}` for the values. -/
def recordFormat (e : Enc) (es : List PrintedField) (last : List Nat) : List Nat :=
  es.flatMap (fun x => encodes e x.gap ++ 123 :: ((match x.spec with | none => [] | some w => 58 :: w.render e) ++ [125])) ++ encodes e last

/-- Nothing after the value, up to the end of the text, can be confused with it (see `PaddedField.Clear`). -/
def PrintedField.Clear (x : PrintedField) (tail : List Nat) : Prop :=
  match x.spec with
  | none => x.follow tail
  | some w => w.field.Clear (rightByDefault x.dest w.letter) (keepsSpace x.dest) x.text x.follow tail

/-- So for all the values. -/
def AllClear : List PrintedField → List Nat → Prop
  | [], _ => True
  | x :: es, tail => x.Clear (printedRecord es tail) ∧ AllClear es tail

end Scn.Spec
