import Verif.Spec.Padded
import Verif.Spec.DateRead
import Verif.Spec.Locale
import Verif.Spec.Calls
import Verif.Spec.Braces
import Verif.Model.DateArgs
/-
Lines of a log: literal texts, values and dates in turn.
-/
namespace Scn.Spec

/-- The format of a date: of conversions that do not depend on a locale, or one that does (`localeConversions`). -/
inductive DateFormat where
  | classic (is : List FmtItem)
  | localized (x f : List Nat) (fs : List ChronoField)

/-- Its text. -/
def DateFormat.text : DateFormat → List Nat
  | .classic is => formatText is
  | .localized x _ _ => 76 :: 37 :: x

/-- The source begins with (whitespace and) a date in the format; before `rest`. `old` is what the object held, `new` what it holds with the
    fields of the format set to those of the date. For `datetime_components` without `%y` and `%C`, and the day of the year is at most
    the seventh (C44, C45). -/
def ClassicDate (e : Enc) (gmtoff : Bool) (is : List FmtItem) (old new : DateVal) (src rest : List Nat) : Prop :=
  match old, new with
  | .tm t0, .tm t => ∃ c, c.Valid ∧ DateWritten e is c src rest ∧ t = setTm (fieldsOf (callsOf is)) c t0 ∧ (.tzoff ∈ fieldsOf (callsOf is) → gmtoff = true)
  | .tmWithTz t0, .tmWithTz t => ∃ c, c.Valid ∧ DateWritten e is c src rest ∧ t = setTmTz gmtoff (fieldsOf (callsOf is)) c t0
  | .components t0, .components t => ∃ c, c.Valid ∧ c.yday ≤ 7 ∧ .shortYear ∉ fieldsOf (callsOf is) ∧ .century ∉ fieldsOf (callsOf is) ∧
      DateWritten e is c src rest ∧ t = setDateTime (fieldsOf (callsOf is)) c t0
  | _, _ => False

/-- The fields `fs` are as the locale has read them, the others as they were. -/
def DateVal.Takes (fs : List ChronoField) (t : Tm) : DateVal → DateVal → Prop
  | .tm t0, .tm t1 => t1 = takeTm fs t t0
  | .tmWithTz t0, .tmWithTz t1 => t1 = { t0 with tm := takeTm fs t t0.tm }
  | .components t0, .components t1 => t1 = takeDt fs t t0
  | _, _ => False

/-- The source begins with (whitespace and) what the locale reads with the conversion `f`, before `rest`. -/
def LocalDate (e : Enc) (facet : List Nat → List Nat → Option (Tm × List Nat)) (f : List Nat) (fs : List ChronoField) (old new : DateVal)
    (src rest : List Nat) : Prop :=
  ∃ ws u t, src = ws ++ (u ++ rest) ∧ Spaces ws ∧ u ++ rest ≠ [] ∧ (u ++ rest).dropWhile isSpace = u ++ rest ∧
    facet (37 :: f) (encodes e (u ++ rest)) = some (t, encodes e rest) ∧ (∀ g ∈ fs, FieldInRange t g) ∧ DateVal.Takes fs t old new

/-- The source begins with a date; `facet` is what the locale of the call reads. -/
def DateShows (e : Enc) (gmtoff : Bool) (facet : List Nat → List Nat → Option (Tm × List Nat)) : DateFormat → DateVal → DateVal → List Nat → List Nat → Prop
  | .classic is => ClassicDate e gmtoff is
  | .localized _ f fs => LocalDate e facet f fs

/-- A part of a line: literal text, and a value in `{}` or `{:…}` as in C91, or a date and time. -/
inductive LogPart where
  | value (x : PrintedField)
  | date (gap : List Nat) (k : DateFormat) (old new : DateVal) (text : List Nat)

/-- The literal text before the field. -/
def LogPart.gap : LogPart → List Nat
  | .value x => x.gap
  | .date gap _ _ _ _ => gap

/-- What is printed for the field. -/
def LogPart.shown : LogPart → List Nat
  | .value x => x.shown
  | .date _ _ _ _ text => text

/-- The argument of the call. -/
def LogPart.arg : LogPart → Dest ⊕ DateVal
  | .value x => .inl x.dest
  | .date _ _ old _ _ => .inr old

/-- The value that is read. -/
def LogPart.val : LogPart → Val ⊕ DateVal
  | .value x => .inl x.val
  | .date _ _ _ new _ => .inr new

/-- The specification of the field. -/
def LogPart.spec (e : Enc) : LogPart → Option (List Nat)
  | .value x => x.spec.map fun w => w.render e
  | .date _ k _ _ _ => some k.text

/-- The line: the literal texts and what is shown in turn, then `tail`. -/
def logLine (ps : List LogPart) (tail : List Nat) : List Nat := ps.flatMap (fun p => p.gap ++ p.shown) ++ tail

/-- The format string: the literal texts with their braces doubled, and `{}`, `{:…}`, `{id}` or `{id:…}` for the fields. -/
def logFormat (e : Enc) (auto : Bool) (xs : List (Nat × LogPart)) (last : List Nat) : List Nat :=
  xs.flatMap (fun x => doubled (encodes e x.2.gap) ++
    123 :: ((if auto then [] else numeral 10 x.1) ++ (match x.2.spec e with | none => [] | some t => 58 :: t) ++ [125])) ++
  doubled (encodes e last)

/-- What follows a part cannot be confused with it, for all parts; the dates are shown in their formats. -/
def LogClear (e : Enc) (gmtoff : Bool) (facet : List Nat → List Nat → Option (Tm × List Nat)) : List LogPart → List Nat → Prop
  | [], _ => True
  | .value x :: ps, tail => x.Clear (logLine ps tail) ∧ LogClear e gmtoff facet ps tail
  | .date _ k old new text :: ps, tail => DateShows e gmtoff facet k old new (text ++ logLine ps tail) (logLine ps tail) ∧ LogClear e gmtoff facet ps tail

end Scn.Spec
