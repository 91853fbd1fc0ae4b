import Verif.Spec.Space
/-
What fields with a width, a precision, an alignment and a fill character should read, stated over
code points.
-/
namespace Scn.Spec

/-- The blocks of code points two columns wide (everything else is one column). -/
def wideBlocks : List (Nat × Nat) :=
  [(0x1100, 0x115f), (0x2329, 0x232a), (0x2e80, 0x303e), (0x3040, 0xa4cf), (0xac00, 0xd7a3), (0xf900, 0xfaff),
   (0xfe10, 0xfe19), (0xfe30, 0xfe6f), (0xff00, 0xff60), (0xffe0, 0xffe6), (0x1f300, 0x1f64f), (0x1f900, 0x1f9ff),
   (0x20000, 0x2fffd), (0x30000, 0x3fffd)]

/-- Columns of a code point. -/
def columns (cp : Nat) : Nat := if wideBlocks.any fun b => b.1 ≤ cp && cp ≤ b.2 then 2 else 1

/-- Columns of a text. -/
def cols (cps : List Nat) : Nat := (cps.map columns).sum

/-- The longest prefix of a text of at most `n` columns. -/
def fit : Nat → List Nat → List Nat
  | _, [] => []
  | n, c :: cs => if columns c ≤ n then c :: fit (n - columns c) cs else []

/-- Alignment of a field, as documented: on which side fill characters are skipped. -/
inductive Side where
  | unspecified | after | before | both
  deriving DecidableEq, Repr

/-- A field: minimum columns (0: no minimum), maximum columns (0: no maximum), where fill is skipped
    and which character fill is. -/
structure PaddedField where
  width : Nat
  precision : Nat
  side : Side
  fill : Nat

/-- What a field may look at when it has used up `used` columns. -/
def PaddedField.view (F : PaddedField) (used : Nat) (cps : List Nat) : List Nat :=
  if F.precision = 0 then cps else fit (F.precision - used) cps

/-- What is skipped before the value. -/
def PaddedField.before (F : PaddedField) (skipWs : Bool) (cps : List Nat) : List Nat :=
  match F.side with
  | .before | .both => (F.view 0 cps).takeWhile (· == F.fill)
  | .after => []
  | .unspecified => if skipWs then (F.view 0 cps).takeWhile isSpace else []

/-- The field may still take characters after its value. -/
def PaddedField.unfinished (F : PaddedField) (used : Nat) : Prop :=
  (F.width ≠ 0 ∧ used < F.width) ∨ (F.precision ≠ 0 ∧ used < F.precision)

instance (F : PaddedField) (used : Nat) : Decidable (F.unfinished used) := by unfold PaddedField.unfinished; infer_instance

/-- What is skipped after the value. -/
def PaddedField.after (F : PaddedField) (skipWs : Bool) (used : Nat) (cps : List Nat) : List Nat :=
  match F.side with
  | .after | .both => (F.view used cps).takeWhile (· == F.fill)
  | .before => []
  | .unspecified =>
    if ! skipWs ∧ F.unfinished used then (F.view used cps).takeWhile isSpace else []

/-- Reading a field with a reader of values (which gets what the field may look at, and returns the
    value with what it leaves of that). -/
def PaddedField.read {V : Type} (F : PaddedField) (skipWs : Bool) (rd : List Nat → Res (V × List Nat)) (cps : List Nat) :
    Res (V × List Nat) :=
  let pre := F.before skipWs cps
  if F.side = .unspecified ∧ skipWs = true ∧ pre = F.view 0 cps then .err .endOfInput
  else if F.precision ≠ 0 ∧ F.precision ≤ cols pre then .err .invalidFill
  else
    let cps1 := cps.drop pre.length
    let view := F.view (cols pre) cps1
    (rd view).bind fun r =>
      let val := view.take (view.length - r.2.length)
      let cps2 := cps1.drop val.length
      let post := F.after skipWs (cols pre + cols val) cps2
      if cols pre + cols val + cols post < F.width then .err .lengthTooShort
      else .ok (r.1, cps2.drop post.length)

end Scn.Spec
