import Verif.Spec.Calls
import Verif.Spec.Format
import Verif.Spec.Float
import Verif.Model.Readers
/-
Arguments, format strings and results that can be written in any encoding.
-/
namespace Scn.Spec

/-- The types of arguments there are for sources of any encoding. A string is of the encoding of the source. -/
inductive Common where
  | int (T : IntTy) (ty : ArgTy)
  | bool
  | codePoint
  | string
  | pointer
  | float (ty : ArgTy) (cv : FloatConv Nat)

/-- The destination in an encoding. -/
def Common.dest (e : Enc) : Common → Dest
  | .int T ty => .int T ty
  | .bool => .bool
  | .codePoint => .codePoint
  | .string => .string e
  | .pointer => .pointer
  | .float ty cv => .float ty cv false

/-- Integers of 8, 16, 32 and 64 bits; floating-point types with exact conversions. -/
def Common.Ok : Common → Prop
  | .int T ty => T.Std ∧ (ty.category = some .integer ∨ ty.category = some .unsignedInteger)
  | .float ty cv => ty.category = some .floating ∧ ∃ round, ConvOk cv round
  | _ => True

/-- A value, with its text as code points, in an encoding. -/
def inEnc (e : Enc) : Val → Val
  | .string t => .string (encodes e t)
  | v => v

/-- A field of a format string: the literal text before it, the number of its argument, and its specification. -/
structure CommonField where
  gap : List Nat
  id : Nat
  spec : Option Written

/-- The field in an encoding. -/
def CommonField.written (e : Enc) (x : CommonField) : CallField Val :=
  ⟨encodes e x.gap, x.id, x.spec.map (Written.render e), fun _ => .ub⟩

/-- The result of a call, in an encoding: what is left of the source or the error, and the values stored. -/
def resultIn (e : Enc) (r : Except Err (List Nat) × List (Nat × Val)) : Except Err (List Nat) × List (Nat × Val) :=
  (r.1.map (encodes e), r.2.map fun p => (p.1, inEnc e p.2))

end Scn.Spec
