import Verif.Spec.Sequence
import Verif.Spec.Numeral
import Verif.Spec.Unicode
import Verif.Spec.Space
/-
What a scan call with any fields should do, with or without specifications, numbered automatically or by hand: one step
after the other.
-/
namespace Scn.Spec
variable {V : Type}

/-- A field of a format string: the literal text before it, the argument it is for, the text of its specification, if there
    is one, and how the argument is then to be read. -/
structure CallField (V : Type) where
  gap : List Nat
  id : Nat
  spec : Option (List Nat)
  read : List Nat → Res (V × List Nat)

/-- A field is written `{}`, `{:spec}`, `{id}` or `{id:spec}`. -/
def CallField.text (auto : Bool) (f : CallField V) : List Nat :=
  123 :: ((if auto then [] else numeral 10 f.id) ++ (match f.spec with | none => [] | some t => 58 :: t) ++ [125])

/-- The format string. -/
def callFormat (auto : Bool) (fs : List (CallField V)) (last : List Nat) : List Nat :=
  fs.flatMap (fun f => f.gap ++ f.text auto) ++ last

/-- Left to right: match the literal text (by `lit`), read the argument, and so on, each step starting where the previous
    one ended; stop at the first failure. The values, with their arguments, and the rest. -/
def inOrder (lit : List Nat → List Nat → Res (List Nat)) : List (CallField V) → List Nat → List Nat → Res (List (Nat × V) × List Nat)
  | [], last, s => (lit last s).map fun r => ([], r)
  | f :: fs, last, s =>
    (lit f.gap s).bind fun s1 => (f.read s1).bind fun r =>
      (inOrder lit fs last r.2).map fun q => ((f.id, r.1) :: q.1, q.2)

/-- The values stored before the first failure, if any. -/
def readBefore (lit : List Nat → List Nat → Res (List Nat)) : List (CallField V) → List Nat → List (Nat × V)
  | [], _ => []
  | f :: fs, s =>
    match (lit f.gap s).bind f.read with
    | .ok r => (f.id, r.1) :: readBefore lit fs r.2
    | _ => []

/-- The number of fields reached: those before the first failure, and the one at or right before which it happens. -/
def reached (lit : List Nat → List Nat → Res (List Nat)) : List (CallField V) → List Nat → Nat
  | [], _ => 0
  | f :: fs, s =>
    match (lit f.gap s).bind f.read with
    | .ok r => reached lit fs r.2 + 1
    | _ => 1

/-- The fields are for all the arguments, each once; with automatic numbering, in order. -/
structure Numbered (auto : Bool) (ids : List Nat) (count : Nat) : Prop where
  nodup : ids.Nodup
  all : ids.length = count
  below : ∀ i ∈ ids, i < count
  ordered : auto = true → ids = List.range count

/-- Reading a text (as code points) by `rd` after the whitespace in front of it; nothing else is the end of the input. -/
def afterSpaces (e : Enc) (rd : List Nat → Res (V × List Nat)) (cps : List Nat) : Res (V × List Nat) :=
  if cps.dropWhile isSpace = [] then .err .endOfInput else rd (encodes e (cps.dropWhile isSpace))

/-- What the presentation letters mean for an integer (/repo/include/scn/scan.h:8244-8300): the base (0: by prefix), and
    whether a minus sign is refused. -/
def intLetter : Nat → Option (Nat × Bool)
  | 98 | 66 => some (2, false)
  | 111 => some (8, false)
  | 120 | 88 => some (16, false)
  | 100 => some (10, false)
  | 117 => some (10, true)
  | 105 => some (0, false)
  | _ => none

/-- The fields of the second of two calls, as fields of one call for the arguments of both: the first call has `c` arguments and
    its format string ends in the literal text `tail`. -/
def laterFields (tail : List Nat) (c : Nat) : List (CallField V) → List (CallField V)
  | [] => []
  | f :: fs => { f with gap := tail ++ f.gap, id := c + f.id } :: fs.map fun f => { f with id := c + f.id }

/-- The literal text with which the format strings of both calls, one after the other, end. -/
def laterLast (tail : List Nat) (fs : List (CallField V)) (last : List Nat) : List Nat :=
  match fs with
  | [] => tail ++ last
  | _ :: _ => last

/-- The literal text with which a format string begins. -/
def firstText (fs : List (CallField V)) (last : List Nat) : List Nat :=
  match fs with
  | [] => last
  | f :: _ => f.gap

/-- Values for the arguments of the second call, as values for the arguments of both. -/
def laterValues (c : Nat) (vs : List (Nat × V)) : List (Nat × V) := vs.map fun v => (c + v.1, v.2)

end Scn.Spec
