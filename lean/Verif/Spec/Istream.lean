import Verif.Model.Istream
/-
What an extractor does on a stream: a position in the source that `get` moves forward and `unget` moves back.
Only the vocabulary (`Extractor`) is taken from the model.
-/
namespace Scn.Spec
variable {α : Type}

/-- Run an extractor at a position: the characters before it (last first) and those after it. -/
def streamRun : Extractor α → List Nat → List Nat → Res (α × List Nat)
  | .done a, _, rest => .ok (a, rest)
  | .fail eof bad, _, _ => .err (if eof then .endOfInput else if bad then .invalidSourceState else .invalidScannedValue)
  | .peek k, before, rest => streamRun (k rest.head?) before rest
  | .get k, before, [] => streamRun (k none) before []
  | .get k, before, c :: cs => streamRun (k (some c)) (c :: before) cs
  | .unget k, [], rest => streamRun (k false) [] rest
  | .unget k, b :: before, rest => streamRun (k true) before (b :: rest)
  | .putback c k, before, rest =>
    match before with
    | [] => streamRun (k false) [] rest
    | b :: before => if b = c then streamRun (k true) before (b :: rest) else streamRun (k false) (b :: before) rest

/-- In its run the extractor puts back at most one character (`ungot`: it has done so already), by `unget`,
    not at the beginning, and not after having peeked at the next character (`peeked`). -/
def Polite : Extractor α → List Nat → List Nat → (ungot peeked : Bool) → Prop
  | .done _, _, _, _, _ => True
  | .fail _ _, _, _, _, _ => True
  | .peek k, before, [], u, p => Polite (k none) before [] u p
  | .peek k, before, c :: cs, u, _ => Polite (k (some c)) before (c :: cs) u true
  | .get k, before, [], u, p => Polite (k none) before [] u p
  | .get k, before, c :: cs, u, _ => Polite (k (some c)) (c :: before) cs u false
  | .unget _, [], _, _, _ => False
  | .unget k, b :: before, rest, u, p => u = false ∧ p = false ∧ Polite (k true) before (b :: rest) true false
  | .putback _ _, _, _, _, _ => False

end Scn.Spec
