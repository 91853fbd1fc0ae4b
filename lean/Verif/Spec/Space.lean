import Verif.Model.Unicode
import Verif.Spec.Unicode
/-
Specification of whitespace search: on a source that encodes a code point sequence, the search
result is the encoding of the sequence from the first (non-)whitespace code point on.
-/
namespace Scn.Spec

/-- The encoding of a code point sequence in one of the three encodings. -/
def encode (e : Enc) (cp : Nat) : List Nat :=
  match e with
  | .utf8 => utf8 cp
  | .utf16 => utf16 cp
  | .utf32 => [cp]

def encodes (e : Enc) (cps : List Nat) : List Nat := cps.flatMap (encode e)

/-- Unicode Pattern_White_Space, as a test. -/
def isSpace (cp : Nat) : Bool := PatternWhiteSpace.contains cp

end Scn.Spec
