import Verif.Spec.Values
import Verif.Model.Ranges
/-
Texts that show sequences and tuples. Only the vocabulary (`Res`, `Enc`) is taken from the model.
-/
namespace Scn.Spec
variable {V : Type}

/-- Whenever what comes next satisfies `follow`, the scanner `rd` reads `text` as the value `v`, and leaves the
    position right after it (possibly after whitespace that follows it, too). -/
def ReadsAs (e : Enc) (rd : List Nat → Res (V × List Nat)) (v : V) (text : List Nat) (follow : List Nat → Prop) : Prop :=
  ∀ rest, (∀ c ∈ rest, IsScalar c) → follow rest →
    ∃ p, rd (encodes e (text ++ rest)) = .ok (v, encodes e p) ∧ (∀ c ∈ p, IsScalar c) ∧
      p.dropWhile isSpace = rest.dropWhile isSpace

/-- A bracket or a separator: begins with an ASCII character other than whitespace. -/
def Token (t : List Nat) : Prop := ∃ c r, t = c :: r ∧ c < 128 ∧ isSpace c = false ∧ ∀ x ∈ r, IsScalar x

def Spaces (s : List Nat) : Prop := ∀ c ∈ s, IsScalar c ∧ isSpace c = true

/-- An element: its text (whitespace in front included), its value, what may follow it, and the whitespace
    after it. -/
structure Item (V : Type) where
  text : List Nat
  val : V
  follow : List Nat → Prop
  after : List Nat

/-- Apart from whitespace the text begins with a character other than that of the token. -/
def StartsUnlike (t text : List Nat) : Prop :=
  ∃ ws c r, text = ws ++ c :: r ∧ (∀ x ∈ ws, isSpace x = true) ∧ isSpace c = false ∧ t.head? ≠ some c

/-- The items after the first, each with the separator in front. -/
def moreItems (sep : List Nat) (xs : List (Item V)) : List Nat := xs.flatMap fun x => sep ++ (x.text ++ x.after)

/-- The items with separators in between; `gap` if there are none. -/
def itemsText (sep gap : List Nat) : List (Item V) → List Nat
  | [] => gap
  | x :: xs => x.text ++ (x.after ++ moreItems sep xs)

/-- Each item is followed by something its text cannot be confused with. -/
def ItemsFollow (sep : List Nat) : List (Item V) → List Nat → Prop
  | [], _ => True
  | x :: xs, tail => x.follow (x.after ++ (moreItems sep xs ++ tail)) ∧ ItemsFollow sep xs tail

/-- Whitespace is skipped before values of this type. -/
def skipsSpaces : Dest → Bool
  | .int _ _ | .bool | .string _ | .pointer | .view _ _ | .float _ _ _ => true
  | _ => false

/-- An integer destination has an integer type, and a floating-point destination a floating-point type. -/
def IntType (d : Dest) : Prop :=
  (∀ ty cv seg, d = .float ty cv seg → ty ∈ [ArgTy.float, .double, .ldouble]) ∧
  ∀ T ty, d = .int T ty → ty ∈ [ArgTy.schar, .short, .int, .long, .llong, .uchar, .ushort, .uint, .ulong, .ullong]

end Scn.Spec
