import Verif.Model.Expected
/-
What is said of an `expected` in C95, C96 and C97.
-/
namespace Scn.Spec

variable {V E A : Type}

/-- An `expected` that holds a value (`inl`) or an error (`inr`): just this object is alive, it is the one that the flag tells, and
    no object was lost. -/
def Holds (s : ExpStorage V E) (c : V ⊕ E) : Prop := s.live = some c ∧ s.hasValue = c.isLeft ∧ s.lost = []

/-- What is made from or assigned from an object has its value. -/
def Faithful (f : ExpFrom A) (a : A) : Prop := (∀ b, f.made = some b → b = a) ∧ ∀ o w, f.assign o = (w, false) → w = a

/-- Copies and moves have the value of the object, and throw only if the type says so. -/
structure ObjOk (t : ObjTy A) : Prop where
  copy : ∀ a, Faithful (t.copy a) a
  move : ∀ a, Faithful (t.move a) a
  nothrowCopy : t.nothrowCopy = true → ∀ a, (t.copy a).made ≠ none
  nothrowMove : t.nothrowMove = true → ∀ a, (t.move a).made ≠ none
  trivialCopy : t.trivialCopy = true → t.trivial = true ∧ t.nothrowCopy = true ∧ t.nothrowMove = true

/-- The outcome of a constructor: an `expected` that holds what it should, or an exception and nothing that is alive or lost. -/
def Created (o : ExpOut (ExpStorage V E)) (P : V ⊕ E → Prop) : Prop :=
  (∃ s c, o = .ok s ∧ Holds s c ∧ P c) ∨ ∃ s, o = .threw s ∧ s.live = none ∧ s.lost = []

/-- The outcome of an operation: an `expected` that holds something, whether there was an exception or not, unless the program
    is terminated. -/
def Kept (o : ExpOut (ExpStorage V E)) : Prop :=
  o = .terminated ∨ ∃ s c, (o = .ok s ∨ o = .threw s) ∧ Holds s c

/-- Operations that make their objects without exceptions where the code relies on it, and that are compiled. -/
def Mild (t : ExpTypes V E) : ExpOp V E → Prop
  | .assign mv other => (∃ c, Holds other c) ∧ (mv = true ∨ t.value.nothrowCopy = true ∨ t.value.nothrowMove = true ∨ t.trivialCopy = true)
  | .value f nothrow => nothrow = true → f.made ≠ none
  | .error f => f.made ≠ none
  | .emplace made nothrow => nothrow = true ∧ made ≠ none

/-- What an `expected` should hold after an operation. -/
def Target : ExpOp V E → V ⊕ E → Prop
  | .assign _ other, c => Holds other c
  | .value f _, c => ∃ v, Faithful f v ∧ c = .inl v
  | .error f, c => ∃ e, Faithful f e ∧ c = .inr e
  | .emplace made _, c => ∃ v, c = .inl v ∧ ∀ w, made = some w → w = v

/-- Nothing made from or assigned from the object throws. -/
def NeverThrows (f : ExpFrom A) : Prop := f.made ≠ none ∧ ∀ o, (f.assign o).2 = false

/-- Operations that do not throw, and are compiled. -/
def ThrowsNot (t : ExpTypes V E) : ExpOp V E → Prop
  | .assign mv other => (∃ c, Holds other c) ∧ (∀ v, NeverThrows (t.value.from mv v)) ∧ (∀ e, NeverThrows (t.error.from mv e)) ∧
      (mv = true ∨ t.value.nothrowCopy = true ∨ t.value.nothrowMove = true ∨ t.trivialCopy = true)
  | .value f _ => NeverThrows f
  | .error f => NeverThrows f
  | .emplace made _ => made ≠ none

/-- The content of an `expected`, as a sum. -/
def IsSum (s : ExpStorage V E) (x : Except E V) : Prop :=
  Holds s (match x with | .ok v => .inl v | .error e => .inr e)

/-- An error is handled. -/
def handled {G : Type} (g : E → Except G V) : Except E V → Except G V
  | .ok v => .ok v
  | .error e => g e

/-- A value, or another one instead of an error. -/
def valueElse (d : V) : Except E V → V
  | .ok v => v
  | .error _ => d

/-- An error, or another one instead of a value. -/
def errorElse (d : E) : Except E V → E
  | .ok _ => d
  | .error e => e

end Scn.Spec
