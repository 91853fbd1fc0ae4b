import Verif.Spec.Calls
/-
The same call with its arguments in another order, or with the other kind of numbering.
-/
namespace Scn.Spec
variable {V : Type}

/-- The field for the argument with another number. -/
def CallField.renumber (π : Nat → Nat) (f : CallField V) : CallField V := { f with id := π f.id }

/-- The arguments `ds'` are the arguments `ds`, where number `i` has become number `π i`. -/
structure Reordered {D : Type} (π : Nat → Nat) (ds ds' : List D) : Prop where
  same : ∀ i, i < ds.length → ds'[π i]? = ds[i]?
  inj : ∀ i j, i < ds.length → j < ds.length → π i = π j → i = j
  length : ds'.length = ds.length

end Scn.Spec
