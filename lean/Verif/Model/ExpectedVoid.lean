import Verif.Model.Expected
/-
`scn::expected<void, E>`: the specializations of the storage and of the operations, with nothing in place of the value.
/repo/include/scn/scan.h:518-599, 750-840, 1051-1165

There are no assignments of values and no `emplace` for `void` (`std::is_convertible_v` and `std::is_constructible_v` exclude them), and no
conversions from another `expected`. Not modelled: memory layout, and what is left of an error that was moved from.
-/
namespace Scn

/-- `expected_storage_base<void, E>`, /repo/include/scn/scan.h:518-599, 750-832: the error that is alive in the memory, `m_has_value`, and the
    errors (of a type whose destructor does something) whose memory was used again. -/
structure ExpVoid (E : Type) where
  live : Option E
  hasValue : Bool
  lost : List E := []
  deriving DecidableEq

variable {E U G : Type}

/-- `construct`, /repo/include/scn/scan.h:572-576, 794-798: no object is made. -/
def ExpVoid.construct (s : ExpVoid E) : ExpVoid E := { s with hasValue := true }

/-- `construct_unexpected`, /repo/include/scn/scan.h:577-584, 799-806: the flag is set only when the error is there. -/
def ExpVoid.constructError (t : ObjTy E) (made : Option E) (s : ExpVoid E) : ExpOut (ExpVoid E) :=
  let lost := match s.live with
    | some e => if t.trivial then s.lost else e :: s.lost
    | none => s.lost
  match made with
  | some e => .ok ⟨some e, false, lost⟩
  | none => .threw ⟨none, s.hasValue, lost⟩

/-- `destroy_value`, /repo/include/scn/scan.h:586, 808: does nothing. -/
def ExpVoid.destroyValue (s : ExpVoid E) : ExpVoid E := s

/-- `destroy_unexpected`, /repo/include/scn/scan.h:587, 809-812. -/
def ExpVoid.destroyError (t : ObjTy E) (s : ExpVoid E) : ExpOut (ExpVoid E) :=
  match s.live with
  | some _ => .ok { s with live := none }
  | none => if t.trivial then .ok s else .ub

/-- `~expected_storage_base`, /repo/include/scn/scan.h:772-777. -/
def ExpVoid.destroy (t : ObjTy E) (s : ExpVoid E) : ExpOut (ExpVoid E) :=
  if !s.hasValue then s.destroyError t else .ok s

/-- `expected()`, /repo/include/scn/scan.h:520-527, 752. -/
def ExpVoid.default : ExpVoid E := ⟨none, true, []⟩

/-- `expected(unexpect, …)`, /repo/include/scn/scan.h:540-548, 764-770: an exception here is not followed by the destructor. -/
def ExpVoid.constructUnexpect (t : ObjTy E) (made : Option E) : ExpOut (ExpVoid E) :=
  (⟨none, false, []⟩ : ExpVoid E).constructError t made

/-- The copy and move constructors with `construct_common`, /repo/include/scn/scan.h:1059-1070, 1099-1111: they begin with
    `deferred_init_tag`, and an exception is followed by the destructor of the storage. -/
def ExpVoid.copyConstruct (t : ObjTy E) (mv : Bool) (other : ExpVoid E) : ExpOut (ExpVoid E) :=
  if t.trivialCopy then .ok ⟨other.live, other.hasValue, []⟩
  else ExpOut.catchRethrow
    (if other.hasValue then .ok (⟨none, false, []⟩ : ExpVoid E).construct
      else .need other.live fun e => (⟨none, false, []⟩ : ExpVoid E).constructError t (t.from mv e).made)
    (ExpVoid.destroy t)

/-- `reassign_unexpected`, /repo/include/scn/scan.h:1139-1146, and the first branch of `assign_unexpected`, 2061-2064. -/
def ExpVoid.reassignError (f : ExpFrom E) (s : ExpVoid E) : ExpOut (ExpVoid E) :=
  .need s.live fun e =>
    let s' := { s with live := some (f.assign e).1 }
    if (f.assign e).2 then .threw s' else .ok s'

/-- `assign_value_over_unexpected`, /repo/include/scn/scan.h:1148-1152. -/
def ExpVoid.assignValueOverError (t : ObjTy E) (s : ExpVoid E) : ExpOut (ExpVoid E) :=
  (s.destroyError t).bind (fun s => .ok s.construct) id

/-- `assign_unexpected_over_value`, /repo/include/scn/scan.h:1154-1162, and the end of `assign_unexpected`, 2066-2067. -/
def ExpVoid.assignErrorOverValue (t : ObjTy E) (f : ExpFrom E) (s : ExpVoid E) : ExpOut (ExpVoid E) :=
  s.destroyValue.constructError t f.made

/-- `assign_common`, /repo/include/scn/scan.h:1113-1136: `operator=` of two of them. -/
def ExpVoid.assignFrom (t : ObjTy E) (mv : Bool) (other s : ExpVoid E) : ExpOut (ExpVoid E) :=
  if t.trivialCopy then .ok ⟨other.live, other.hasValue, s.lost⟩
  else if s.hasValue then
    if other.hasValue then .ok s else .need other.live fun e => s.assignErrorOverValue t (t.from mv e)
  else if other.hasValue then s.assignValueOverError t
  else .need other.live fun e => s.reassignError (t.from mv e)

/-- `assign_unexpected`, /repo/include/scn/scan.h:2057-2068: `operator=(unexpected<E>)`. -/
def ExpVoid.assignError (t : ObjTy E) (f : ExpFrom E) (s : ExpVoid E) : ExpOut (ExpVoid E) :=
  if !s.hasValue then s.reassignError f else s.assignErrorOverValue t f

/-- An operation on an existing `expected<void, E>`, /repo/include/scn/scan.h:1072-1093, 1712-1723. -/
inductive VoidOp (E : Type) where
  | assign (mv : Bool) (other : ExpVoid E)
  | error (f : ExpFrom E)

/-- See `VoidOp`; /repo/include/scn/scan.h:1072-1093, 1712-1723. -/
def ExpVoid.op (t : ObjTy E) : VoidOp E → ExpVoid E → ExpOut (ExpVoid E)
  | .assign mv other, s => ExpVoid.assignFrom t mv other s
  | .error f, s => s.assignError t f

/-- A program with an `expected<void, E>`: exceptions are caught, and at the end it is destroyed, /repo/include/scn/scan.h:772-777. -/
def ExpVoid.run (t : ObjTy E) : List (VoidOp E) → ExpVoid E → ExpOut (ExpVoid E)
  | [], s => s.destroy t
  | o :: os, s =>
    match s.op t o with
    | .ok s => s.run t os
    | .threw s => s.run t os
    | .terminated => .terminated
    | .ub => .ub
    | .noCompile => .noCompile

/-- `error`, /repo/include/scn/scan.h:1744-1763, with its `SCN_EXPECT`. -/
def ExpVoid.error (s : ExpVoid E) : Option E := if s.hasValue then none else s.live

/-- One with an error, /repo/include/scn/scan.h:764-770. -/
def ExpVoid.ofError (e : E) : ExpVoid E := ⟨some e, false, []⟩

/-- `and_then_impl` for `void`, /repo/include/scn/scan.h:1372-1388: the function has no arguments. -/
def ExpVoid.andThen (s : ExpVoid E) (f : Unit → ExpStorage U E) : Option (ExpStorage U E) :=
  if s.hasValue then some (f ()) else s.error.map .ofError

/-- `or_else_impl`, /repo/include/scn/scan.h:1392-1407: with the same type of errors only, as `void` has no conversions. -/
def ExpVoid.orElse (s : ExpVoid E) (f : E → ExpVoid E) : Option (ExpVoid E) :=
  if s.hasValue then some .default else s.error.map f

/-- `transform_impl` for `void`, /repo/include/scn/scan.h:1432-1453. -/
def ExpVoid.transform (s : ExpVoid E) (f : Unit → U) : Option (ExpStorage U E) :=
  if s.hasValue then some (.ofValue (f ())) else s.error.map .ofError

/-- `transform_impl` with a function that returns `void`, /repo/include/scn/scan.h:1420-1426. -/
def ExpStorage.transformVoid {V : Type} (s : ExpStorage V E) : Option (ExpVoid E) :=
  if s.hasValue then s.value.map fun _ => .default else s.error.map .ofError

/-- `transform_error_impl` for `void`, /repo/include/scn/scan.h:1481-1504. -/
def ExpVoid.transformError (s : ExpVoid E) (f : E → G) : Option (ExpVoid G) :=
  if s.hasValue then some .default else s.error.map fun e => .ofError (f e)

end Scn
