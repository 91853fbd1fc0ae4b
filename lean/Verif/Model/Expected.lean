/-
`scn::expected<T, E>`, the result type of every scan call: the storage with its lifetimes, the special member functions, the
assignments, `emplace` and the operations with functions. /repo/include/scn/scan.h:325-2067

An object of a type is a value of a Lean type. Copies, moves and conversions may throw. Not modelled: what is left of an object
that was moved from, memory layout and alignment, the `noexcept` of `assign_value`, and builds without exceptions (in which
`assign_value_over_unexpected` does not exist, as it is misspelled in line 1033). The specializations for `void` are in Model/ExpectedVoid.
-/
namespace Scn

/-- An object, as the source of a construction or an assignment: what is made from it (`none`: the constructor throws), and what
    an object becomes if it is assigned (with `true`: the assignment throws). /repo/include/scn/scan.h:392-398, 968, 977 -/
structure ExpFrom (A : Type) where
  made : Option A
  assign : A → A × Bool

/-- What is used of a type: copies and moves, `std::is_nothrow_copy_constructible_v`, `std::is_nothrow_move_constructible_v`,
    `std::is_trivially_destructible_v` and `std::is_trivially_copyable_v`. /repo/include/scn/scan.h:415-420, 848-864, 985-992 -/
structure ObjTy (A : Type) where
  copy : A → ExpFrom A
  move : A → ExpFrom A
  nothrowCopy : Bool
  nothrowMove : Bool
  trivial : Bool
  trivialCopy : Bool

/-- `expected_storage_base`, /repo/include/scn/scan.h:422-840: the object that is alive in `m_memory`, `m_has_value`, and the objects
    (of types whose destructors do something) whose memory was used again without destroying them. -/
structure ExpStorage (V E : Type) where
  live : Option (V ⊕ E)
  hasValue : Bool
  lost : List (V ⊕ E) := []
  deriving DecidableEq

/-- The template arguments of `expected`, /repo/include/scn/scan.h:1523-1528. -/
structure ExpTypes (V E : Type) where
  value : ObjTy V
  error : ObjTy E

/-- The outcome of an operation: it returns, throws, calls `std::terminate` (an exception leaves a `noexcept` function), is
    undefined, or is not compiled; for the functions of /repo/include/scn/scan.h:420-1049. -/
inductive ExpOut (S : Type) where
  | ok (s : S) | threw (s : S) | terminated | ub | noCompile
  deriving DecidableEq

/-- One statement after another, as in /repo/include/scn/scan.h:910-1048. -/
def ExpOut.bind {S R : Type} (o : ExpOut S) (k : S → ExpOut R) (conv : S → R) : ExpOut R :=
  match o with
  | .ok s => k s
  | .threw s => .threw (conv s)
  | .terminated => .terminated
  | .ub => .ub
  | .noCompile => .noCompile

/-- `noexcept(b)`, as in /repo/include/scn/scan.h:691-706, 983-1042. -/
def ExpOut.noexceptIf {S : Type} (b : Bool) : ExpOut S → ExpOut S
  | .threw s => if b then .terminated else .threw s
  | o => o

/-- `try { … } catch (...) { h; throw; }`, e.g. /repo/include/scn/scan.h:999-1005. -/
def ExpOut.catchRethrow {S : Type} (o : ExpOut S) (h : S → ExpOut S) : ExpOut S :=
  match o with
  | .threw s => (h s).bind .threw id
  | o => o

/-- `try { … } catch (...) { h; }`, /repo/include/scn/scan.h:2045-2050. -/
def ExpOut.catchAll {S : Type} (o : ExpOut S) (h : S → ExpOut S) : ExpOut S :=
  match o with
  | .threw s => h s
  | o => o

variable {V E U G : Type}

/-- The objects that are lost if the memory is used for a new one by `construct_at`, /repo/include/scn/scan.h:391-400. -/
def ExpTypes.lose (t : ExpTypes V E) (s : ExpStorage V E) : List (V ⊕ E) :=
  match s.live with
  | none => s.lost
  | some (.inl v) => if t.value.trivial then s.lost else .inl v :: s.lost
  | some (.inr e) => if t.error.trivial then s.lost else .inr e :: s.lost

/-- `construct`, /repo/include/scn/scan.h:491-497, 692-698. If the constructor throws, `m_has_value` is not changed. -/
def ExpTypes.construct (t : ExpTypes V E) (made : Option V) (s : ExpStorage V E) : ExpOut (ExpStorage V E) :=
  match made with
  | some v => .ok ⟨some (.inl v), true, t.lose s⟩
  | none => .threw ⟨none, s.hasValue, t.lose s⟩

/-- `construct_unexpected`, /repo/include/scn/scan.h:498-505, 699-706. -/
def ExpTypes.constructError (t : ExpTypes V E) (made : Option E) (s : ExpStorage V E) : ExpOut (ExpStorage V E) :=
  match made with
  | some e => .ok ⟨some (.inr e), false, t.lose s⟩
  | none => .threw ⟨none, s.hasValue, t.lose s⟩

/-- `destroy_value`, /repo/include/scn/scan.h:510, 706-709. Simplified: a trivial destructor may be called anywhere, and ends the
    lifetime of the object. -/
def ExpTypes.destroyValue (t : ExpTypes V E) (s : ExpStorage V E) : ExpOut (ExpStorage V E) :=
  match s.live with
  | some (.inl _) => .ok { s with live := none }
  | _ => if t.value.trivial then .ok s else .ub

/-- `destroy_unexpected`, /repo/include/scn/scan.h:511, 710-713. -/
def ExpTypes.destroyError (t : ExpTypes V E) (s : ExpStorage V E) : ExpOut (ExpStorage V E) :=
  match s.live with
  | some (.inr _) => .ok { s with live := none }
  | _ => if t.error.trivial then .ok s else .ub

/-- `~expected_storage_base`, /repo/include/scn/scan.h:639-647. -/
def ExpTypes.destroy (t : ExpTypes V E) (s : ExpStorage V E) : ExpOut (ExpStorage V E) :=
  if s.hasValue then t.destroyValue s else t.destroyError s

/-- `get_value`, /repo/include/scn/scan.h:454-469, 649-664: without a value, undefined. -/
def ExpStorage.getValue (s : ExpStorage V E) : Option V :=
  match s.live with
  | some (.inl v) => some v
  | _ => none

/-- `get_unexpected`, /repo/include/scn/scan.h:471-486, 666-681. -/
def ExpStorage.getError (s : ExpStorage V E) : Option E :=
  match s.live with
  | some (.inr e) => some e
  | _ => none

/-- An access to a member of the union, /repo/include/scn/scan.h:650-688. -/
def ExpOut.need {A S : Type} (a : Option A) (k : A → ExpOut S) : ExpOut S :=
  match a with
  | some a => k a
  | none => .ub

/-- The state of an `expected` whose constructor has thrown in its body: its bases are destroyed, /repo/include/scn/scan.h:641-649. -/
def ExpTypes.unwind (t : ExpTypes V E) (o : ExpOut (ExpStorage V E)) : ExpOut (ExpStorage V E) :=
  o.catchRethrow t.destroy

/-- Memory without an object; `expected_storage_base(deferred_init_tag_t)`, /repo/include/scn/scan.h:430-433, 615-618. -/
def ExpStorage.deferred : ExpStorage V E := ⟨none, false, []⟩

/-- `expected()` with `expected_storage_base()`, /repo/include/scn/scan.h:424-428, 610-613: of types with destructors, `noexcept`. -/
def ExpTypes.defaultConstruct (t : ExpTypes V E) (made : Option V) : ExpOut (ExpStorage V E) :=
  (t.construct made ⟨none, true, []⟩).noexceptIf (!(t.value.trivial && t.error.trivial))

/-- `expected(std::in_place, …)` and `expected(U&&)`, /repo/include/scn/scan.h:435-442, 620-628, 1567-1586. A constructor that
    throws here is not followed by the destructor. -/
def ExpTypes.constructInPlace (t : ExpTypes V E) (made : Option V) : ExpOut (ExpStorage V E) :=
  t.construct made ⟨none, true, []⟩

/-- `expected(unexpect, …)` and `expected(unexpected<G>)`, /repo/include/scn/scan.h:444-452, 630-637, 1588-1632. -/
def ExpTypes.constructUnexpect (t : ExpTypes V E) (made : Option E) : ExpOut (ExpStorage V E) :=
  t.constructError made ⟨none, false, []⟩

/-- How the objects of the other `expected` are taken: copied or moved, /repo/include/scn/scan.h:868-882. -/
def ObjTy.from {A : Type} (t : ObjTy A) (mv : Bool) (a : A) : ExpFrom A := if mv then t.move a else t.copy a

/-- Both types are trivially copyable: the members of `expected` are generated by the compiler. /repo/include/scn/scan.h:848-857 -/
def ExpTypes.trivialCopy (t : ExpTypes V E) : Bool := t.value.trivialCopy && t.error.trivialCopy

/-- `expected(const expected&)` and `expected(expected&&)`, /repo/include/scn/scan.h:868-881, 910-925. -/
def ExpTypes.copyConstruct (t : ExpTypes V E) (mv : Bool) (other : ExpStorage V E) : ExpOut (ExpStorage V E) :=
  if t.trivialCopy then .ok ⟨other.live, other.hasValue, []⟩
  else t.unwind <|
    if other.hasValue then .need other.getValue fun v => t.construct (t.value.from mv v).made .deferred
    else .need other.getError fun e => t.constructError (t.error.from mv e).made .deferred

/-- `expected(const expected<U, G>&)` and `expected(expected<U, G>&&)`, /repo/include/scn/scan.h:1634-1702. -/
def ExpTypes.convertConstruct (t : ExpTypes V E) (dflt : Option V) (fromU : U → Option V) (fromG : G → Option E) (other : ExpStorage U G) :
    ExpOut (ExpStorage V E) :=
  (t.defaultConstruct dflt).bind (fun s => t.unwind <|
    if other.hasValue then .need other.getValue fun u => t.construct (fromU u) s
    else .need other.getError fun g => t.constructError (fromG g) s) id

/-- `reassign_value`, /repo/include/scn/scan.h:962-969. -/
def ExpStorage.reassignValue (f : ExpFrom V) (s : ExpStorage V E) : ExpOut (ExpStorage V E) :=
  .need s.getValue fun v =>
    let s' := { s with live := some (.inl (f.assign v).1) }
    if (f.assign v).2 then .threw s' else .ok s'

/-- `reassign_unexpected`, /repo/include/scn/scan.h:971-978. -/
def ExpStorage.reassignError (f : ExpFrom E) (s : ExpStorage V E) : ExpOut (ExpStorage V E) :=
  .need s.getError fun e =>
    let s' := { s with live := some (.inr (f.assign e).1) }
    if (f.assign e).2 then .threw s' else .ok s'

/-- The error is moved away, destroyed, and put back if the value cannot be made: /repo/include/scn/scan.h:1018-1029, 2042-2050. -/
def ExpTypes.replaceError (t : ExpTypes V E) (made : Option V) (handle : ExpOut (ExpStorage V E) → (ExpStorage V E → ExpOut (ExpStorage V E)) → ExpOut (ExpStorage V E))
    (s : ExpStorage V E) : ExpOut (ExpStorage V E) :=
  .need s.getError fun e =>
    match (t.error.move e).made with
    | none => .threw s
    | some tmp => (t.destroyError s).bind (fun s => handle (t.construct made s) (t.constructError (t.error.move tmp).made)) id

/-- `assign_value_over_unexpected(const expected_operations_base&)`, /repo/include/scn/scan.h:981-1007: the last branch calls
    `get_unexpecetd()` and `get()`, which do not exist. -/
def ExpTypes.copyValueOverError (t : ExpTypes V E) (v : V) (s : ExpStorage V E) : ExpOut (ExpStorage V E) :=
  ExpOut.noexceptIf (t.value.nothrowCopy || t.value.nothrowMove) <|
    if t.value.nothrowCopy then (t.destroyError s).bind (t.construct (t.value.copy v).made) id
    else if t.value.nothrowMove then
      match (t.value.copy v).made with
      | none => .threw s
      | some tmp => (t.destroyError s).bind (t.construct (t.value.move tmp).made) id
    else .noCompile

/-- `assign_value_over_unexpected(expected_operations_base&&)`, /repo/include/scn/scan.h:1009-1030. -/
def ExpTypes.moveValueOverError (t : ExpTypes V E) (v : V) (s : ExpStorage V E) : ExpOut (ExpStorage V E) :=
  if t.value.nothrowMove then ((t.destroyError s).bind (t.construct (t.value.move v).made) id).noexceptIf true
  else t.replaceError (t.value.move v).made ExpOut.catchRethrow s

/-- `assign_common`, /repo/include/scn/scan.h:927-960, with `assign_unexpected_over_value`, 1040-1048: `operator=` of two
    `expected`s, 883-906. That the copy is compiled does not depend on the states. -/
def ExpTypes.assignFrom (t : ExpTypes V E) (mv : Bool) (other s : ExpStorage V E) : ExpOut (ExpStorage V E) :=
  if t.trivialCopy then .ok ⟨other.live, other.hasValue, s.lost⟩
  else if !mv && !t.value.nothrowCopy && !t.value.nothrowMove then .noCompile
  else if s.hasValue then
    if other.hasValue then .need other.getValue fun v => s.reassignValue (t.value.from mv v)
    else .need other.getError fun e => (t.destroyValue s).bind (t.constructError (t.error.from mv e).made) id
  else
    if other.hasValue then .need other.getValue fun v => if mv then t.moveValueOverError v s else t.copyValueOverError v s
    else .need other.getError fun e => s.reassignError (t.error.from mv e)

/-- `assign_value`, /repo/include/scn/scan.h:2024-2055: `operator=(U&&)`. `nothrow` is `std::is_nothrow_constructible_v<T, U&&>`. -/
def ExpTypes.assignValue (t : ExpTypes V E) (f : ExpFrom V) (nothrow : Bool) (s : ExpStorage V E) : ExpOut (ExpStorage V E) :=
  if s.hasValue then s.reassignValue f
  else if nothrow then (t.destroyError s).bind (t.construct f.made) id
  else t.replaceError f.made ExpOut.catchAll s

/-- `assign_unexpected`, /repo/include/scn/scan.h:2057-2069: `operator=(unexpected<E>)`. -/
def ExpTypes.assignError (t : ExpTypes V E) (f : ExpFrom E) (s : ExpStorage V E) : ExpOut (ExpStorage V E) :=
  if !s.hasValue then s.reassignError f
  else (t.destroyValue s).bind (t.constructError f.made) id

/-- `emplace`, /repo/include/scn/scan.h:1724-1735, 1991-2022. `nothrow` is `std::is_nothrow_constructible_v<T, Args&&...>`. -/
def ExpTypes.emplace (t : ExpTypes V E) (made : Option V) (nothrow : Bool) (s : ExpStorage V E) : ExpOut (ExpStorage V E) :=
  ExpOut.noexceptIf nothrow <|
    if s.hasValue then (t.destroyValue s).bind (t.construct made) id
    else if nothrow then t.replaceError made ExpOut.catchRethrow s
    else t.construct made s

/-- `value`, `operator*` and `error`, /repo/include/scn/scan.h:1743-1812, with their `SCN_EXPECT`. -/
def ExpStorage.value (s : ExpStorage V E) : Option V := if s.hasValue then s.getValue else none

/-- /repo/include/scn/scan.h:1744-1763 -/
def ExpStorage.error (s : ExpStorage V E) : Option E := if s.hasValue then none else s.getError

/-- `value_or`, /repo/include/scn/scan.h:1823-1849: `none` is undefined. -/
def ExpStorage.valueOr (s : ExpStorage V E) (d : V) : Option V := if s.hasValue then s.value else some d

/-- `error_or`, /repo/include/scn/scan.h:1851-1876. -/
def ExpStorage.errorOr (s : ExpStorage V E) (d : E) : Option E := if !s.hasValue then s.error else some d

/-- A new `expected` with a value, and one with an error, /repo/include/scn/scan.h:622-640. -/
def ExpStorage.ofValue (v : V) : ExpStorage V E := ⟨some (.inl v), true, []⟩

/-- See `ofValue`, /repo/include/scn/scan.h:632-640. -/
def ExpStorage.ofError (e : E) : ExpStorage V E := ⟨some (.inr e), false, []⟩

/-- `and_then_impl`, /repo/include/scn/scan.h:1356-1388. Copies do not throw here. -/
def ExpStorage.andThen (s : ExpStorage V E) (f : V → ExpStorage U E) : Option (ExpStorage U E) :=
  if s.hasValue then s.value.map f else s.error.map .ofError

/-- `or_else_impl`, /repo/include/scn/scan.h:1392-1407. -/
def ExpStorage.orElse (s : ExpStorage V E) (f : E → ExpStorage V G) : Option (ExpStorage V G) :=
  if s.hasValue then s.value.map .ofValue else s.error.map f

/-- `transform_impl`, /repo/include/scn/scan.h:1411-1453. -/
def ExpStorage.transform (s : ExpStorage V E) (f : V → U) : Option (ExpStorage U E) :=
  if s.hasValue then s.value.map fun v => .ofValue (f v) else s.error.map .ofError

/-- `transform_error_impl`, /repo/include/scn/scan.h:1457-1504. -/
def ExpStorage.transformError (s : ExpStorage V E) (f : E → G) : Option (ExpStorage V G) :=
  if s.hasValue then s.value.map .ofValue else s.error.map fun e => .ofError (f e)

/-- An operation on an existing `expected`, /repo/include/scn/scan.h:883-906, 1704-1735. -/
inductive ExpOp (V E : Type) where
  | assign (mv : Bool) (other : ExpStorage V E)
  | value (f : ExpFrom V) (nothrow : Bool)
  | error (f : ExpFrom E)
  | emplace (made : Option V) (nothrow : Bool)

/-- See `ExpOp`; /repo/include/scn/scan.h:883-905, 1701-1740. -/
def ExpTypes.op (t : ExpTypes V E) : ExpOp V E → ExpStorage V E → ExpOut (ExpStorage V E)
  | .assign mv other, s => t.assignFrom mv other s
  | .value f nothrow, s => t.assignValue f nothrow s
  | .error f, s => t.assignError f s
  | .emplace made nothrow, s => t.emplace made nothrow s

/-- A program with an `expected`: exceptions are caught, and at the end it is destroyed, /repo/include/scn/scan.h:641-649. -/
def ExpTypes.run (t : ExpTypes V E) : List (ExpOp V E) → ExpStorage V E → ExpOut (ExpStorage V E)
  | [], s => t.destroy s
  | o :: os, s =>
    match t.op o s with
    | .ok s => t.run os s
    | .threw s => t.run os s
    | .terminated => .terminated
    | .ub => .ub
    | .noCompile => .noCompile

end Scn
