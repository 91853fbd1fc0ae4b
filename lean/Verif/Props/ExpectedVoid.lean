import Verif.Model.ExpectedVoid
import Verif.Props.Expected
/-
Properties C95, C96 and C97 for `expected<void, E>`: nothing can go wrong in its assignments, even with errors that throw.
-/
namespace Scn
namespace Spec

/-- An `expected<void, E>` with an error, or without one: the error is alive just if the flag tells so, and none was lost. -/
def VoidHolds {E : Type} (s : ExpVoid E) (c : Option E) : Prop := s.live = c ∧ s.hasValue = c.isNone ∧ s.lost = []

/-- What an `expected<void, E>` should hold after an operation. -/
def VoidTarget {E : Type} : VoidOp E → Option E → Prop
  | .assign _ other, c => VoidHolds other c
  | .error f, c => ∃ e, Faithful f e ∧ c = some e

/-- The other operand of an assignment is an `expected`. -/
def VoidOpOk {E : Type} : VoidOp E → Prop
  | .assign _ other => ∃ c, VoidHolds other c
  | .error _ => True

/-- An error is replaced only by assignments that may end in the middle: the assignment operator of errors. -/
def Restored {E : Type} (s s' : ExpVoid E) : Prop := s' = s ∨ ∃ e e', VoidHolds s (some e) ∧ VoidHolds s' (some e')

end Spec
open Spec

variable {E U G : Type}

theorem voidHolds_eq {s : ExpVoid E} {c : Option E} (h : VoidHolds s c) : s = ⟨c, c.isNone, []⟩ := by
  cases s; obtain ⟨h1, h2, h3⟩ := h; simp only at h1 h2 h3; rw [h1, h2, h3]

/-- Every operation leaves an `expected` behind, and does what it should unless it throws; then a value is still there. -/
theorem voidOp_kept (t : ObjTy E) (he : ObjOk t) (o : VoidOp E) (ho : VoidOpOk o) (s : ExpVoid E) (c : Option E) (h : VoidHolds s c) :
    (∃ s' c', s.op t o = .ok s' ∧ VoidHolds s' c' ∧ ∀ d, VoidTarget o d → d = c') ∨
    ∃ s' c', s.op t o = .threw s' ∧ VoidHolds s' c' ∧ Restored s s' := by
  rw [voidHolds_eq h]
  cases o with
  | assign mv other =>
    obtain ⟨d, hd⟩ := ho
    have hd' : ∀ x, VoidTarget (.assign mv other) x → x = d := fun x hx => by rw [← hx.1, hd.1]
    rw [voidHolds_eq hd] at hd' ⊢
    unfold ExpVoid.op ExpVoid.assignFrom
    cases ht : t.trivialCopy with
    | true => exact Or.inl ⟨_, d, rfl, ⟨rfl, rfl, rfl⟩, hd'⟩
    | false =>
      cases c with
      | none =>
        cases d with
        | none => exact Or.inl ⟨_, none, rfl, ⟨rfl, rfl, rfl⟩, hd'⟩
        | some e =>
          cases hm : (t.from mv e).made with
          | some w =>
            have := (from_faithful he mv e).1 w hm
            subst this
            refine Or.inl ⟨⟨some w, false, []⟩, some w, ?_, ⟨rfl, rfl, rfl⟩, hd'⟩
            simp [ExpOut.need, ExpVoid.assignErrorOverValue, ExpVoid.destroyValue, ExpVoid.constructError, hm]
          | none =>
            refine Or.inr ⟨⟨none, true, []⟩, none, ?_, ⟨rfl, rfl, rfl⟩, Or.inl rfl⟩
            simp [ExpOut.need, ExpVoid.assignErrorOverValue, ExpVoid.destroyValue, ExpVoid.constructError, hm]
      | some x =>
        cases d with
        | none => exact Or.inl ⟨⟨none, true, []⟩, none, rfl, ⟨rfl, rfl, rfl⟩, hd'⟩
        | some e =>
          cases ha : (t.from mv e).assign x with
          | mk w b =>
            cases b with
            | true =>
              refine Or.inr ⟨⟨some w, false, []⟩, some w, ?_, ⟨rfl, rfl, rfl⟩, Or.inr ⟨x, w, ⟨rfl, rfl, rfl⟩, rfl, rfl, rfl⟩⟩
              simp [ExpOut.need, ExpVoid.reassignError, ha]
            | false =>
              have := (from_faithful he mv e).2 x w ha
              subst this
              refine Or.inl ⟨⟨some w, false, []⟩, some w, ?_, ⟨rfl, rfl, rfl⟩, hd'⟩
              simp [ExpOut.need, ExpVoid.reassignError, ha]
  | error f =>
    unfold ExpVoid.op ExpVoid.assignError
    cases c with
    | none =>
      cases hm : f.made with
      | some w =>
        refine Or.inl ⟨⟨some w, false, []⟩, some w, ?_, ⟨rfl, rfl, rfl⟩, ?_⟩
        · simp [ExpVoid.assignErrorOverValue, ExpVoid.destroyValue, ExpVoid.constructError, hm]
        · rintro d ⟨e, hf, rfl⟩; rw [hf.1 w hm]
      | none =>
        refine Or.inr ⟨⟨none, true, []⟩, none, ?_, ⟨rfl, rfl, rfl⟩, Or.inl rfl⟩
        simp [ExpVoid.assignErrorOverValue, ExpVoid.destroyValue, ExpVoid.constructError, hm]
    | some x =>
      cases ha : f.assign x with
      | mk w b =>
        cases b with
        | true =>
          refine Or.inr ⟨⟨some w, false, []⟩, some w, ?_, ⟨rfl, rfl, rfl⟩, Or.inr ⟨x, w, ⟨rfl, rfl, rfl⟩, rfl, rfl, rfl⟩⟩
          simp [ExpOut.need, ExpVoid.reassignError, ha]
        | false =>
          refine Or.inl ⟨⟨some w, false, []⟩, some w, ?_, ⟨rfl, rfl, rfl⟩, ?_⟩
          · simp [ExpOut.need, ExpVoid.reassignError, ha]
          · rintro d ⟨e, hf, rfl⟩; rw [hf.2 x w ha]

theorem voidDestroy (t : ObjTy E) {s : ExpVoid E} {c : Option E} (h : VoidHolds s c) : s.destroy t = .ok ⟨none, c.isNone, []⟩ := by
  rw [voidHolds_eq h]; cases c <;> rfl

/-- C95 for `expected<void, E>`, without conditions on the errors. Whatever is done, in which order and with which exceptions (of copies,
    moves or assignments of errors), the error is alive just if the flag tells so, and in the end every error has been destroyed, once. -/
theorem C95_void_lifetimes (t : ObjTy E) (he : ObjOk t) (ops : List (VoidOp E)) (ho : ∀ o ∈ ops, VoidOpOk o) (s : ExpVoid E) (c : Option E)
    (h : VoidHolds s c) : ∃ s', s.run t ops = .ok s' ∧ s'.live = none ∧ s'.lost = [] := by
  induction ops generalizing s c with
  | nil => exact ⟨_, voidDestroy t h, rfl, rfl⟩
  | cons o os ih =>
    have ih := fun s c h => ih (fun o h => ho o (List.mem_cons_of_mem _ h)) s c h
    rcases voidOp_kept t he o (ho o (List.mem_cons_self ..)) s c h with ⟨s', c', h, h', -⟩ | ⟨s', c', h, h', -⟩
    · unfold ExpVoid.run; rw [h]; exact ih s' c' h'
    · unfold ExpVoid.run; rw [h]; exact ih s' c' h'

/-- C95 for `expected<void, E>`: a new one holds what it was made from, or nothing is left behind. The copies and moves need errors with
    trivial destructors (as `scan_error`), or that do not throw. -/
theorem C95_void_created_partial (t : ObjTy E) (he : ObjOk t) (mv : Bool) (made : Option E) (other : ExpVoid E) (c : Option E) (ho : VoidHolds other c)
    (hs : t.trivial = true ∨ ∀ e, (t.from mv e).made ≠ none) :
    VoidHolds (ExpVoid.default : ExpVoid E) none ∧
    ((∃ s e, ExpVoid.constructUnexpect t made = .ok s ∧ made = some e ∧ VoidHolds s (some e)) ∨
      ∃ s, ExpVoid.constructUnexpect t made = .threw s ∧ made = none ∧ s.live = none ∧ s.lost = []) ∧
    ((∃ s, ExpVoid.copyConstruct t mv other = .ok s ∧ VoidHolds s c) ∨
      ∃ s, ExpVoid.copyConstruct t mv other = .threw s ∧ s.live = none ∧ s.lost = []) := by
  refine ⟨⟨rfl, rfl, rfl⟩, ?_, ?_⟩
  · cases made with
    | none => exact Or.inr ⟨_, rfl, rfl, rfl, rfl⟩
    | some e => exact Or.inl ⟨_, e, rfl, rfl, rfl, rfl, rfl⟩
  · rw [voidHolds_eq ho]
    unfold ExpVoid.copyConstruct
    cases ht : t.trivialCopy with
    | true => exact Or.inl ⟨_, rfl, rfl, rfl, rfl⟩
    | false =>
      cases c with
      | none => exact Or.inl ⟨_, rfl, rfl, rfl, rfl⟩
      | some e =>
        cases hm : (t.from mv e).made with
        | some w =>
          have := (from_faithful he mv e).1 w hm
          subst this
          refine Or.inl ⟨⟨some w, false, []⟩, ?_, rfl, rfl, rfl⟩
          simp [ExpOut.need, ExpVoid.constructError, hm, ExpOut.catchRethrow]
        | none =>
          rcases hs with hs | hs
          · refine Or.inr ⟨⟨none, false, []⟩, ?_, rfl, rfl⟩
            simp [ExpOut.need, ExpVoid.constructError, hm, ExpOut.catchRethrow, ExpVoid.destroy, ExpVoid.destroyError, hs, ExpOut.bind]
          · exact absurd hm (hs e)

/-- C95 fails for a copy of an `expected<void, E>` that throws, if errors have a destructor: one that was never made is destroyed. -/
theorem C95_violated_void_copy (t : ObjTy E) (he : ObjOk t) (ht : t.trivial = false) (mv : Bool) (e : E) (hm : (t.from mv e).made = none) :
    ExpVoid.copyConstruct t mv (.ofError e) = .ub := by
  have hc : t.trivialCopy = false := by
    cases h : t.trivialCopy with
    | false => rfl
    | true => rw [(he.trivialCopy h).1] at ht; cases ht
  simp [ExpVoid.copyConstruct, hc, ExpVoid.ofError, ExpOut.need, hm, ExpVoid.constructError, ExpOut.catchRethrow, ExpVoid.destroy, ExpVoid.destroyError, ht, ExpOut.bind]

/-- C96 for `expected<void, E>`, without conditions on the errors: an assignment returns, and what was assigned is there, or it throws, and
    what was there is still there (unless it is the assignment operator of two errors that threw). It is never undefined, not compiled or
    the end of the program. -/
theorem C96_void (t : ObjTy E) (he : ObjOk t) (o : VoidOp E) (ho : VoidOpOk o) (s : ExpVoid E) (c : Option E) (h : VoidHolds s c) :
    (∃ s', s.op t o = .ok s' ∧ ∀ d, VoidTarget o d → VoidHolds s' d) ∨
    ∃ s', s.op t o = .threw s' ∧ (s' = s ∨ ∃ e e', c = some e ∧ VoidHolds s' (some e')) := by
  rcases voidOp_kept t he o ho s c h with ⟨s', c', h1, h2, h3⟩ | ⟨s', c', h1, -, h3⟩
  · exact Or.inl ⟨s', h1, fun d hd => by rw [h3 d hd]; exact h2⟩
  · refine Or.inr ⟨s', h1, h3.imp id ?_⟩
    rintro ⟨e, e', he, he'⟩
    exact ⟨e, e', by rw [← h.1, he.1], he'⟩

/-- The content of an `expected<void, E>`, as a sum with one value. -/
def Spec.IsVoidSum (s : ExpVoid E) (x : Except E Unit) : Prop :=
  VoidHolds s (match x with | .ok _ => none | .error e => some e)

/-- C97 for `expected<void, E>`, and for functions that return nothing: the operations with functions are those of sums with one value. -/
theorem C97_void (s : ExpVoid E) (x : Except E Unit) (h : IsVoidSum s x) :
    (∀ (f : Unit → ExpStorage U E) (g : Unit → Except E U), (x = .ok () → IsSum (f ()) (g ())) → ∃ r, s.andThen f = some r ∧ IsSum r (x.bind g)) ∧
    (∀ (f : E → ExpVoid E) (g : E → Except E Unit), (∀ e, x = .error e → IsVoidSum (f e) (g e)) →
      ∃ r, s.orElse f = some r ∧ IsVoidSum r (handled g x)) ∧
    (∀ f : Unit → U, ∃ r, s.transform f = some r ∧ IsSum r (x.map f)) ∧
    (∀ f : E → G, ∃ r, s.transformError f = some r ∧ IsVoidSum r (x.mapError f)) ∧
    ∀ (s : ExpStorage U E) (y : Except E U), IsSum s y → ∃ r, s.transformVoid = some r ∧ IsVoidSum r (y.map fun _ => ()) := by
  refine ⟨?_, ?_, ?_, ?_, ?_⟩
  rotate_right
  · intro s y hs
    cases y with
    | ok v => rw [shows_value hs]; exact ⟨.default, rfl, rfl, rfl, rfl⟩
    | error e => rw [shows_error hs]; exact ⟨.ofError e, rfl, rfl, rfl, rfl⟩
  all_goals
    have hs := voidHolds_eq h
    cases x with
    | ok v => simp only at hs; subst hs; first
        | exact fun f g hf => ⟨f (), rfl, hf rfl⟩
        | exact fun f g hf => ⟨.default, rfl, rfl, rfl, rfl⟩
        | exact fun f => ⟨.ofValue (f ()), rfl, rfl, rfl, rfl⟩
        | exact fun f => ⟨.default, rfl, rfl, rfl, rfl⟩
    | error e => simp only at hs; subst hs; first
        | exact fun f g hf => ⟨.ofError e, rfl, rfl, rfl, rfl⟩
        | exact fun f g hf => ⟨f e, rfl, hf e rfl⟩
        | exact fun f => ⟨.ofError e, rfl, rfl, rfl, rfl⟩
        | exact fun f => ⟨.ofError (f e), rfl, rfl, rfl, rfl⟩

/-! ### Examples -/

/-- Errors with a destructor whose copies throw -/
def exLoudTy : ObjTy Nat where
  copy n := ⟨if n = 9 then none else some n, fun _ => (n, n = 9)⟩
  move n := ⟨some n, fun _ => (n, false)⟩
  nothrowCopy := false
  nothrowMove := true
  trivial := false
  trivialCopy := false

theorem exLoud_ok : ObjOk exLoudTy where
  copy a := ⟨fun b h => by simp only [exLoudTy] at h; split at h <;> simp_all, fun o w h => by simp only [exLoudTy, Prod.mk.injEq] at h; exact h.1.symm⟩
  move a := ⟨fun b h => by simp only [exLoudTy, Option.some.injEq] at h; exact h.symm, fun o w h => by simp only [exLoudTy, Prod.mk.injEq] at h; exact h.1.symm⟩
  nothrowCopy h := by simp [exLoudTy] at h
  nothrowMove _ a := by simp [exLoudTy]
  trivialCopy h := by simp [exLoudTy] at h

/-- Errors are assigned over nothing, and twice an exception is thrown. -/
example : ∃ s', (ExpVoid.default : ExpVoid Nat).run exLoudTy [.assign false (.ofError 9), .error (exLoudTy.move 3), .assign false (.ofError 9),
    .assign true .default, .error (exLoudTy.move 4)] = .ok s' ∧ s'.live = none ∧ s'.lost = [] :=
  C95_void_lifetimes exLoudTy exLoud_ok _ (by
    intro o ho
    simp only [List.mem_cons, List.not_mem_nil, or_false] at ho
    rcases ho with rfl | rfl | rfl | rfl | rfl
    · exact ⟨some 9, rfl, rfl, rfl⟩
    · trivial
    · exact ⟨some 9, rfl, rfl, rfl⟩
    · exact ⟨none, rfl, rfl, rfl⟩
    · trivial) _ none ⟨rfl, rfl, rfl⟩

example : (ExpVoid.default : ExpVoid Nat).op exLoudTy (.assign false (.ofError 9)) = .threw .default := by decide +kernel

/-- A move of an error that does not throw -/
example : VoidHolds (ExpVoid.default : ExpVoid Nat) none ∧
    ((∃ s e, ExpVoid.constructUnexpect exLoudTy (some 9) = .ok s ∧ some 9 = some e ∧ VoidHolds s (some e)) ∨
      ∃ s, ExpVoid.constructUnexpect exLoudTy (some 9) = .threw s ∧ some 9 = none ∧ s.live = none ∧ s.lost = []) ∧
    ((∃ s, ExpVoid.copyConstruct exLoudTy true (.ofError 9) = .ok s ∧ VoidHolds s (some 9)) ∨
      ∃ s, ExpVoid.copyConstruct exLoudTy true (.ofError 9) = .threw s ∧ s.live = none ∧ s.lost = []) :=
  C95_void_created_partial exLoudTy exLoud_ok true (some 9) (.ofError 9) (some 9) ⟨rfl, rfl, rfl⟩ (Or.inr fun e => by simp [ObjTy.from, exLoudTy])

/-- A copy that throws -/
example : ExpVoid.copyConstruct exLoudTy false (.ofError 9) = .ub := C95_violated_void_copy exLoudTy exLoud_ok rfl false 9 rfl

/-- The assignment that throws leaves no error. -/
example : (∃ s', (ExpVoid.default : ExpVoid Nat).op exLoudTy (.assign false (.ofError 9)) = .ok s' ∧
      ∀ d, VoidTarget (.assign false (.ofError 9)) d → VoidHolds s' d) ∨
    ∃ s', (ExpVoid.default : ExpVoid Nat).op exLoudTy (.assign false (.ofError 9)) = .threw s' ∧
      (s' = .default ∨ ∃ e e' : Nat, none = some e ∧ VoidHolds s' (some e')) :=
  C96_void exLoudTy exLoud_ok (.assign false (.ofError 9)) ⟨some 9, rfl, rfl, rfl⟩ _ none ⟨rfl, rfl, rfl⟩

/-- After nothing, a scan -/
example : ∃ r, (ExpVoid.default : ExpVoid Nat).andThen (fun _ => (.ofValue 4 : ExpStorage Nat Nat)) = some r ∧ IsSum r (.ok 4) :=
  (C97_void (U := Nat) (G := Nat) _ (.ok ()) ⟨rfl, rfl, rfl⟩).1 _ (fun _ => .ok 4) (fun _ => ⟨rfl, rfl, rfl⟩)

end Scn
