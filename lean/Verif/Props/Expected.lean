import Verif.Spec.Expected
/-
Properties C95, C96 and C97: lifetimes in an `expected`, its assignments, and its operations with functions.
-/
namespace Scn
open Spec

variable {V E U G A : Type}

theorem holds_value {s : ExpStorage V E} {v : V} (h : Holds s (.inl v)) : s = ⟨some (.inl v), true, []⟩ := by
  cases s; obtain ⟨h1, h2, h3⟩ := h; simp only at h1 h2 h3; rw [h1, h2, h3]; rfl

theorem holds_error {s : ExpStorage V E} {e : E} (h : Holds s (.inr e)) : s = ⟨some (.inr e), false, []⟩ := by
  cases s; obtain ⟨h1, h2, h3⟩ := h; simp only at h1 h2 h3; rw [h1, h2, h3]; rfl

theorem made_of {f : ExpFrom A} {a : A} (h : Faithful f a) (hm : f.made ≠ none) : f.made = some a := by
  cases hf : f.made with
  | none => exact absurd hf hm
  | some b => rw [h.1 b hf]

theorem from_faithful {t : ObjTy A} (h : ObjOk t) (mv : Bool) (a : A) : Faithful (t.from mv a) a := by
  cases mv
  · exact h.copy a
  · exact h.move a

/-- C95. A new `expected` holds what it was made from; if an exception is thrown instead, nothing is left behind. For copies and moves this
    needs an error type with a trivial destructor (such as `scan_error`), or types that do not throw. -/
theorem C95_created_partial (t : ExpTypes V E) (hv : ObjOk t.value) (he : ObjOk t.error) (mv : Bool) (made : Option V) (madeE : Option E)
    (other : ExpStorage V E) (c : V ⊕ E) (ho : Holds other c)
    (hs : t.error.trivial = true ∨ ((∀ v, (t.value.from mv v).made ≠ none) ∧ ∀ e, (t.error.from mv e).made ≠ none)) :
    Created (t.constructInPlace made) (fun d => ∃ v, made = some v ∧ d = .inl v) ∧
    Created (t.constructUnexpect madeE) (fun d => ∃ e, madeE = some e ∧ d = .inr e) ∧
    Created (t.copyConstruct mv other) (fun d => d = c) := by
  refine ⟨?_, ?_, ?_⟩
  · cases made with
    | none => exact Or.inr ⟨_, rfl, rfl, rfl⟩
    | some v => exact Or.inl ⟨_, .inl v, rfl, ⟨rfl, rfl, rfl⟩, v, rfl, rfl⟩
  · cases madeE with
    | none => exact Or.inr ⟨_, rfl, rfl, rfl⟩
    | some e => exact Or.inl ⟨_, .inr e, rfl, ⟨rfl, rfl, rfl⟩, e, rfl, rfl⟩
  · unfold ExpTypes.copyConstruct
    cases ht : t.trivialCopy with
    | true => exact Or.inl ⟨_, c, rfl, ⟨ho.1, ho.2.1, rfl⟩, rfl⟩
    | false =>
      cases c with
      | inl v =>
        rw [holds_value ho]
        show Created (t.unwind (t.construct (t.value.from mv v).made .deferred)) _
        cases hm : (t.value.from mv v).made with
        | some w =>
          have := (from_faithful hv mv v).1 w hm
          subst this
          exact Or.inl ⟨_, .inl w, rfl, ⟨rfl, rfl, rfl⟩, rfl⟩
        | none =>
          rcases hs with hs | hs
          · refine Or.inr ⟨⟨none, false, []⟩, ?_, rfl, rfl⟩
            show (t.destroyError ⟨none, false, []⟩).bind _ _ = _
            unfold ExpTypes.destroyError
            rw [hs]; rfl
          · exact absurd hm (hs.1 v)
      | inr e =>
        rw [holds_error ho]
        show Created (t.unwind (t.constructError (t.error.from mv e).made .deferred)) _
        cases hm : (t.error.from mv e).made with
        | some w =>
          have := (from_faithful he mv e).1 w hm
          subst this
          exact Or.inl ⟨_, .inr w, rfl, ⟨rfl, rfl, rfl⟩, rfl⟩
        | none =>
          rcases hs with hs | hs
          · refine Or.inr ⟨⟨none, false, []⟩, ?_, rfl, rfl⟩
            show (t.destroyError ⟨none, false, []⟩).bind _ _ = _
            unfold ExpTypes.destroyError
            rw [hs]; rfl
          · exact absurd hm (hs.2 e)

/-! ### Operations -/

theorem reassignValue_kept {s : ExpStorage V E} {v : V} (h : Holds s (.inl v)) (f : ExpFrom V) : Kept (s.reassignValue f) := by
  rw [holds_value h]
  show Kept (if (f.assign v).2 then _ else _)
  split
  · exact Or.inr ⟨_, _, Or.inr rfl, rfl, rfl, rfl⟩
  · exact Or.inr ⟨_, _, Or.inl rfl, rfl, rfl, rfl⟩

theorem reassignError_kept {s : ExpStorage V E} {e : E} (h : Holds s (.inr e)) (f : ExpFrom E) : Kept (s.reassignError f) := by
  rw [holds_error h]
  show Kept (if (f.assign e).2 then _ else _)
  split
  · exact Or.inr ⟨_, _, Or.inr rfl, rfl, rfl, rfl⟩
  · exact Or.inr ⟨_, _, Or.inl rfl, rfl, rfl, rfl⟩

/-- What `replaceError` does if errors can be moved. -/
theorem replaceError_eq (t : ExpTypes V E) (he : ObjOk t.error) (hm : ∀ e, (t.error.move e).made ≠ none) (made : Option V) {s : ExpStorage V E} {e : E} (h : Holds s (.inr e)) :
    t.replaceError made ExpOut.catchRethrow s = (match made with
      | some v => .ok ⟨some (.inl v), true, []⟩
      | none => .threw s) ∧
    t.replaceError made ExpOut.catchAll s = .ok (match made with
      | some v => ⟨some (.inl v), true, []⟩
      | none => s) := by
  have h1 : (t.error.move e).made = some e := made_of (he.move e) (hm e)
  rw [holds_error h]
  cases made with
  | some v =>
    constructor <;> (unfold ExpTypes.replaceError ExpOut.need ExpStorage.getError; simp only [h1]; rfl)
  | none =>
    constructor <;> (unfold ExpTypes.replaceError ExpOut.need ExpStorage.getError; simp only [h1]; rfl)

/-- One operation. -/
theorem op_kept (t : ExpTypes V E) (hv : ObjOk t.value) (he : ObjOk t.error) (hc : t.error.nothrowCopy = true) (hm : t.error.nothrowMove = true)
    (o : ExpOp V E) (ho : Mild t o) {s : ExpStorage V E} {c : V ⊕ E} (h : Holds s c) : Kept (t.op o s) := by
  have hmove := he.nothrowMove hm
  have hfrom : ∀ mv e, (t.error.from mv e).made = some e := by
    intro mv e
    refine made_of (from_faithful he mv e) ?_
    cases mv
    · exact he.nothrowCopy hc e
    · exact he.nothrowMove hm e
  cases o with
  | assign mv other =>
    obtain ⟨⟨d, hd⟩, hcomp⟩ := ho
    show Kept (t.assignFrom mv other s)
    unfold ExpTypes.assignFrom
    cases ht : t.trivialCopy with
    | true => exact Or.inr ⟨_, d, Or.inl rfl, hd.1, hd.2.1, h.2.2⟩
    | false =>
      rw [if_neg (by simp), if_neg (by rcases hcomp with h | h | h | h <;> simp_all)]
      cases c with
      | inl v =>
        cases d with
        | inl w =>
          rw [holds_value hd, if_pos (by rw [h.2.1]; rfl)]
          exact reassignValue_kept h _
        | inr e =>
          rw [holds_error hd, if_pos (by rw [h.2.1]; rfl), holds_value h]
          show Kept (ExpOut.bind (.ok _) (t.constructError (t.error.from mv e).made) id)
          rw [hfrom]
          exact Or.inr ⟨_, .inr e, Or.inl rfl, rfl, rfl, rfl⟩
      | inr e =>
        cases d with
        | inr e' =>
          rw [holds_error hd, if_neg (by rw [h.2.1]; simp)]
          exact reassignError_kept h _
        | inl w =>
          rw [holds_value hd, if_neg (by rw [h.2.1]; simp)]
          show Kept (if mv then t.moveValueOverError w s else t.copyValueOverError w s)
          cases mv with
          | true =>
            show Kept (t.moveValueOverError w s)
            unfold ExpTypes.moveValueOverError
            split
            · rename_i hn
              rw [holds_error h]
              show Kept (ExpOut.noexceptIf true (t.construct (t.value.move w).made ⟨none, false, []⟩))
              rw [made_of (hv.move w) (hv.nothrowMove hn w)]
              exact Or.inr ⟨_, .inl w, Or.inl rfl, rfl, rfl, rfl⟩
            · rw [(replaceError_eq t he hmove _ h).1]
              cases (t.value.move w).made with
              | some v => exact Or.inr ⟨_, .inl v, Or.inl rfl, rfl, rfl, rfl⟩
              | none => exact Or.inr ⟨_, .inr e, Or.inr rfl, h⟩
          | false =>
            show Kept (t.copyValueOverError w s)
            unfold ExpTypes.copyValueOverError
            by_cases hn : t.value.nothrowCopy = true
            · rw [if_pos hn, holds_error h, hn]
              show Kept (ExpOut.noexceptIf _ (t.construct (t.value.copy w).made ⟨none, false, []⟩))
              rw [made_of (hv.copy w) (hv.nothrowCopy hn w)]
              exact Or.inr ⟨_, .inl w, Or.inl rfl, rfl, rfl, rfl⟩
            · have hn' : t.value.nothrowMove = true := by rcases hcomp with h | h | h | h <;> simp_all
              rw [if_neg hn, if_pos hn', hn', Bool.or_true]
              cases hw : (t.value.copy w).made with
              | none => exact Or.inl rfl
              | some x =>
                rw [holds_error h]
                show Kept (ExpOut.noexceptIf _ (t.construct (t.value.move x).made ⟨none, false, []⟩))
                rw [made_of (hv.move x) (hv.nothrowMove hn' x)]
                exact Or.inr ⟨_, .inl x, Or.inl rfl, rfl, rfl, rfl⟩
  | value f nothrow =>
    show Kept (t.assignValue f nothrow s)
    unfold ExpTypes.assignValue
    cases c with
    | inl v => rw [if_pos (by rw [h.2.1]; rfl)]; exact reassignValue_kept h f
    | inr e =>
      rw [if_neg (by rw [h.2.1]; simp)]
      cases nothrow with
      | true =>
        have : f.made ≠ none := ho rfl
        rw [if_pos rfl, holds_error h]
        show Kept (t.construct f.made ⟨none, false, []⟩)
        cases hf : f.made with
        | none => exact absurd hf this
        | some v => exact Or.inr ⟨_, .inl v, Or.inl rfl, rfl, rfl, rfl⟩
      | false =>
        rw [if_neg (by simp), (replaceError_eq t he hmove _ h).2]
        cases f.made with
        | none => exact Or.inr ⟨_, .inr e, Or.inl rfl, h⟩
        | some v => exact Or.inr ⟨_, .inl v, Or.inl rfl, rfl, rfl, rfl⟩
  | error f =>
    show Kept (t.assignError f s)
    unfold ExpTypes.assignError
    cases c with
    | inr e => rw [if_pos (by rw [h.2.1]; rfl)]; exact reassignError_kept h f
    | inl v =>
      rw [if_neg (by rw [h.2.1]; simp), holds_value h]
      show Kept (t.constructError f.made ⟨none, true, []⟩)
      cases hf : f.made with
      | none => exact absurd hf ho
      | some e => exact Or.inr ⟨_, .inr e, Or.inl rfl, rfl, rfl, rfl⟩
  | emplace made nothrow =>
    obtain ⟨rfl, hne⟩ := ho
    show Kept (t.emplace made true s)
    unfold ExpTypes.emplace
    cases made with
    | none => exact absurd rfl hne
    | some w =>
      cases c with
      | inl v =>
        rw [if_pos (by rw [h.2.1]; rfl), holds_value h]
        exact Or.inr ⟨_, .inl w, Or.inl rfl, rfl, rfl, rfl⟩
      | inr e =>
        rw [if_neg (by rw [h.2.1]; simp), if_pos rfl, (replaceError_eq t he hmove _ h).1]
        exact Or.inr ⟨_, .inl w, Or.inl rfl, rfl, rfl, rfl⟩

theorem destroy_holds (t : ExpTypes V E) {s : ExpStorage V E} {c : V ⊕ E} (h : Holds s c) : t.destroy s = .ok ⟨none, c.isLeft, []⟩ := by
  cases c with
  | inl v => rw [holds_value h]; rfl
  | inr e => rw [holds_error h]; rfl

/-- C95. Whatever is done with an `expected`, in which order and with which exceptions, it always holds the object that its flag tells, and
    in the end every object has been destroyed, once. The errors must not throw in copies and moves (as `scan_error`), and `emplace` must not
    throw; the copy assignment is not compiled for types that throw in copies and moves. -/
theorem C95_lifetimes_partial (t : ExpTypes V E) (hv : ObjOk t.value) (he : ObjOk t.error) (hc : t.error.nothrowCopy = true) (hm : t.error.nothrowMove = true)
    (ops : List (ExpOp V E)) (ho : ∀ o ∈ ops, Mild t o) (s : ExpStorage V E) (c : V ⊕ E) (h : Holds s c) :
    t.run ops s = .terminated ∨ ∃ s', t.run ops s = .ok s' ∧ s'.live = none ∧ s'.lost = [] := by
  induction ops generalizing s c with
  | nil => exact Or.inr ⟨_, destroy_holds t h, rfl, rfl⟩
  | cons o os ih =>
    have ih := fun s c h => ih (fun o h => ho o (List.mem_cons_of_mem _ h)) s c h
    rcases op_kept t hv he hc hm o (ho o (List.mem_cons_self ..)) h with h | ⟨s', c', h | h, h'⟩
    · exact Or.inl (by unfold ExpTypes.run; rw [h])
    · unfold ExpTypes.run; rw [h]; exact ih s' c' h'
    · unfold ExpTypes.run; rw [h]; exact ih s' c' h'

/-! ### Where it fails -/

/-- C95 fails for the conversion from an `expected` of other types: a default value is made first, and never destroyed. (The conversion is
    compiled only if `expected_operations_base`, which has no default constructor of its own, inherits that of the storage.) -/
theorem C95_violated_convert (t : ExpTypes V E) (ht : t.value.trivial = false) (d : V) (fromU : U → Option V) (fromG : G → Option E)
    (other : ExpStorage U G) (c : U ⊕ G) (ho : Holds other c) (hu : ∀ u, fromU u ≠ none) (hg : ∀ g, fromG g ≠ none) :
    ∃ s, t.convertConstruct (some d) fromU fromG other = .ok s ∧ s.lost = [.inl d] := by
  cases c with
  | inl u =>
    rw [holds_value ho]
    cases hm : fromU u with
    | none => exact absurd hm (hu u)
    | some v =>
      refine ⟨⟨some (.inl v), true, [.inl d]⟩, ?_, rfl⟩
      simp [ExpTypes.convertConstruct, ExpTypes.defaultConstruct, ExpTypes.construct, ExpOut.noexceptIf, ExpOut.bind, ExpTypes.unwind, ExpOut.need, ExpStorage.getValue, hm,
        ExpTypes.lose, ht, ExpOut.catchRethrow]
  | inr g =>
    rw [holds_error ho]
    cases hm : fromG g with
    | none => exact absurd hm (hg g)
    | some e =>
      refine ⟨⟨some (.inr e), false, [.inl d]⟩, ?_, rfl⟩
      simp [ExpTypes.convertConstruct, ExpTypes.defaultConstruct, ExpTypes.construct, ExpTypes.constructError, ExpOut.noexceptIf, ExpOut.bind, ExpTypes.unwind, ExpOut.need,
        ExpStorage.getError, hm, ExpTypes.lose, ht, ExpOut.catchRethrow]

/-- C95 fails for `emplace` with a constructor that may throw: over an error, the error is not destroyed, and if the constructor does throw, the
    destructor destroys what is not alive; so does it over a value. -/
theorem C95_violated_emplace (t : ExpTypes V E) (v w : V) (e : E) :
    (t.error.trivial = false → ∃ s, t.emplace (some w) false (.ofError e) = .ok s ∧ s.lost = [.inr e]) ∧
    (t.error.trivial = false → t.run [.emplace none false] (.ofError e) = .ub) ∧
    (t.value.trivial = false → t.run [.emplace none false] (.ofValue v) = .ub) := by
  refine ⟨fun h => ⟨⟨some (.inl w), true, [.inr e]⟩, ?_, rfl⟩, fun h => ?_, fun h => ?_⟩
  · simp [ExpTypes.emplace, ExpStorage.ofError, ExpTypes.construct, ExpTypes.lose, h, ExpOut.noexceptIf]
  · simp [ExpTypes.run, ExpTypes.op, ExpTypes.emplace, ExpStorage.ofError, ExpTypes.construct, ExpTypes.lose, h, ExpOut.noexceptIf, ExpTypes.destroy, ExpTypes.destroyError]
  · simp [ExpTypes.run, ExpTypes.op, ExpTypes.emplace, ExpStorage.ofValue, ExpTypes.construct, ExpTypes.lose, h, ExpOut.noexceptIf, ExpTypes.destroy, ExpTypes.destroyValue,
      ExpOut.bind]

/-- C95 fails for the assignment of an error over a value, if the error cannot be made: the value is destroyed twice. -/
theorem C95_violated_error (t : ExpTypes V E) (ht : t.value.trivial = false) (v : V) (f : ExpFrom E) (hf : f.made = none) :
    t.run [.error f] (.ofValue v) = .ub := by
  simp [ExpTypes.run, ExpTypes.op, ExpTypes.assignError, ExpStorage.ofValue, ExpTypes.constructError, ExpTypes.lose, hf, ExpTypes.destroy, ExpTypes.destroyValue, ExpOut.bind, ht]

/-- C95 fails for a copy that throws, if errors have a destructor: an error that was never made is destroyed. -/
theorem C95_violated_copy (t : ExpTypes V E) (he : ObjOk t.error) (ht : t.error.trivial = false) (mv : Bool) (v : V) (hv : (t.value.from mv v).made = none) :
    t.copyConstruct mv (.ofValue v) = .ub := by
  have hc : t.trivialCopy = false := by
    cases h : t.error.trivialCopy with
    | false => simp [ExpTypes.trivialCopy, h]
    | true => rw [(he.trivialCopy h).1] at ht; cases ht
  simp [ExpTypes.copyConstruct, hc, ExpStorage.ofValue, ExpOut.need, ExpStorage.getValue, hv, ExpTypes.construct, ExpTypes.unwind, ExpOut.catchRethrow, ExpTypes.destroy,
    ExpStorage.deferred, ExpTypes.destroyError, ht, ExpOut.bind]

/-! ### Assignments -/

theorem reassignValue_ok {s s' : ExpStorage V E} {f : ExpFrom V} {v : V} (hf : Faithful f v) {c : V ⊕ E} (h : Holds s c) (ho : s.reassignValue f = .ok s') :
    s' = ⟨some (.inl v), true, []⟩ := by
  cases c with
  | inr e => rw [holds_error h] at ho; cases ho
  | inl w =>
    rw [holds_value h] at ho
    replace ho : (if (f.assign w).2 then ExpOut.threw ⟨some (.inl (f.assign w).1), true, []⟩ else .ok ⟨some (.inl (f.assign w).1), true, []⟩) = .ok s' := ho
    split at ho
    · cases ho
    · rename_i hn
      cases ho
      rw [hf.2 w (f.assign w).1 (by simp only [Bool.not_eq_true] at hn; rw [← hn])]

theorem reassignError_ok {s s' : ExpStorage V E} {f : ExpFrom E} {e : E} (hf : Faithful f e) {c : V ⊕ E} (h : Holds s c) (ho : s.reassignError f = .ok s') :
    s' = ⟨some (.inr e), false, []⟩ := by
  cases c with
  | inl v => rw [holds_value h] at ho; cases ho
  | inr w =>
    rw [holds_error h] at ho
    replace ho : (if (f.assign w).2 then ExpOut.threw ⟨some (.inr (f.assign w).1), false, []⟩ else .ok ⟨some (.inr (f.assign w).1), false, []⟩) = .ok s' := ho
    split at ho
    · cases ho
    · rename_i hn
      cases ho
      rw [hf.2 w (f.assign w).1 (by simp only [Bool.not_eq_true] at hn; rw [← hn])]

theorem construct_ok {t : ExpTypes V E} {made : Option V} {s s' : ExpStorage V E} (h : t.construct made s = .ok s') :
    ∃ v, made = some v ∧ s'.live = some (.inl v) ∧ s'.hasValue = true := by
  cases made with
  | none => cases h
  | some v => cases h; exact ⟨v, rfl, rfl, rfl⟩

theorem constructError_ok {t : ExpTypes V E} {made : Option E} {s s' : ExpStorage V E} (h : t.constructError made s = .ok s') :
    ∃ e, made = some e ∧ s'.live = some (.inr e) ∧ s'.hasValue = false := by
  cases made with
  | none => cases h
  | some v => cases h; exact ⟨v, rfl, rfl, rfl⟩

theorem expBind_ok {S R : Type} {o : ExpOut S} {k : S → ExpOut R} {conv : S → R} {r : R} (h : o.bind k conv = .ok r) : ∃ s, o = .ok s ∧ k s = .ok r := by
  cases o with
  | ok s => exact ⟨s, rfl, h⟩
  | _ => cases h

theorem noexceptIf_ok {S : Type} {b : Bool} {o : ExpOut S} {s : S} (h : o.noexceptIf b = .ok s) : o = .ok s := by
  cases o with
  | threw x => unfold ExpOut.noexceptIf at h; simp only at h; split at h <;> cases h
  | _ => exact h

theorem catchRethrow_ok {S : Type} {o : ExpOut S} {k : S → ExpOut S} {s : S} (h : o.catchRethrow k = .ok s) : o = .ok s := by
  cases o with
  | threw x =>
    replace h : (k x).bind .threw id = .ok s := h
    obtain ⟨y, _, hy⟩ := expBind_ok h
    cases hy
  | _ => exact h

theorem replaceError_ok {t : ExpTypes V E} {made : Option V} {s s' : ExpStorage V E} (h : t.replaceError made ExpOut.catchRethrow s = .ok s') :
    ∃ v, made = some v ∧ s'.live = some (.inl v) ∧ s'.hasValue = true := by
  unfold ExpTypes.replaceError at h
  cases hg : s.getError with
  | none => rw [hg] at h; cases h
  | some e =>
    rw [hg] at h
    simp only [ExpOut.need] at h
    split at h
    · cases h
    · obtain ⟨x, _, hx⟩ := expBind_ok h
      exact construct_ok (catchRethrow_ok hx)

theorem replaceError_ok' {t : ExpTypes V E} {v : V} {s s' : ExpStorage V E} (h : t.replaceError (some v) ExpOut.catchAll s = .ok s') :
    s'.live = some (.inl v) ∧ s'.hasValue = true := by
  unfold ExpTypes.replaceError at h
  cases hg : s.getError with
  | none => rw [hg] at h; cases h
  | some e =>
    rw [hg] at h
    simp only [ExpOut.need] at h
    split at h
    · cases h
    · obtain ⟨x, _, hx⟩ := expBind_ok h
      cases hx
      exact ⟨rfl, rfl⟩

/-- C96. If an assignment or `emplace` returns, the `expected` holds what was assigned; but for the assignment of a value over an error
    whose constructor throws. -/
theorem C96_assigned_partial (t : ExpTypes V E) (hv : ObjOk t.value) (he : ObjOk t.error) (o : ExpOp V E) (s s' : ExpStorage V E) (c c' : V ⊕ E)
    (h : Holds s c) (hc : Target o c') (hsw : ∀ f nothrow, o = .value f nothrow → s.hasValue = false → f.made ≠ none) (ho : t.op o s = .ok s') :
    s'.live = some c' ∧ s'.hasValue = c'.isLeft := by
  cases o with
  | assign mv other =>
    have hd : Holds other c' := hc
    replace ho : t.assignFrom mv other s = .ok s' := ho
    unfold ExpTypes.assignFrom at ho
    split at ho
    · cases ho; exact ⟨hd.1, hd.2.1⟩
    split at ho
    · cases ho
    cases c' with
    | inl w =>
      rw [holds_value hd] at ho
      rw [if_pos rfl, if_pos rfl] at ho
      split at ho
      · replace ho : s.reassignValue (t.value.from mv w) = .ok s' := ho
        rw [reassignValue_ok (from_faithful hv mv w) h ho]
        exact ⟨rfl, rfl⟩
      · replace ho : (if mv then t.moveValueOverError w s else t.copyValueOverError w s) = .ok s' := ho
        split at ho
        · unfold ExpTypes.moveValueOverError at ho
          split at ho
          · obtain ⟨x, _, hx⟩ := expBind_ok (noexceptIf_ok ho)
            obtain ⟨v, hm, h1, h2⟩ := construct_ok hx
            rw [(hv.move w).1 v hm] at h1
            exact ⟨h1, h2⟩
          · obtain ⟨v, hm, h1, h2⟩ := replaceError_ok ho
            rw [(hv.move w).1 v hm] at h1
            exact ⟨h1, h2⟩
        · unfold ExpTypes.copyValueOverError at ho
          replace ho := noexceptIf_ok ho
          split at ho
          · obtain ⟨x, _, hx⟩ := expBind_ok ho
            obtain ⟨v, hm, h1, h2⟩ := construct_ok hx
            rw [(hv.copy w).1 v hm] at h1
            exact ⟨h1, h2⟩
          · split at ho
            · split at ho
              · cases ho
              · rename_i tmp htmp
                obtain ⟨x, _, hx⟩ := expBind_ok ho
                obtain ⟨v, hm, h1, h2⟩ := construct_ok hx
                rw [(hv.move tmp).1 v hm, (hv.copy w).1 tmp htmp] at h1
                exact ⟨h1, h2⟩
            · cases ho
    | inr e =>
      rw [holds_error hd] at ho
      simp only [Bool.false_eq_true, if_false] at ho
      split at ho
      · replace ho : (t.destroyValue s).bind (t.constructError (t.error.from mv e).made) id = .ok s' := ho
        obtain ⟨x, _, hx⟩ := expBind_ok ho
        obtain ⟨v, hm, h1, h2⟩ := constructError_ok hx
        rw [(from_faithful he mv e).1 v hm] at h1
        exact ⟨h1, h2⟩
      · replace ho : s.reassignError (t.error.from mv e) = .ok s' := ho
        rw [reassignError_ok (from_faithful he mv e) h ho]
        exact ⟨rfl, rfl⟩
  | value f nothrow =>
    obtain ⟨v, hf, rfl⟩ := hc
    replace ho : t.assignValue f nothrow s = .ok s' := ho
    unfold ExpTypes.assignValue at ho
    split at ho
    · rw [reassignValue_ok hf h ho]; exact ⟨rfl, rfl⟩
    · rename_i hn
      have hm := made_of hf (hsw f nothrow rfl (by simpa using hn))
      rw [hm] at ho
      split at ho
      · obtain ⟨x, _, hx⟩ := expBind_ok ho
        cases hx
        exact ⟨rfl, rfl⟩
      · exact replaceError_ok' ho
  | error f =>
    obtain ⟨e, hf, rfl⟩ := hc
    replace ho : t.assignError f s = .ok s' := ho
    unfold ExpTypes.assignError at ho
    split at ho
    · rw [reassignError_ok hf h ho]; exact ⟨rfl, rfl⟩
    · obtain ⟨x, _, hx⟩ := expBind_ok ho
      obtain ⟨v, hm, h1, h2⟩ := constructError_ok hx
      rw [hf.1 v hm] at h1
      exact ⟨h1, h2⟩
  | emplace made nothrow =>
    obtain ⟨v, rfl, hw⟩ := hc
    replace ho : t.emplace made nothrow s = .ok s' := ho
    unfold ExpTypes.emplace at ho
    replace ho := noexceptIf_ok ho
    have key : ∃ v, made = some v ∧ s'.live = some (.inl v) ∧ s'.hasValue = true := by
      split at ho
      · obtain ⟨x, _, hx⟩ := expBind_ok ho
        exact construct_ok hx
      · split at ho
        · exact replaceError_ok ho
        · exact construct_ok ho
    obtain ⟨w, hm, h1, h2⟩ := key
    rw [hw w hm] at h1
    exact ⟨h1, h2⟩

/-- C96. Where nothing throws, every assignment and `emplace` returns. -/
theorem C96_returns (t : ExpTypes V E) (he : ObjOk t.error) (hm : ∀ e, (t.error.move e).made ≠ none) (o : ExpOp V E) (ho : ThrowsNot t o)
    (hvm : ∀ v, (t.value.move v).made ≠ none) (s : ExpStorage V E) (c : V ⊕ E) (h : Holds s c) : ∃ s', t.op o s = .ok s' := by
  have hr : ∀ f : ExpFrom V, (∀ o, (f.assign o).2 = false) → s.hasValue = true → ∃ s', s.reassignValue f = .ok s' := by
    intro f hf hs
    cases c with
    | inr e => rw [h.2.1] at hs; cases hs
    | inl v =>
      refine ⟨⟨some (.inl (f.assign v).1), true, []⟩, ?_⟩
      rw [holds_value h]
      show (if (f.assign v).2 then _ else _) = _
      rw [hf v]; rfl
  have hre : ∀ f : ExpFrom E, (∀ o, (f.assign o).2 = false) → s.hasValue = false → ∃ s', s.reassignError f = .ok s' := by
    intro f hf hs
    cases c with
    | inl e => rw [h.2.1] at hs; cases hs
    | inr v =>
      refine ⟨⟨some (.inr (f.assign v).1), false, []⟩, ?_⟩
      rw [holds_error h]
      show (if (f.assign v).2 then _ else _) = _
      rw [hf v]; rfl
  have hde : s.hasValue = false → t.destroyError s = .ok ⟨none, false, []⟩ := by
    intro hs
    cases c with
    | inl e => rw [h.2.1] at hs; cases hs
    | inr e => rw [holds_error h]; rfl
  have hdv : s.hasValue = true → t.destroyValue s = .ok ⟨none, true, []⟩ := by
    intro hs
    cases c with
    | inr e => rw [h.2.1] at hs; cases hs
    | inl e => rw [holds_value h]; rfl
  have hmk : ∀ {made : Option V} {x : ExpStorage V E}, made ≠ none → ∃ s', t.construct made x = .ok s' := by
    intro made x hne
    cases made with
    | none => exact absurd rfl hne
    | some v => exact ⟨_, rfl⟩
  have hmke : ∀ {made : Option E} {x : ExpStorage V E}, made ≠ none → ∃ s', t.constructError made x = .ok s' := by
    intro made x hne
    cases made with
    | none => exact absurd rfl hne
    | some v => exact ⟨_, rfl⟩
  have hrep : ∀ {made : Option V}, made ≠ none → s.hasValue = false →
      (∃ s', t.replaceError made ExpOut.catchRethrow s = .ok s') ∧ ∃ s', t.replaceError made ExpOut.catchAll s = .ok s' := by
    intro made hne hs
    cases c with
    | inl e => rw [h.2.1] at hs; cases hs
    | inr e =>
      have := replaceError_eq t he hm made h
      refine ⟨?_, _, this.2⟩
      cases made with
      | none => exact absurd rfl hne
      | some v => exact ⟨_, this.1⟩
  have hnx : ∀ {o : ExpOut (ExpStorage V E)} {b}, (∃ s', o = .ok s') → ∃ s', o.noexceptIf b = .ok s' := by
    rintro _ b ⟨s', rfl⟩; exact ⟨s', rfl⟩
  cases o with
  | assign mv other =>
    obtain ⟨⟨d, hd⟩, h1, h2, hcomp⟩ := ho
    show ∃ s', t.assignFrom mv other s = .ok s'
    unfold ExpTypes.assignFrom
    cases ht : t.trivialCopy with
    | true => exact ⟨_, rfl⟩
    | false =>
      rw [if_neg (by simp), if_neg (by rcases hcomp with h | h | h | h <;> simp_all)]
      cases d with
      | inl w =>
        rw [holds_value hd, if_pos rfl, if_pos rfl]
        by_cases hs : s.hasValue = true
        · rw [if_pos hs]; exact hr _ (h1 w).2 hs
        · rw [if_neg hs]
          have hs : s.hasValue = false := by simpa using hs
          show ∃ s', (if mv then t.moveValueOverError w s else t.copyValueOverError w s) = .ok s'
          cases mv with
          | true =>
            show ∃ s', t.moveValueOverError w s = .ok s'
            unfold ExpTypes.moveValueOverError
            split
            · apply hnx; rw [hde hs]; exact hmk (hvm w)
            · exact (hrep (hvm w) hs).1
          | false =>
            show ∃ s', t.copyValueOverError w s = .ok s'
            unfold ExpTypes.copyValueOverError
            apply hnx
            by_cases hn : t.value.nothrowCopy = true
            · rw [if_pos hn, hde hs]; exact hmk (h1 w).1
            · have hn' : t.value.nothrowMove = true := by rcases hcomp with h | h | h | h <;> simp_all
              rw [if_neg hn, if_pos hn', hde hs]
              cases hw : (t.value.copy w).made with
              | none => exact absurd hw (h1 w).1
              | some x => exact hmk (hvm x)
      | inr e =>
        rw [holds_error hd]
        simp only [Bool.false_eq_true, if_false]
        by_cases hs : s.hasValue = true
        · rw [if_pos hs, hdv hs]; exact hmke (h2 e).1
        · rw [if_neg hs]; exact hre _ (h2 e).2 (by simpa using hs)
  | value f nothrow =>
    show ∃ s', t.assignValue f nothrow s = .ok s'
    unfold ExpTypes.assignValue
    by_cases hs : s.hasValue = true
    · rw [if_pos hs]; exact hr _ ho.2 hs
    · rw [if_neg hs]
      have hs : s.hasValue = false := by simpa using hs
      split
      · rw [hde hs]; exact hmk ho.1
      · exact (hrep ho.1 hs).2
  | error f =>
    show ∃ s', t.assignError f s = .ok s'
    unfold ExpTypes.assignError
    by_cases hs : s.hasValue = true
    · rw [if_neg (by simp [hs]), hdv hs]; exact hmke ho.1
    · have hs : s.hasValue = false := by simpa using hs
      rw [if_pos (by simp [hs])]; exact hre _ ho.2 hs
  | emplace made nothrow =>
    show ∃ s', t.emplace made nothrow s = .ok s'
    unfold ExpTypes.emplace
    apply hnx
    by_cases hs : s.hasValue = true
    · rw [if_pos hs, hdv hs]; exact hmk ho
    · have hs : s.hasValue = false := by simpa using hs
      rw [if_neg (by simp [hs])]
      split
      · exact (hrep ho hs).1
      · exact hmk ho

/-- C96. If a value cannot be moved over an error, the exception is thrown on and the `expected` is as before. -/
theorem C96_unchanged_partial (t : ExpTypes V E) (hv : ObjOk t.value) (he : ObjOk t.error) (hm : ∀ e, (t.error.move e).made ≠ none) (v : V) (e : E)
    (hthrow : (t.value.move v).made = none) : t.op (.assign true (.ofValue v)) (.ofError e) = .threw (.ofError e) := by
  have hn : t.value.nothrowMove = false := by
    cases h : t.value.nothrowMove with
    | false => rfl
    | true => exact absurd hthrow (hv.nothrowMove h v)
  have ht : t.trivialCopy = false := by
    cases h : t.value.trivialCopy with
    | false => simp [ExpTypes.trivialCopy, h]
    | true => rw [(hv.trivialCopy h).2.2] at hn; cases hn
  show t.assignFrom true (.ofValue v) (.ofError e) = _
  unfold ExpTypes.assignFrom
  rw [if_neg (by simp [ht]), if_neg (by simp)]
  show t.moveValueOverError v (.ofError e) = _
  unfold ExpTypes.moveValueOverError
  rw [if_neg (by simp [hn]), (replaceError_eq t he hm _ (e := e) ⟨rfl, rfl, rfl⟩).1, hthrow]

/-- C96 fails for the assignment of a value over an error: if its constructor throws, the exception is swallowed, and the assignment returns
    with the old error in place. -/
theorem C96_violated_swallowed (t : ExpTypes V E) (he : ObjOk t.error) (hm : ∀ e, (t.error.move e).made ≠ none) (f : ExpFrom V) (hf : f.made = none) (e : E) :
    t.op (.value f false) (.ofError e) = .ok (.ofError e) := by
  show t.assignValue f false (.ofError e) = _
  unfold ExpTypes.assignValue
  rw [if_neg (by simp [ExpStorage.ofError]), if_neg (by simp), (replaceError_eq t he hm _ (e := e) ⟨rfl, rfl, rfl⟩).2, hf]

/-- C96 fails for the copy of a value over an error, if moves do not throw (such as those of `std::string`): if the copy throws, the program is
    terminated. -/
theorem C96_violated_terminated (t : ExpTypes V E) (hv : ObjOk t.value) (hn : t.value.nothrowMove = true) (v : V) (e : E)
    (hthrow : (t.value.copy v).made = none) : t.op (.assign false (.ofValue v)) (.ofError e) = .terminated := by
  have hc : t.value.nothrowCopy = false := by
    cases h : t.value.nothrowCopy with
    | false => rfl
    | true => exact absurd hthrow (hv.nothrowCopy h v)
  have ht : t.trivialCopy = false := by
    cases h : t.value.trivialCopy with
    | false => simp [ExpTypes.trivialCopy, h]
    | true => rw [(hv.trivialCopy h).2.1] at hc; cases hc
  show t.assignFrom false (.ofValue v) (.ofError e) = _
  unfold ExpTypes.assignFrom
  rw [if_neg (by simp [ht]), if_neg (by simp [hn])]
  show t.copyValueOverError v (.ofError e) = _
  unfold ExpTypes.copyValueOverError
  rw [if_neg (by simp [hc]), if_pos hn, hthrow, hn, Bool.or_true]
  rfl

/-- C96 fails for a default value whose constructor throws, if there is a destructor: the program is terminated. -/
theorem C96_violated_default (t : ExpTypes V E) (ht : t.value.trivial = false) : t.defaultConstruct none = .terminated := by
  simp [ExpTypes.defaultConstruct, ExpTypes.construct, ExpOut.noexceptIf, ht]

/-- C96 fails for the copy assignment of values that may throw in copies and moves: it is not compiled. -/
theorem C96_violated_compile (t : ExpTypes V E) (hv : ObjOk t.value) (hc : t.value.nothrowCopy = false) (hm : t.value.nothrowMove = false) (other s : ExpStorage V E) :
    t.op (.assign false other) s = .noCompile := by
  have ht : t.trivialCopy = false := by
    cases h : t.value.trivialCopy with
    | false => simp [ExpTypes.trivialCopy, h]
    | true => rw [(hv.trivialCopy h).2.1] at hc; cases hc
  show t.assignFrom false other s = _
  unfold ExpTypes.assignFrom
  rw [if_neg (by simp [ht]), if_pos (by simp [hc, hm])]

/-! ### Examples -/

/-- A string that cannot be copied if it has more than three units, for want of memory; it can always be moved. -/
def exStringTy : ObjTy (List Nat) where
  copy a := ⟨if a.length ≤ 3 then some a else none, fun o => if a.length ≤ 3 then (a, false) else (o, true)⟩
  move a := ⟨some a, fun _ => (a, false)⟩
  nothrowCopy := false
  nothrowMove := true
  trivial := false
  trivialCopy := false

/-- A type such as `scan_error`. -/
def exErrorTy : ObjTy Nat where
  copy a := ⟨some a, fun _ => (a, false)⟩
  move a := ⟨some a, fun _ => (a, false)⟩
  nothrowCopy := true
  nothrowMove := true
  trivial := true
  trivialCopy := true

theorem exString_ok : ObjOk exStringTy where
  copy a := by
    constructor
    · intro b h; simp only [exStringTy] at h; split at h <;> simp_all
    · intro o w h; simp only [exStringTy] at h; split at h <;> simp_all
  move a := ⟨fun b h => by simpa [exStringTy] using h.symm, fun o w h => by simpa [exStringTy] using h.symm⟩
  nothrowCopy h := by cases h
  nothrowMove _ a := by simp [exStringTy]
  trivialCopy h := by cases h

theorem exError_ok : ObjOk exErrorTy where
  copy a := ⟨fun b h => by simpa [exErrorTy] using h.symm, fun o w h => by simpa [exErrorTy] using h.symm⟩
  move a := ⟨fun b h => by simpa [exErrorTy] using h.symm, fun o w h => by simpa [exErrorTy] using h.symm⟩
  nothrowCopy _ a := by simp [exErrorTy]
  nothrowMove _ a := by simp [exErrorTy]
  trivialCopy _ := ⟨rfl, rfl, rfl⟩

/-- `expected<std::string, scan_error>` -/
def exExpected : ExpTypes (List Nat) Nat := ⟨exStringTy, exErrorTy⟩

/-- A copy that throws leaves nothing behind. -/
example : Created (exExpected.copyConstruct false (.ofValue [1, 2, 3, 4])) (fun d => d = .inl [1, 2, 3, 4]) :=
  (C95_created_partial exExpected exString_ok exError_ok false none none _ _ ⟨rfl, rfl, rfl⟩ (Or.inl rfl)).2.2

/-- A value is assigned, an error, and then a value is moved over the error. -/
example : exExpected.run [.value ⟨some [7], fun _ => ([7], false)⟩ false, .error ⟨some 5, fun _ => (5, false)⟩, .assign true (.ofValue [1, 2, 3, 4])] (.ofError 3) =
    .ok ⟨none, true, []⟩ := by decide

/-- The same by the theorem. -/
example : exExpected.run [.value ⟨some [7], fun _ => ([7], false)⟩ false, .error ⟨some 5, fun _ => (5, false)⟩, .assign true (.ofValue [1, 2, 3, 4])] (.ofError 3) = .terminated ∨
    ∃ s', exExpected.run [.value ⟨some [7], fun _ => ([7], false)⟩ false, .error ⟨some 5, fun _ => (5, false)⟩, .assign true (.ofValue [1, 2, 3, 4])] (.ofError 3) = .ok s' ∧
      s'.live = none ∧ s'.lost = [] :=
  C95_lifetimes_partial exExpected exString_ok exError_ok rfl rfl _ (by
    intro o ho
    rcases List.mem_cons.1 ho with rfl | ho
    · intro h; cases h
    rcases List.mem_cons.1 ho with rfl | ho
    · intro h; cases h
    rcases List.mem_cons.1 ho with rfl | ho
    · exact ⟨⟨_, rfl, rfl, rfl⟩, Or.inl rfl⟩
    · cases ho) _ (.inr 3) ⟨rfl, rfl, rfl⟩

/-- `expected<std::string, scan_error>` from an `expected<const char*, scan_error>`: the empty string is lost. -/
example : ∃ s, exExpected.convertConstruct (some []) (fun (u : List Nat) => some u) (fun (g : Nat) => some g) (.ofValue [65]) = .ok s ∧ s.lost = [.inl []] :=
  C95_violated_convert exExpected rfl [] _ _ _ (.inl [65]) ⟨rfl, rfl, rfl⟩ (by simp) (by simp)

/-- `emplace` over a string, with a constructor that throws -/
example : exExpected.run [.emplace none false] (.ofValue [65]) = .ub := (C95_violated_emplace exExpected [65] [] 0).2.2 rfl

/-- `expected<int, std::string>` with the errors of `exStringTy` -/
example : (⟨exErrorTy, exStringTy⟩ : ExpTypes Nat (List Nat)).run [.emplace none false] (.ofError [65]) = .ub :=
  (C95_violated_emplace ⟨exErrorTy, exStringTy⟩ 0 0 [65]).2.1 rfl

/-- A string is destroyed twice if an error cannot be made. -/
example : exExpected.run [.error ⟨none, fun o => (o, true)⟩] (.ofValue [65]) = .ub := C95_violated_error exExpected rfl [65] _ rfl

/-- `expected<std::string, std::string>`: the copy of a string throws. -/
example : (⟨exStringTy, exStringTy⟩ : ExpTypes (List Nat) (List Nat)).copyConstruct false (.ofValue [1, 2, 3, 4]) = .ub :=
  C95_violated_copy ⟨exStringTy, exStringTy⟩ exString_ok rfl false _ (by decide)

/-- A string is assigned over an error. -/
example : ∃ s', exExpected.op (.value (exStringTy.copy [1, 2]) false) (.ofError 3) = .ok s' ∧ s'.live = some (.inl [1, 2]) ∧ s'.hasValue = true := by
  obtain ⟨s', h⟩ := C96_returns exExpected exError_ok (by simp [exExpected, exErrorTy]) (.value (exStringTy.copy [1, 2]) false)
    ⟨by decide, by intro o; rfl⟩ (by simp [exExpected, exStringTy]) (.ofError 3) (.inr 3) ⟨rfl, rfl, rfl⟩
  exact ⟨s', h, C96_assigned_partial exExpected exString_ok exError_ok (.value (exStringTy.copy [1, 2]) false) (.ofError 3) s' (.inr 3) (.inl [1, 2]) ⟨rfl, rfl, rfl⟩ ⟨_, exString_ok.copy _, rfl⟩
    (by intro f n h _; cases h; decide) h⟩

/-- A string of four units is assigned over an error: nothing happens. -/
example : exExpected.op (.value (exStringTy.copy [1, 2, 3, 4]) false) (.ofError 3) = .ok (.ofError 3) :=
  C96_violated_swallowed exExpected exError_ok (by simp [exExpected, exErrorTy]) _ (by decide) 3

/-- An `expected` with a string of four units is assigned to one with an error. -/
example : exExpected.op (.assign false (.ofValue [1, 2, 3, 4])) (.ofError 3) = .terminated :=
  C96_violated_terminated exExpected exString_ok rfl _ 3 (by decide)

/-- A type whose copies and moves may throw, and do so for the value 9. -/
def exThrowingTy : ObjTy Nat :=
  { exErrorTy with
    copy := fun a => ⟨if a = 9 then none else some a, fun o => if a = 9 then (o, true) else (a, false)⟩
    move := fun a => ⟨if a = 9 then none else some a, fun o => if a = 9 then (o, true) else (a, false)⟩
    nothrowCopy := false, nothrowMove := false, trivial := false, trivialCopy := false }

theorem exThrowing_ok : ObjOk exThrowingTy := by
  have key : ∀ a : Nat, Faithful (⟨if a = 9 then none else some a, fun o => if a = 9 then (o, true) else (a, false)⟩ : ExpFrom Nat) a := by
    intro a
    by_cases h : a = 9
    · simp [Faithful, h]
    · simp only [Faithful, h, if_false]
      exact ⟨fun b hb => (Option.some.inj hb).symm, fun o w hw => (Prod.mk.inj hw).1.symm⟩
  exact ⟨key, key, (by intro h; cases h), (by intro h; cases h), (by intro h; cases h)⟩

/-- A value whose move throws is moved over an error. -/
example : (⟨exThrowingTy, exErrorTy⟩ : ExpTypes Nat Nat).op (.assign true (.ofValue 9)) (.ofError 3) = .threw (.ofError 3) :=
  C96_unchanged_partial ⟨exThrowingTy, exErrorTy⟩ exThrowing_ok exError_ok (by simp [exErrorTy]) 9 3 rfl

/-- A string whose default constructor throws -/
example : exExpected.defaultConstruct none = .terminated := C96_violated_default exExpected rfl

/-- One value is assigned to another. -/
example : (⟨exThrowingTy, exErrorTy⟩ : ExpTypes Nat Nat).op (.assign false (.ofValue 1)) (.ofValue 2) = .noCompile :=
  C96_violated_compile ⟨exThrowingTy, exErrorTy⟩ exThrowing_ok rfl rfl _ _

/-! ### Operations with functions -/

theorem shows_error {s : ExpStorage V E} {e : E} (h : IsSum s (.error e)) : s = .ofError e := holds_error h

theorem shows_value {s : ExpStorage V E} {v : V} (h : IsSum s (.ok v)) : s = .ofValue v := holds_value h

/-- C97. The operations with functions are defined, call the function exactly on the object that is there, pass the other one on, and have the
    result of the function: they are those of sums. -/
theorem C97_refines (s : ExpStorage V E) (x : Except E V) (h : IsSum s x) :
    (∀ (f : V → ExpStorage U E) (g : V → Except E U), (∀ v, x = .ok v → IsSum (f v) (g v)) → ∃ r, s.andThen f = some r ∧ IsSum r (x.bind g)) ∧
    (∀ (f : E → ExpStorage V G) (g : E → Except G V), (∀ e, x = .error e → IsSum (f e) (g e)) →
      ∃ r, s.orElse f = some r ∧ IsSum r (handled g x)) ∧
    (∀ f : V → U, ∃ r, s.transform f = some r ∧ IsSum r (x.map f)) ∧
    (∀ f : E → G, ∃ r, s.transformError f = some r ∧ IsSum r (x.mapError f)) ∧
    (∀ d, s.valueOr d = some (valueElse d x)) ∧
    ∀ d, s.errorOr d = some (errorElse d x) := by
  cases x with
  | ok v =>
    rw [shows_value h]
    exact ⟨fun f g hf => ⟨f v, rfl, hf v rfl⟩, fun f g hf => ⟨.ofValue v, rfl, rfl, rfl, rfl⟩, fun f => ⟨.ofValue (f v), rfl, rfl, rfl, rfl⟩,
      fun f => ⟨.ofValue v, rfl, rfl, rfl, rfl⟩, fun d => rfl, fun d => rfl⟩
  | error e =>
    rw [shows_error h]
    exact ⟨fun f g hf => ⟨.ofError e, rfl, rfl, rfl, rfl⟩, fun f g hf => ⟨f e, rfl, hf e rfl⟩, fun f => ⟨.ofError e, rfl, rfl, rfl, rfl⟩,
      fun f => ⟨.ofError (f e), rfl, rfl, rfl, rfl⟩, fun d => rfl, fun d => rfl⟩

/-- C97. Chains of scans: the order in which `and_then` is nested does not matter, and the first error ends the chain; `transform` is
    `and_then` with a function that makes values, and neither changes an error; errors are handled once. -/
theorem C97_laws {W : Type} (s : ExpStorage V E) (x : Except E V) (h : IsSum s x) (f : V → ExpStorage U E) (g : U → ExpStorage W E) (k : V → U)
    (hf : ∀ v, ∃ y, IsSum (f v) y) :
    ((s.andThen f).bind fun r => r.andThen g) = s.andThen (fun v => ((f v).andThen g).getD .deferred) ∧
    s.transform k = s.andThen (fun v => .ofValue (k v)) ∧
    (∀ e, x = .error e → ((s.andThen f).bind fun r => r.andThen g) = some (.ofError e)) ∧
    (∀ (p : E → ExpStorage V E), ((s.andThen (U := V) .ofValue).bind fun r => r.orElse p) = s.orElse p) := by
  cases x with
  | ok v =>
    rw [shows_value h]
    refine ⟨?_, rfl, fun e he => (by cases he), fun p => rfl⟩
    obtain ⟨y, hy⟩ := hf v
    show (f v).andThen g = some (((f v).andThen g).getD .deferred)
    cases y with
    | ok u => rw [shows_value hy]; rfl
    | error e => rw [shows_error hy]; rfl
  | error e =>
    rw [shows_error h]
    exact ⟨rfl, rfl, fun e he => (by cases he; rfl), fun p => rfl⟩

/-- A failed scan is not continued; the error is turned into a default. -/
example : ∃ r, (ExpStorage.ofError 3 : ExpStorage Nat Nat).orElse (fun _ => (.ofValue 0 : ExpStorage Nat Nat)) = some r ∧ IsSum r (.ok 0) :=
  (C97_refines (U := Nat) _ (.error 3) ⟨rfl, rfl, rfl⟩).2.1 _ (fun _ => .ok 0) (fun _ _ => ⟨rfl, rfl, rfl⟩)

/-- Two scans one after the other -/
example : ((ExpStorage.ofValue 4 : ExpStorage Nat Nat).andThen (fun n => (.ofValue (n + 1) : ExpStorage Nat Nat))).bind
      (fun r => r.andThen fun n => if n = 5 then (.ofError 7 : ExpStorage Nat Nat) else .ofValue n) =
    (ExpStorage.ofValue 4 : ExpStorage Nat Nat).andThen fun n => ((ExpStorage.ofValue (n + 1) : ExpStorage Nat Nat).andThen
      fun n => if n = 5 then (.ofError 7 : ExpStorage Nat Nat) else .ofValue n).getD .deferred :=
  (C97_laws _ (.ok 4) ⟨rfl, rfl, rfl⟩ _ _ (fun n => n) (fun v => ⟨.ok (v + 1), rfl, rfl, rfl⟩)).1

end Scn
