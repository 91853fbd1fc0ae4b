import Verif.Lemmas.Calls
import Verif.Props.Driver
/-
C81: scan calls with any mix of fields.
The vocabulary is in `Verif/Spec/Calls.lean` and `Verif/Spec/Sequence.lean`; `FieldMeans` ties the specification text of a
field to how the driver's reader reads it.
-/
namespace Scn
open Spec

variable {V : Type}

/-! ### C81 -/

/-- C81, success: a call whose fields are any mix of default fields, fields with specifications and fields of custom types,
    numbered automatically or by hand in any order, with literal text in between, does its steps strictly from left to
    right, each where the previous one ended. The call succeeds when all steps do; each argument receives the value read by
    its own field, and the unused range starts where the last step ended. For any readers. Missing from the full claim:
    64 arguments or more (C23), doubled braces in the literal text (C100). -/
theorem C81_success_partial {env : Env V} {auto : Bool} {fs : List (CallField V)} {last : List Nat} (hl : NoBrace last) (h64 : env.count < 64)
    (hf : ∀ f ∈ fs, FieldMeans env f ∧ NoBrace f.gap) (hn : Numbered auto (fs.map fun f => f.id) env.count) {src : List Nat}
    {vs : List (Nat × V)} {r : List Nat} (h : inOrder (litStep env) fs last src = .ok (vs, r)) :
    ∃ evs, vscan env (callFormat auto fs last) src = some (.ok r, evs) ∧ stored evs = vs := by
  unfold vscan
  by_cases hb : callFormat auto fs last = [123, 125] ∧ env.count = 1
  · rw [if_pos hb]
    obtain ⟨f, rfl, hg, hs, rfl⟩ := callFormat_braces (fun f hx => (hf f hx).2) hl hb.1
    have hid : f.id = 0 := by have := hn.below f.id (by simp); omega
    have hfm := (hf f (by simp)).1
    unfold FieldMeans at hfm
    rw [hs] at hfm
    dsimp only at hfm
    simp only [inOrder, hg, litStep_nil, Res.bind_ok, Res.map_ok, hfm, hid] at h
    unfold scanSimple
    cases hrd : env.readDefault 0 src with
    | ub => rw [hrd] at h; cases h
    | err e => rw [hrd] at h; cases h
    | ok a => rw [hrd, Res.bind_ok] at h; cases h; exact ⟨_, rfl, rfl⟩
  · rw [if_neg hb]
    obtain ⟨st, h1, h2, h3, h4⟩ := calls_general_ok hl h64 hf hn h
    rw [h1, Option.map_some, h2, h3]
    exact ⟨_, rfl, h4⟩

/-- C81, failure: when a step fails the call fails, no later argument is read, and the arguments before the failing step
    have been stored. When the failing step belongs to the last field (or comes after it) the call reports that step's
    error, if no argument has a custom type; when fields remain it always reports an invalid format string (C21). -/
theorem C81_failure_partial {env : Env V} {auto : Bool} {fs : List (CallField V)} {last : List Nat} (hl : NoBrace last) (h64 : env.count < 64)
    (hf : ∀ f ∈ fs, FieldMeans env f ∧ NoBrace f.gap) (hn : Numbered auto (fs.map fun f => f.id) env.count) {src : List Nat} {e : Err}
    (h : inOrder (litStep env) fs last src = .err e) :
    ∃ evs e', vscan env (callFormat auto fs last) src = some (.error e', evs) ∧ stored evs = readBefore (litStep env) fs src ∧
      (e' = e ∨ e' = .invalidFormatString) ∧
      ((∀ f ∈ fs, env.argTy f.id ≠ .custom) → reached (litStep env) fs src = fs.length → e' = e) ∧
      (reached (litStep env) fs src < fs.length → e' = .invalidFormatString) := by
  unfold vscan
  by_cases hb : callFormat auto fs last = [123, 125] ∧ env.count = 1
  · rw [if_pos hb]
    obtain ⟨f, rfl, hg, hs, rfl⟩ := callFormat_braces (fun f hx => (hf f hx).2) hl hb.1
    have hid : f.id = 0 := by have := hn.below f.id (by simp); omega
    have hfm := (hf f (by simp)).1
    unfold FieldMeans at hfm
    rw [hs] at hfm
    dsimp only at hfm
    simp only [inOrder, hg, litStep_nil, Res.bind_ok, Res.map_ok, hfm, hid] at h
    have hrb : ∀ x, env.readDefault 0 src = .err x → readBefore (litStep env) [f] src = [] := by
      intro x hx
      simp only [readBefore, hg, litStep_nil, Res.bind_ok, hfm, hid, hx]
    have hre : reached (litStep env) [f] src = 1 := by
      simp only [reached]; split <;> rfl
    unfold scanSimple
    cases hrd : env.readDefault 0 src with
    | ub => rw [hrd] at h; cases h
    | err e => rw [hrd] at h; cases h; exact ⟨_, _, rfl, by rw [hrb _ hrd]; rfl, Or.inl rfl, fun _ _ => rfl, fun hlt => by rw [hre] at hlt; exact absurd hlt (by simp)⟩
    | ok a => rw [hrd, Res.bind_ok] at h; cases h
  · rw [if_neg hb]
    obtain ⟨st, e', h1, h2, h3, h4, h5, h6⟩ := calls_general_err hl h64 hf hn h
    rw [h1, Option.map_some, h2]
    exact ⟨_, e', rfl, h6, h3, h4, h5⟩

/-- C81, undefined behaviour: the call is undefined exactly when the first step that does not succeed is undefined. -/
theorem C81_undefined_partial {env : Env V} {auto : Bool} {fs : List (CallField V)} {last : List Nat} (hl : NoBrace last) (h64 : env.count < 64)
    (hf : ∀ f ∈ fs, FieldMeans env f ∧ NoBrace f.gap) (hn : Numbered auto (fs.map fun f => f.id) env.count) (src : List Nat) :
    vscan env (callFormat auto fs last) src = none ↔ inOrder (litStep env) fs last src = .ub := by
  constructor
  · intro hv
    cases h : inOrder (litStep env) fs last src with
    | ub => rfl
    | ok r =>
      obtain ⟨evs, h1, _⟩ := C81_success_partial hl h64 hf hn h
      rw [hv] at h1; cases h1
    | err e =>
      obtain ⟨evs, e', h1, _⟩ := C81_failure_partial hl h64 hf hn h
      rw [hv] at h1; cases h1
  · intro h
    unfold vscan
    by_cases hb : callFormat auto fs last = [123, 125] ∧ env.count = 1
    · rw [if_pos hb]
      obtain ⟨f, rfl, hg, hs, rfl⟩ := callFormat_braces (fun f hx => (hf f hx).2) hl hb.1
      have hid : f.id = 0 := by have := hn.below f.id (by simp); omega
      have hfm := (hf f (by simp)).1
      unfold FieldMeans at hfm
      rw [hs] at hfm
      dsimp only at hfm
      simp only [inOrder, hg, litStep_nil, Res.bind_ok, Res.map_ok, hfm, hid] at h
      unfold scanSimple
      cases hrd : env.readDefault 0 src with
      | ub => rfl
      | err e => rw [hrd] at h; cases h
      | ok a => rw [hrd, Res.bind_ok] at h; cases h
    · rw [if_neg hb, calls_general_ub hl h64 hf hn h]
      rfl

/-- The fields of "{1:x}, {0}" for two `int` arguments. -/
def twoFields : List (CallField Int) :=
  [⟨[], 1, some [120], (intArgs [.int, .int]).readSpecs 1 { type := .intHex }⟩,
   ⟨[44, 32], 0, none, (intArgs [.int, .int]).readDefault 0⟩]

theorem twoFields_mean : ∀ f ∈ twoFields, FieldMeans (intArgs [.int, .int]) f ∧ NoBrace f.gap := by
  intro f hf
  simp only [twoFields, List.mem_cons, List.not_mem_nil, or_false] at hf
  rcases hf with rfl | rfl
  · refine ⟨?_, by intro c hc; cases hc⟩
    refine ⟨{ type := .intHex }, fun r => ?_, rfl⟩
    rfl
  · exact ⟨rfl, by unfold NoBrace; decide⟩

example : callFormat false twoFields [] = [123, 49, 58, 120, 125, 44, 32, 123, 48, 125] ∧
    Numbered false (twoFields.map fun f => f.id) (intArgs [.int, .int]).count :=
  ⟨by decide +kernel, ⟨by decide, by decide, by decide, by decide⟩⟩
/-- "1f, 2!": argument 1 is 31, argument 0 is 2. -/
example : inOrder (litStep (intArgs [.int, .int])) twoFields [] [49, 102, 44, 32, 50, 33] = .ok ([(1, 31), (0, 2)], [33]) := by decide +kernel
/-- "1f, z": the last field fails and its error is reported; "z, 2": the first field fails and the other one is missing. -/
example : inOrder (litStep (intArgs [.int, .int])) twoFields [] [49, 102, 44, 32, 122] = .err .invalidScannedValue ∧
    reached (litStep (intArgs [.int, .int])) twoFields [49, 102, 44, 32, 122] = 2 ∧
    readBefore (litStep (intArgs [.int, .int])) twoFields [49, 102, 44, 32, 122] = [(1, 31)] ∧
    inOrder (litStep (intArgs [.int, .int])) twoFields [] [122, 44, 32, 50] = .err .invalidScannedValue ∧
    reached (litStep (intArgs [.int, .int])) twoFields [122, 44, 32, 50] = 1 := by decide +kernel

end Scn
