import Verif.Lemmas.Braces2
import Verif.Lemmas.Advance
import Verif.Props.Calls
import Verif.Props.Format
/-
C100: literal texts with braces.
The vocabulary is in `Verif/Spec/Braces.lean` and `Verif/Spec/Calls.lean`; `SimpleText` (`Verif/Lemmas/Braces2.lean`) is a text of `Simple`
characters, and `SkipsIn` says that skipping whitespace is defined in the source (it is in any text of code units of the source's type).
-/
namespace Scn
open Spec

variable {V : Type}

/-! ### C100 -/

/-- C100, success: with any literal texts before, between and after the fields, whose braces are written twice in the format string, a call
    does its steps strictly from left to right, as with literal texts without braces (C81): a doubled brace matches that brace once. For
    any readers that do not go back. Missing from the full claim: 64 arguments or more (C23), and literal texts with characters of several
    code units that are not whitespace (C16). -/
theorem C100_success_partial {env : Env V} (ha : Advancing env) {auto : Bool} {fs : List (CallField V)} {last : List Nat} (hl : SimpleText env.enc last)
    (h64 : env.count < 64) (hf : ∀ f ∈ fs, FieldMeans env f ∧ SimpleText env.enc f.gap) (hn : Numbered auto (fs.map fun f => f.id) env.count) {src : List Nat}
    (hsk : SkipsIn env src) {vs : List (Nat × V)} {r : List Nat} (h : inOrder (litStep env) fs last src = .ok (vs, r)) :
    ∃ evs, vscan env (escapedFormat auto fs last) src = some (.ok r, evs) ∧ stored evs = vs := by
  by_cases hb : escapedFormat auto fs last = [123, 125] ∧ env.count = 1
  · obtain ⟨h1, h2⟩ := escaped_braces hb.1
    rw [escaped_plain h1 h2]
    exact C81_success_partial h2 h64 (fun f hx => ⟨(hf f hx).1, h1 f hx⟩) hn h
  · have hg := braces_general ha hl h64 (fun f hx => (hf f hx).1) (fun f hx => (hf f hx).2) hn hsk
    rw [h] at hg
    obtain ⟨st, h1, h2, h3, h4⟩ := hg
    unfold vscan
    rw [if_neg hb, h1, Option.map_some, h2, h3]
    exact ⟨_, rfl, h4⟩

/-- C100, failure: when a step fails the call fails, no later argument is read, and the arguments before the failing step have been stored.
    The error is that of the step, if it belongs to the last field or comes after it, no argument has a custom type and no text before a
    field has an opening brace; otherwise it may be an invalid format string (`C100_violated_error`). -/
theorem C100_failure_partial {env : Env V} (ha : Advancing env) {auto : Bool} {fs : List (CallField V)} {last : List Nat} (hl : SimpleText env.enc last)
    (h64 : env.count < 64) (hf : ∀ f ∈ fs, FieldMeans env f ∧ SimpleText env.enc f.gap) (hn : Numbered auto (fs.map fun f => f.id) env.count) {src : List Nat}
    (hsk : SkipsIn env src) {e : Err} (h : inOrder (litStep env) fs last src = .err e) :
    ∃ evs e', vscan env (escapedFormat auto fs last) src = some (.error e', evs) ∧ stored evs = readBefore (litStep env) fs src ∧
      (e' = e ∨ e' = .invalidFormatString) ∧
      ((∀ f ∈ fs, env.argTy f.id ≠ .custom) → reached (litStep env) fs src = fs.length → (∀ f ∈ fs, 123 ∉ f.gap) → e' = e) ∧
      (reached (litStep env) fs src < fs.length → e' = .invalidFormatString) := by
  by_cases hb : escapedFormat auto fs last = [123, 125] ∧ env.count = 1
  · obtain ⟨h1, h2⟩ := escaped_braces hb.1
    rw [escaped_plain h1 h2]
    obtain ⟨evs, e', k1, k2, k3, k4, k5⟩ := C81_failure_partial h2 h64 (fun f hx => ⟨(hf f hx).1, h1 f hx⟩) hn h
    exact ⟨evs, e', k1, k2, k3, fun hc hr _ => k4 hc hr, k5⟩
  · have hg := braces_general ha hl h64 (fun f hx => (hf f hx).1) (fun f hx => (hf f hx).2) hn hsk
    rw [h] at hg
    obtain ⟨st, e', h1, h2, h3, h4, h5, h6⟩ := hg
    unfold vscan
    rw [if_neg hb, h1, Option.map_some, h2]
    exact ⟨_, e', rfl, h6, h3, h4, h5⟩

/-- C100, undefined behaviour: the call is undefined exactly when the first step that does not succeed is undefined. -/
theorem C100_undefined_partial {env : Env V} (ha : Advancing env) {auto : Bool} {fs : List (CallField V)} {last : List Nat} (hl : SimpleText env.enc last)
    (h64 : env.count < 64) (hf : ∀ f ∈ fs, FieldMeans env f ∧ SimpleText env.enc f.gap) (hn : Numbered auto (fs.map fun f => f.id) env.count) {src : List Nat}
    (hsk : SkipsIn env src) : vscan env (escapedFormat auto fs last) src = none ↔ inOrder (litStep env) fs last src = .ub := by
  constructor
  · intro hv
    cases h : inOrder (litStep env) fs last src with
    | ub => rfl
    | ok r =>
      obtain ⟨evs, h1, _⟩ := C100_success_partial ha hl h64 hf hn hsk h
      rw [hv] at h1; cases h1
    | err e =>
      obtain ⟨evs, e', h1, _⟩ := C100_failure_partial ha hl h64 hf hn hsk h
      rw [hv] at h1; cases h1
  · intro h
    by_cases hb : escapedFormat auto fs last = [123, 125] ∧ env.count = 1
    · obtain ⟨h1, h2⟩ := escaped_braces hb.1
      rw [escaped_plain h1 h2]
      exact (C81_undefined_partial h2 h64 (fun f hx => ⟨(hf f hx).1, h1 f hx⟩) hn src).2 h
    · have hg := braces_general ha hl h64 (fun f hx => (hf f hx).1) (fun f hx => (hf f hx).2) hn hsk
      rw [h] at hg
      unfold vscan
      rw [if_neg hb, hg]
      rfl

/-- The fields of "{{{1:x}}} {{{{{0}" for two `int` arguments: the texts are "{" and "} {{". -/
def bracedFields : List (CallField Int) :=
  [⟨[123], 1, some [120], (intArgs [.int, .int]).readSpecs 1 { type := .intHex }⟩,
   ⟨[125, 32, 123, 123], 0, none, (intArgs [.int, .int]).readDefault 0⟩]

theorem bracedFields_mean : ∀ f ∈ bracedFields, FieldMeans (intArgs [.int, .int]) f ∧ SimpleText .utf8 f.gap := by
  intro f hf
  simp only [bracedFields, List.mem_cons, List.not_mem_nil, or_false] at hf
  rcases hf with rfl | rfl
  · exact ⟨⟨{ type := .intHex }, fun r => rfl, rfl⟩, [123], by decide, by unfold Simple IsScalar; decide⟩
  · exact ⟨rfl, [125, 32, 123, 123], by decide, by unfold Simple IsScalar; decide⟩

/-- Skipping is defined in any text of bytes. -/
theorem intArgs_skipsIn (tys : List ArgTy) (src : List Nat) (h : ∀ b ∈ src, b < 256) : SkipsIn (intArgs tys) src := by
  intro s hs hk
  obtain ⟨p, hp, _⟩ := readWhileSpace_total .utf8 s (fun _ b hb => h b (hs.subset hb))
  have : (intArgs tys).skip s = readWhileSpace .utf8 .contiguous s := rfl
  rw [this, hp] at hk
  cases hk

example : escapedFormat false bracedFields [125] = [123, 123, 123, 49, 58, 120, 125, 125, 125, 32, 123, 123, 123, 123, 123, 48, 125, 125, 125] ∧
    Numbered false (bracedFields.map fun f => f.id) (intArgs [.int, .int]).count ∧ Advancing (intArgs [.int, .int]) ∧ SimpleText .utf8 [125] :=
  ⟨by decide +kernel, ⟨by decide, by decide, by decide, by decide⟩, intArgs_advancing _, [125], by decide, by unfold Simple IsScalar; decide⟩
/-- "{1f}  {{2}!": argument 1 is 31, argument 0 is 2. -/
example : inOrder (litStep (intArgs [.int, .int])) bracedFields [125] [123, 49, 102, 125, 32, 32, 123, 123, 50, 125, 33] = .ok ([(1, 31), (0, 2)], [33]) ∧
    SkipsIn (intArgs [.int, .int]) [123, 49, 102, 125, 32, 32, 123, 123, 50, 125, 33] :=
  ⟨by decide +kernel, intArgs_skipsIn _ _ (by decide)⟩
/-- "{1f} {2}": a brace is missing. -/
example : inOrder (litStep (intArgs [.int, .int])) bracedFields [125] [123, 49, 102, 125, 32, 123, 50, 125] = .err .invalidLiteral ∧
    readBefore (litStep (intArgs [.int, .int])) bracedFields [123, 49, 102, 125, 32, 123, 50, 125] = [(1, 31)] := by decide +kernel

/-- C100 is violated for the reported error: when a text with an opening brace does not match, the parser stops before it has looked at the
    field after it, so that the field's argument counts as missing and the format string, which is valid, is reported as invalid: "{{{}" for
    "x5". Without an opening brace, "a{}" or "}}{}", the error is that of the literal text, as it should be. -/
theorem C100_violated_error :
    outcome (vscan (intArgs [.int]) [123, 123, 123, 125] [120, 53]) = some (.inl .invalidFormatString, []) ∧
    outcome (vscan (intArgs [.int]) [97, 123, 125] [120, 53]) = some (.inl .invalidLiteral, []) ∧
    outcome (vscan (intArgs [.int]) [125, 125, 123, 125] [120, 53]) = some (.inl .invalidLiteral, []) ∧
    outcome (vscan (intArgs [.int]) [123, 123, 123, 125] [123, 53]) = some (.inr [], [(0, 5)]) := by
  refine ⟨?_, ?_, ?_, ?_⟩ <;> decide +kernel

end Scn
