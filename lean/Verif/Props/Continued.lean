import Verif.Lemmas.Continued
import Verif.Model.Sources
/-
C92: scanning in pieces.
The vocabulary is in `Verif/Spec/Calls.lean`; `Joins` (`Verif/Lemmas/Continued.lean`) says that one call has the arguments of
two others, one after the other, and `Spec.Meet` that whitespace does not meet whitespace.
-/
namespace Scn
open Spec

variable {V : Type}

/-- The two steps of a call in pieces, and the one step of the whole. -/
theorem pieces_inOrder {env env1 env2 : Env V} (hj : Joins env env1 env2) {fs1 fs2 : List (CallField V)} {tail last : List Nat}
    (hm : Meet env.enc tail (firstText fs2 last)) (s : List Nat) :
    inOrder (litStep env) (fs1 ++ laterFields tail env1.count fs2) (laterLast tail fs2 last) s =
      (inOrder (litStep env1) fs1 tail s).bind fun p =>
        (inOrder (litStep env2) fs2 last p.2).map fun q => (p.1 ++ laterValues env1.count q.1, q.2) := by
  rw [litStep_same hj.enc1 hj.skip1, litStep_same hj.enc2 hj.skip2]
  exact inOrder_later (litStep env) env1.count fs2 tail last (litStep_append env hm) fs1 s

/-- What a call did, from what its steps did. -/
theorem call_ok_iff {env : Env V} {fs : List (CallField V)} {last : List Nat} (hl : NoBrace last) (h64 : env.count < 64)
    (hf : ∀ f ∈ fs, FieldMeans env f ∧ NoBrace f.gap) (hn : Numbered true (fs.map fun f => f.id) env.count) (src : List Nat)
    (vs : List (Nat × V)) (r : List Nat) :
    (∃ evs, vscan env (callFormat true fs last) src = some (.ok r, evs) ∧ stored evs = vs) ↔
      inOrder (litStep env) fs last src = .ok (vs, r) := by
  constructor
  · rintro ⟨evs, h1, h2⟩
    cases h : inOrder (litStep env) fs last src with
    | ub => rw [(C81_undefined_partial hl h64 hf hn src).2 h] at h1; cases h1
    | err e =>
      obtain ⟨evs', e', h3, _⟩ := C81_failure_partial hl h64 hf hn h
      rw [h3] at h1; cases h1
    | ok p =>
      obtain ⟨evs', h3, h4⟩ := C81_success_partial hl h64 hf hn h
      rw [h3] at h1
      cases h1
      rw [← h2, h4]
  · exact C81_success_partial hl h64 hf hn

/-! ### C92 -/

/-- C92, success: scanning with one format string and going on with another one in the unused range gives the same values and
    leaves the same rest as scanning once with the two format strings written one after the other; if one of the two ways
    succeeds, so does the other. For any readers. Missing from the full claim: whitespace at the end of the first format string
    followed by whitespace at the beginning of the second (`C92_violated_whitespace`), 64 arguments or more (C23). Explicit numbers and
    doubled braces are in `C92_general_success_partial`. -/
theorem C92_success_partial {env env1 env2 : Env V} (hj : Joins env env1 env2) {fs1 fs2 : List (CallField V)} {tail last : List Nat}
    (hm : Meet env.enc tail (firstText fs2 last)) (ht : NoBrace tail) (hl : NoBrace last) (h64 : env.count < 64)
    (hf1 : ∀ f ∈ fs1, FieldMeans env1 f ∧ NoBrace f.gap) (hn1 : Numbered true (fs1.map fun f => f.id) env1.count)
    (hf2 : ∀ f ∈ fs2, FieldMeans env2 f ∧ NoBrace f.gap) (hn2 : Numbered true (fs2.map fun f => f.id) env2.count)
    (src : List Nat) (vs : List (Nat × V)) (r : List Nat) :
    (∃ evs, vscan env (callFormat true fs1 tail ++ callFormat true fs2 last) src = some (.ok r, evs) ∧ stored evs = vs) ↔
      ∃ r1 evs1 evs2, vscan env1 (callFormat true fs1 tail) src = some (.ok r1, evs1) ∧
        vscan env2 (callFormat true fs2 last) r1 = some (.ok r, evs2) ∧ vs = stored evs1 ++ laterValues env1.count (stored evs2) := by
  have hc := hj.count
  rw [← callFormat_later env1.count, call_ok_iff (noBrace_laterLast fs2 ht hl) h64 (fields_later hj ht hf1 hf2 hn1 hn2) (numbered_later hj tail hn1 hn2),
    pieces_inOrder hj hm]
  constructor
  · intro h
    cases h1 : inOrder (litStep env1) fs1 tail src with
    | ub => rw [h1] at h; cases h
    | err e => rw [h1] at h; cases h
    | ok p =>
      rw [h1, Res.bind_ok] at h
      cases h2 : inOrder (litStep env2) fs2 last p.2 with
      | ub => rw [h2] at h; cases h
      | err e => rw [h2] at h; cases h
      | ok q =>
        rw [h2, Res.map_ok] at h
        cases h
        obtain ⟨evs1, a1, a2⟩ := (call_ok_iff ht (by omega) hf1 hn1 src p.1 p.2).2 h1
        obtain ⟨evs2, b1, b2⟩ := (call_ok_iff hl (by omega) hf2 hn2 p.2 q.1 q.2).2 h2
        exact ⟨p.2, evs1, evs2, a1, b1, by rw [a2, b2]⟩
  · rintro ⟨r1, evs1, evs2, a1, b1, rfl⟩
    rw [(call_ok_iff ht (by omega) hf1 hn1 src (stored evs1) r1).1 ⟨evs1, a1, rfl⟩, Res.bind_ok,
      (call_ok_iff hl (by omega) hf2 hn2 r1 (stored evs2) r).1 ⟨evs2, b1, rfl⟩]
    rfl

/-- C92, undefined behaviour: the one call is undefined exactly when the first of the two calls is, or the first succeeds and
    the second is. So (with success) the one call fails exactly when the first of the two fails, or succeeds and the second
    fails. -/
theorem C92_undefined_partial {env env1 env2 : Env V} (hj : Joins env env1 env2) {fs1 fs2 : List (CallField V)} {tail last : List Nat}
    (hm : Meet env.enc tail (firstText fs2 last)) (ht : NoBrace tail) (hl : NoBrace last) (h64 : env.count < 64)
    (hf1 : ∀ f ∈ fs1, FieldMeans env1 f ∧ NoBrace f.gap) (hn1 : Numbered true (fs1.map fun f => f.id) env1.count)
    (hf2 : ∀ f ∈ fs2, FieldMeans env2 f ∧ NoBrace f.gap) (hn2 : Numbered true (fs2.map fun f => f.id) env2.count) (src : List Nat) :
    vscan env (callFormat true fs1 tail ++ callFormat true fs2 last) src = none ↔
      vscan env1 (callFormat true fs1 tail) src = none ∨
      ∃ r1 evs1, vscan env1 (callFormat true fs1 tail) src = some (.ok r1, evs1) ∧ vscan env2 (callFormat true fs2 last) r1 = none := by
  have hc := hj.count
  rw [← callFormat_later env1.count, C81_undefined_partial (noBrace_laterLast fs2 ht hl) h64 (fields_later hj ht hf1 hf2 hn1 hn2) (numbered_later hj tail hn1 hn2),
    pieces_inOrder hj hm, C81_undefined_partial ht (by omega) hf1 hn1]
  constructor
  · intro h
    cases h1 : inOrder (litStep env1) fs1 tail src with
    | ub => exact Or.inl rfl
    | err e => rw [h1] at h; cases h
    | ok p =>
      rw [h1, Res.bind_ok] at h
      obtain ⟨evs1, a1, _⟩ := (call_ok_iff ht (by omega) hf1 hn1 src p.1 p.2).2 h1
      refine Or.inr ⟨p.2, evs1, a1, (C81_undefined_partial hl (by omega) hf2 hn2 p.2).2 ?_⟩
      cases h2 : inOrder (litStep env2) fs2 last p.2 with
      | ub => rfl
      | err e => rw [h2] at h; cases h
      | ok q => rw [h2] at h; cases h
  · rintro (h | ⟨r1, evs1, a1, b1⟩)
    · rw [h]; rfl
    · rw [(call_ok_iff ht (by omega) hf1 hn1 src (stored evs1) r1).1 ⟨evs1, a1, rfl⟩, Res.bind_ok,
        (C81_undefined_partial hl (by omega) hf2 hn2 r1).1 b1]
      rfl

/-- C92, failure: when the first call succeeds, its values are what the one call has stored first, even if the second call (and
    so the one call) then fails; the values stored by the second call before it failed follow. -/
theorem C92_failure_partial {env env1 env2 : Env V} (hj : Joins env env1 env2) {fs1 fs2 : List (CallField V)} {tail last : List Nat}
    (hm : Meet env.enc tail (firstText fs2 last)) (ht : NoBrace tail) (hl : NoBrace last) (h64 : env.count < 64)
    (hf1 : ∀ f ∈ fs1, FieldMeans env1 f ∧ NoBrace f.gap) (hn1 : Numbered true (fs1.map fun f => f.id) env1.count)
    (hf2 : ∀ f ∈ fs2, FieldMeans env2 f ∧ NoBrace f.gap) (hn2 : Numbered true (fs2.map fun f => f.id) env2.count) (src : List Nat)
    {r1 : List Nat} {evs1 evs2 : List (Event V)} {e : Err} (h1 : vscan env1 (callFormat true fs1 tail) src = some (.ok r1, evs1))
    (h2 : vscan env2 (callFormat true fs2 last) r1 = some (.error e, evs2)) :
    ∃ evs e', vscan env (callFormat true fs1 tail ++ callFormat true fs2 last) src = some (.error e', evs) ∧
      stored evs = stored evs1 ++ laterValues env1.count (stored evs2) := by
  have hc := hj.count
  have i1 := (call_ok_iff ht (by omega) hf1 hn1 src (stored evs1) r1).1 ⟨evs1, h1, rfl⟩
  obtain ⟨e2, i2⟩ : ∃ e2, inOrder (litStep env2) fs2 last r1 = .err e2 := by
    cases h : inOrder (litStep env2) fs2 last r1 with
    | ub => rw [(C81_undefined_partial hl (by omega) hf2 hn2 r1).2 h] at h2; cases h2
    | err e2 => exact ⟨e2, rfl⟩
    | ok q =>
      obtain ⟨evs', h3, _⟩ := C81_success_partial hl (by omega) hf2 hn2 h
      rw [h3] at h2; cases h2
  have hall : inOrder (litStep env) (fs1 ++ laterFields tail env1.count fs2) (laterLast tail fs2 last) src = .err e2 := by
    rw [pieces_inOrder hj hm, i1, Res.bind_ok, i2]; rfl
  obtain ⟨evs2', e2', h3, h4, _⟩ := C81_failure_partial hl (by omega) hf2 hn2 i2
  rw [h3] at h2
  cases h2
  obtain ⟨evs, e', h5, h6, _⟩ := C81_failure_partial (noBrace_laterLast fs2 ht hl) h64 (fields_later hj ht hf1 hf2 hn1 hn2) (numbered_later hj tail hn1 hn2) hall
  rw [callFormat_later] at h5
  refine ⟨evs, e', h5, ?_⟩
  rw [h6, h4]
  rw [litStep_same hj.enc1 hj.skip1] at i1
  rw [litStep_same hj.enc2 hj.skip2]
  exact readBefore_later (litStep env) env1.count fs2 tail last (litStep_append env hm) fs1 src _ _ i1

/-- C92 and every kind of source: scanning the unused range scans what scanning the source left, for every number of units
    consumed. -/
theorem C92_unused (src : Source) (n : Nat) : (src.unused n).scanned = src.scanned.drop n := by
  cases src <;> rfl

/-- C92 is not kept where whitespace meets whitespace: "a " and then " " fails on "a " (the second call is at the end of its
    source), and "a  " succeeds. -/
theorem C92_violated_whitespace (wide : Enc) (cfg : RegexCfg) (loc : LocaleData) (old : Nat) :
    (∃ evs, vscan (stdEnv .utf8 wide cfg loc old []) [97, 32] [97, 32] = some (.ok [], evs)) ∧
    (∃ e evs, vscan (stdEnv .utf8 wide cfg loc old []) [32] [] = some (.error e, evs)) ∧
    (∃ evs, vscan (stdEnv .utf8 wide cfg loc old []) ([97, 32] ++ [32]) [97, 32] = some (.ok [], evs)) :=
  ⟨⟨_, rfl⟩, ⟨_, _, rfl⟩, ⟨_, rfl⟩⟩

/-- Not all of a source is scanned: the last element of a non-empty array never is, even when the array is not a string
    literal. -/
theorem C92_violated_array (us : List Nat) : (Source.array us).scanned = us ↔ us = [] := by
  show us.take (us.length - 1) = us ↔ us = []
  constructor
  · intro h
    have := congrArg List.length h
    rw [List.length_take] at this
    exact List.length_eq_zero_iff.1 (by omega)
  · rintro rfl; rfl

/-- `char a[2] = {'4', '2'}` is scanned as 4. -/
example : (Source.array [52, 50]).scanned = [52] := rfl
example : ((Source.array [52, 32, 50, 0]).unused 1).scanned = [32, 50] := rfl

/-- "{:x}, " and then "{}" for two `int`s. -/
def pieceOne : List (CallField Int) := [⟨[], 0, some [120], (intArgs [.int]).readSpecs 0 { type := .intHex }⟩]
/-- The second of the two. -/
def pieceTwo : List (CallField Int) := [⟨[], 0, none, (intArgs [.int]).readDefault 0⟩]

theorem pieces_join : Joins (intArgs [.int, .int]) (intArgs [.int]) (intArgs [.int]) := by
  refine ⟨rfl, rfl, rfl, rfl, rfl, rfl, rfl, ?_, ?_, fun _ _ => rfl, fun _ _ => rfl, fun _ _ => rfl, fun _ _ => rfl, fun _ _ => rfl, fun _ _ => rfl⟩
  · intro i hi
    obtain rfl : i = 0 := by simp only [intArgs, List.length_cons, List.length_nil] at hi; omega
    rfl
  · intro i hi
    obtain rfl : i = 0 := by simp only [intArgs, List.length_cons, List.length_nil] at hi; omega
    rfl

example : (∀ f ∈ pieceOne, FieldMeans (intArgs [.int]) f ∧ NoBrace f.gap) ∧ (∀ f ∈ pieceTwo, FieldMeans (intArgs [.int]) f ∧ NoBrace f.gap) ∧
    Numbered true (pieceOne.map fun f => f.id) (intArgs [.int]).count ∧ Numbered true (pieceTwo.map fun f => f.id) (intArgs [.int]).count ∧
    Meet .utf8 [44, 32] (firstText pieceTwo []) ∧ NoBrace [44, 32] ∧ (intArgs [.int, .int]).count < 64 := by
  refine ⟨?_, ?_, ⟨by decide, by decide, by decide, by decide⟩, ⟨by decide, by decide, by decide, by decide⟩, Or.inr (Or.inl rfl), by unfold NoBrace; decide, by decide⟩
  · intro f hf
    obtain rfl := List.mem_singleton.1 hf
    exact ⟨⟨{ type := .intHex }, fun r => rfl, rfl⟩, by intro c hc; cases hc⟩
  · intro f hf
    obtain rfl := List.mem_singleton.1 hf
    exact ⟨rfl, by intro c hc; cases hc⟩
/-- "1f, 2!" in two pieces. -/
example : callFormat true pieceOne [44, 32] = [123, 58, 120, 125, 44, 32] ∧
    inOrder (litStep (intArgs [.int])) pieceOne [44, 32] [49, 102, 44, 32, 50, 33] = .ok ([(0, 31)], [50, 33]) ∧
    inOrder (litStep (intArgs [.int])) pieceTwo [] [50, 33] = .ok ([(0, 2)], [33]) ∧
    laterValues 1 [(0, (2 : Int))] = [(1, 2)] := by decide +kernel
/-- Texts that meet: "ab " and "cd", "ab" and " cd". -/
example : Meet .utf8 [97, 98, 32] [99, 100] ∧ Meet .utf8 [97, 98] [32, 99, 100] := by
  refine ⟨Or.inr (Or.inr ⟨[97, 98, 32], [99, 100], by decide, by decide, ?_, ?_, ?_⟩), Or.inr (Or.inr ⟨[97, 98], [32, 99, 100], by decide, by decide, ?_, ?_, ?_⟩)⟩
  · unfold Simple IsScalar; decide
  · unfold IsScalar; decide
  · intro c d hc hd _
    cases hc; cases hd; decide
  · unfold Simple IsScalar; decide
  · unfold IsScalar; decide
  · intro c d hc hd h
    cases hc; exact absurd h (by decide)

end Scn
