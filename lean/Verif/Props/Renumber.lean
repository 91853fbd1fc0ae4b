import Verif.Props.Calls
import Verif.Lemmas.Renumber
/-
C111: the numbers of arguments are only names.
The vocabulary is in `Verif/Spec/Renumber.lean` and `Verif/Spec/Calls.lean`.
-/
namespace Scn
open Spec

/-! ### C111 -/

/-- C111, below 64 arguments: the numbers of arguments are only names. If the arguments of a call are put in another order, and the fields of
    its format string name them by their new numbers (or are numbered automatically, if they come in order then), the call does the same: it
    is undefined at the same time, has the same result, which is the same rest of the source or the same error, and has stored the same
    values in the same arguments. For any source, any specifications that are accepted, and literal texts without braces. -/
theorem C111_numbers_partial {e wide : Enc} {cfg : RegexCfg} {loc : LocaleData} {old : Nat} {ds ds' : List Dest} {π : Nat → Nat} (h64 : ds.length < 64)
    (hc : ∀ d ∈ ds, d.argTy ≠ .custom) (hr : Reordered π ds ds') {auto auto' : Bool} {fs : List (CallField Val)} {last : List Nat} (hl : NoBrace last)
    (hf : ∀ f ∈ fs, FieldMeans (stdEnv e wide cfg loc old ds) f ∧ NoBrace f.gap) (hn : Numbered auto (fs.map fun f => f.id) ds.length)
    (ha : auto' = true → fs.map (fun f => π f.id) = List.range ds.length) (src : List Nat) :
    (vscan (stdEnv e wide cfg loc old ds') (callFormat auto' (fs.map (CallField.renumber π)) last) src).map (fun r => (r.1, stored r.2)) =
    (vscan (stdEnv e wide cfg loc old ds) (callFormat auto fs last) src).map fun r => (r.1, (stored r.2).map fun p => (π p.1, p.2)) := by
  have hids : (fs.map (CallField.renumber π)).map (fun f => f.id) = (fs.map fun f => f.id).map π := by
    rw [List.map_map, List.map_map]; rfl
  have hn' : Numbered auto' ((fs.map (CallField.renumber π)).map fun f => f.id) ds'.length := by
    rw [hids]
    refine numbered_renumber hr hn ?_
    intro h1; rw [List.map_map]; exact ha h1
  have hf' : ∀ f ∈ fs.map (CallField.renumber π), FieldMeans (stdEnv e wide cfg loc old ds') f ∧ NoBrace f.gap := by
    intro f hx
    obtain ⟨g, hg, rfl⟩ := List.mem_map.1 hx
    exact ⟨fieldMeans_renumber hr (hn.below g.id (List.mem_map.2 ⟨g, hg, rfl⟩)) (hf g hg).1, (hf g hg).2⟩
  have h64' : ds'.length < 64 := by rw [hr.length]; exact h64
  have hord := inOrder_renumber (litStep (stdEnv e wide cfg loc old ds)) π last fs src
  have hlit := litStep_stdEnv e wide cfg loc old ds ds'
  cases h : inOrder (litStep (stdEnv e wide cfg loc old ds)) fs last src with
  | ub =>
    have h1 := (C81_undefined_partial hl h64 hf hn src).2 h
    rw [h] at hord
    rw [← hlit] at hord
    have h2 := (C81_undefined_partial (env := stdEnv e wide cfg loc old ds') hl h64' hf' hn' src).2 hord
    rw [h1, h2]; rfl
  | ok q =>
    obtain ⟨vs, r⟩ := q
    obtain ⟨evs, h1, h2⟩ := C81_success_partial hl h64 hf hn h
    rw [h] at hord
    rw [← hlit] at hord
    obtain ⟨evs', h3, h4⟩ := C81_success_partial (env := stdEnv e wide cfg loc old ds') hl h64' hf' hn' hord
    rw [h1, h3, Option.map_some, Option.map_some, h2, h4]
  | err x =>
    obtain ⟨evs, e', h1, h2, _, h3, h4⟩ := C81_failure_partial hl h64 hf hn h
    rw [h] at hord
    rw [← hlit] at hord
    obtain ⟨evs', e'', k1, k2, _, k3, k4⟩ := C81_failure_partial (env := stdEnv e wide cfg loc old ds') hl h64' hf' hn' hord
    rw [hlit, readBefore_renumber] at k2
    rw [hlit, reached_renumber, List.length_map] at k3 k4
    have hee : e'' = e' := by
      by_cases hreach : reached (litStep (stdEnv e wide cfg loc old ds)) fs src < fs.length
      · rw [h4 hreach, k4 hreach]
      · have hall : reached (litStep (stdEnv e wide cfg loc old ds)) fs src = fs.length := by
          have := reached_le (litStep (stdEnv e wide cfg loc old ds)) fs src; omega
        rw [h3 (fun f _ => stdEnv_argTy_custom hc f.id) hall, k3 ?_ hall]
        intro f hx
        obtain ⟨g, hg, rfl⟩ := List.mem_map.1 hx
        show (stdEnv e wide cfg loc old ds').argTy (π g.id) ≠ .custom
        rw [argTy_renumber hr (hn.below g.id (List.mem_map.2 ⟨g, hg, rfl⟩))]
        exact stdEnv_argTy_custom hc g.id
    rw [h1, k1, Option.map_some, Option.map_some, h2, k2, hee]

/-- C111: `{0}`, `{1}`, … in order do the same as automatic numbering. -/
theorem C111_explicit_partial {e wide : Enc} {cfg : RegexCfg} {loc : LocaleData} {old : Nat} {ds : List Dest} (h64 : ds.length < 64)
    (hc : ∀ d ∈ ds, d.argTy ≠ .custom) {fs : List (CallField Val)} {last : List Nat} (hl : NoBrace last) (hf : ∀ f ∈ fs, FieldMeans (stdEnv e wide cfg loc old ds) f ∧ NoBrace f.gap)
    (hn : fs.map (fun f => f.id) = List.range ds.length) (src : List Nat) :
    (vscan (stdEnv e wide cfg loc old ds) (callFormat false fs last) src).map (fun r => (r.1, stored r.2)) =
    (vscan (stdEnv e wide cfg loc old ds) (callFormat true fs last) src).map fun r => (r.1, stored r.2) := by
  have hnum : Numbered true (fs.map fun f => f.id) ds.length := by
    rw [hn]
    exact ⟨List.nodup_range, List.length_range, fun i hi => List.mem_range.1 hi, fun _ => rfl⟩
  have h := C111_numbers_partial (π := id) (auto' := false) h64 hc ⟨fun _ _ => rfl, fun _ _ _ _ h => h, rfl⟩ hl hf hnum (fun h => by cases h) src
  have hm : fs.map (CallField.renumber id) = fs := (List.map_congr_left (fun _ _ => rfl)).trans (List.map_id' _)
  rw [hm] at h
  rw [h]
  congr 1
  funext r
  exact congrArg (Prod.mk r.1) ((List.map_congr_left (fun _ _ => rfl)).trans (List.map_id' _))

/-- The arguments of the examples: an `int` and a `bool`. -/
def renumberArgs : List Dest := [.int ⟨32, true⟩ .int, .bool]

/-- The fields of "{1}: {0:x}". -/
def renumberFields : List (CallField Val) :=
  [⟨[], 1, none, (stdEnv .utf8 .utf32 ⟨false, false, false⟩ ⟨44, 46, [], [], fun _ _ _ _ => .none⟩ 0 renumberArgs).readDefault 1⟩,
   ⟨[58, 32], 0, some [120], (stdEnv .utf8 .utf32 ⟨false, false, false⟩ ⟨44, 46, [], [], fun _ _ _ _ => .none⟩ 0 renumberArgs).readSpecs 0 { type := .intHex }⟩]

/-- "{1}: {0:x}" for an `int` and a `bool` becomes "{0}: {1:x}" or "{}: {:x}" for a `bool` and an `int`. -/
example : (∀ d ∈ renumberArgs, d.argTy ≠ .custom) ∧ Reordered (fun i => 1 - i) renumberArgs [.bool, .int ⟨32, true⟩ .int] ∧ NoBrace [] ∧
    (∀ f ∈ renumberFields, FieldMeans (stdEnv .utf8 .utf32 ⟨false, false, false⟩ ⟨44, 46, [], [], fun _ _ _ _ => .none⟩ 0 renumberArgs) f ∧ NoBrace f.gap) ∧
    Numbered false (renumberFields.map fun f => f.id) renumberArgs.length ∧ renumberFields.map (fun f => 1 - f.id) = List.range renumberArgs.length ∧
    callFormat false renumberFields [] = [123, 49, 125, 58, 32, 123, 48, 58, 120, 125] ∧
    callFormat false (renumberFields.map (CallField.renumber fun i => 1 - i)) [] = [123, 48, 125, 58, 32, 123, 49, 58, 120, 125] ∧
    callFormat true (renumberFields.map (CallField.renumber fun i => 1 - i)) [] = [123, 125, 58, 32, 123, 58, 120, 125] := by
  refine ⟨by decide, ⟨?_, ?_, rfl⟩, (fun c hc => by cases hc), ?_, ⟨by decide, by decide, by decide, by decide⟩, by decide, by decide +kernel, by decide +kernel, by decide +kernel⟩
  · intro i hi
    have hi : i < 2 := hi
    have : i = 0 ∨ i = 1 := by omega
    rcases this with rfl | rfl <;> rfl
  · intro i j hi hj h
    have hi : i < 2 := hi
    have hj : j < 2 := hj
    have h : 1 - i = 1 - j := h
    omega
  · intro f hf
    simp only [renumberFields, List.mem_cons, List.not_mem_nil, or_false] at hf
    rcases hf with rfl | rfl
    · exact ⟨rfl, fun c hc => by cases hc⟩
    · exact ⟨⟨{ type := .intHex }, fun r => rfl, rfl⟩, by unfold NoBrace; decide⟩

/-- C111 is violated from 64 arguments on: with 65 of them, "{0}{1}…{64}" for "x" is an error, which is the same with the arguments in the
    reverse order, "{64}{63}…{0}", but there the bits of argument 64 are looked up behind the end of an array (C23). -/
theorem C111_violated_many :
    (vscan (stdEnv .utf8 .utf32 ⟨false, false, false⟩ ⟨44, 46, [], [], fun _ _ _ _ => .none⟩ 0 (List.replicate 65 (.int ⟨32, true⟩ .int)))
      (callFormat (V := Val) false ((List.range 65).map fun i => ⟨[], i, none, fun _ => .ub⟩) []) [120]).isSome = true ∧
    (vscan (stdEnv .utf8 .utf32 ⟨false, false, false⟩ ⟨44, 46, [], [], fun _ _ _ _ => .none⟩ 0 (List.replicate 65 (.int ⟨32, true⟩ .int)))
      (callFormat (V := Val) false ((List.range 65).map fun i => ⟨[], 64 - i, none, fun _ => .ub⟩) []) [120]).isNone = true := by
  refine ⟨?_, ?_⟩ <;> decide +kernel

end Scn
