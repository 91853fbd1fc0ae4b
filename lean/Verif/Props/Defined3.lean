import Verif.Lemmas.Matches
import Verif.Props.Driver
/-
C74: format strings that were checked at compile time, with `regex_matches` among the destinations.
-/
namespace Scn
open Spec

/-- C74 for checked format strings: if the compile-time check accepts the format string for the types of the
    destinations, the call has a result for every source. `regex_matches` may be among the destinations, with any backend
    that has a result for every pattern, every flags and every text (`C74_std_captures`, `C74_boost_captures`). Left
    out: `char32_t` and characters of the other width (`C74_text_partial`). -/
theorem C74_checked_partial (e wide : Enc) (cfg : RegexCfg) (loc : LocaleData) (old : Nat) (ds : List AnyDest)
    (hds : ∀ d ∈ ds, d.Tame e) (hcount : ds.length < 64) (fmt : List Nat) (hfmt : UnitsOk e fmt) (contiguous borrowed : Bool) (c : CT)
    (hacc : compileCheck ⟨e, cfg, ds.map AnyDest.argTy, contiguous, borrowed⟩ fmt = some c) (hok : c.err = false)
    (src : List Nat) (hsrc : UnitsOk e src) : ∃ r, vscan (anyEnv e wide cfg loc old ds) fmt src = some r := by
  refine checked_total (env := anyEnv e wide cfg loc old ds) ⟨rfl, rfl, by simp [anyEnv], fun i => ?_⟩ hcount
    (anyEnv_ok e wide cfg loc old hds) hacc hok hfmt hsrc
  show (ds.map AnyDest.argTy)[i]? = if i < ds.length then some (((ds[i]?).map AnyDest.argTy).getD .none) else none
  rw [List.getElem?_map]
  split
  · rename_i h
    rw [List.getElem?_eq_getElem h]; rfl
  · rename_i h
    rw [List.getElem?_eq_none (by omega)]; rfl

/-- The backend with `std::regex` has a result for every pattern, every flags and every text, if the whole match is
    among the groups that the engine finds. -/
theorem C74_std_captures {E : Engine StdOpts} (hE : ∀ o p s gs, E.search o p s = .found gs → searchEnd gs ≠ none) (e dst : Enc)
    (multiline : Bool) : (AnyDest.captures dst (stdMatches E multiline)).Tame e :=
  fun p f s => stdMatches_sound hE multiline p f s

/-- The same for the backend with Boost. (That with RE2 is `C79_violated_re2`.) -/
theorem C74_boost_captures {E : Engine BoostOpts} (hE : ∀ o p s gs, E.search o p s = .found gs → searchEnd gs ≠ none) (e dst : Enc) :
    (AnyDest.captures dst (boostMatches E)).Tame e :=
  fun p f s => boostMatches_sound hE p f s

/-- An engine that finds the first two units, with the second one as a group. -/
def pairEngine (O : Type) : Engine O := ⟨fun _ _ s => if 2 ≤ s.length then .found [some (0, 2), some (1, 1)] else .none, fun _ _ => []⟩

/-- It meets the hypothesis of the two theorems. -/
example (O : Type) : ∀ o p s gs, (pairEngine O).search o p s = .found gs → searchEnd gs ≠ none := by
  intro o p s gs h
  have : (if 2 ≤ s.length then Search.found [some (0, 2), some (1, 1)] else .none) = .found gs := h
  split at this
  · cases this; decide
  · cases this

/-- `{:/x(.)/} {:d}` into a `regex_matches` and an `int`, from `xy 12`: the format string is accepted, and the call reads both. -/
example : let ds := [AnyDest.captures .utf8 (stdMatches (pairEngine StdOpts) false), .std (.int ⟨32, true⟩ .int)]
    let fmt := [123, 58, 47, 120, 40, 46, 41, 47, 125, 32, 123, 58, 100, 125]
    ds.length < 64 ∧ UnitsOk .utf8 fmt ∧
    (compileCheck ⟨.utf8, ⟨false, false, false⟩, ds.map AnyDest.argTy, true, true⟩ fmt).map CT.err = some false ∧
    (vscan (anyEnv .utf8 .utf32 ⟨false, false, false⟩ ⟨44, 46, [], [], fun _ _ _ _ => .bad⟩ 0 ds) fmt [120, 121, 32, 49, 50]).map
      (fun x => match x.1 with | .ok rest => some rest | .error _ => none) = some (some []) := by
  refine ⟨by decide, ?_, by decide +kernel, by decide +kernel⟩
  intro _ b hb; revert b; decide

/-- C74 for format strings that were not checked, with `regex_matches` among the destinations: the call has a result for every
    source if there is no `L` in the format string and every specification in it that is accepted for
    `regex_matches` has a regular expression or a set of characters. -/
theorem C74_captures_partial (e wide : Enc) (cfg : RegexCfg) (loc : LocaleData) (old : Nat) (ds : List AnyDest)
    (hds : ∀ d ∈ ds, d.Tame e) (hcount : ds.length < 64) (fmt : List Nat) (hfmt : UnitsOk e fmt)
    (hsp : ∀ dst impl, .captures dst impl ∈ ds → 76 ∉ fmt ∧ ∀ pos setter p, 58 :: pos <:+ fmt →
      parseSpecs cfg e (AnyDest.captures dst impl).argTy ⟨{}, false⟩ pos = some (setter, p) → setter.err = true ∨ setter.specs.setString ≠ [])
    (src : List Nat) (hsrc : UnitsOk e src) : ∃ r, vscan (anyEnv e wide cfg loc old ds) fmt src = some r :=
  C23_few_well_defined_partial (anyEnv_run e wide cfg loc old hds fmt hsp) hcount src hsrc hfmt

/-- `{}{:/x/}` into a `regex_matches` and another one: the hypotheses hold, and the first field is an error. -/
example : let ds := [AnyDest.captures .utf8 (stdMatches (pairEngine StdOpts) false), .captures .utf8 (stdMatches (pairEngine StdOpts) false)]
    let fmt := [123, 125, 123, 58, 47, 120, 47, 125]
    (∀ dst impl, .captures dst impl ∈ ds → 76 ∉ fmt ∧ ∀ pos setter p, 58 :: pos <:+ fmt →
      parseSpecs ⟨false, false, false⟩ .utf8 (AnyDest.captures dst impl).argTy ⟨{}, false⟩ pos = some (setter, p) →
        setter.err = true ∨ setter.specs.setString ≠ []) ∧
    (vscan (anyEnv .utf8 .utf32 ⟨false, false, false⟩ ⟨44, 46, [], [], fun _ _ _ _ => .bad⟩ 0 ds) fmt [120, 121]).map
      (fun x => match x.1 with | .ok _ => none | .error r => some r) = some (some .invalidFormatString) := by
  refine ⟨fun dst impl hm => ⟨by decide, fun pos setter p hpos hps => Or.inr ?_⟩, by decide +kernel⟩
  have hpos' : pos = [47, 120, 47, 125] := by
    obtain ⟨t, ht⟩ := hpos
    match t, ht with
    | [_, _, _], ht => simp at ht; exact ht.2.2.2
    | [], ht | [_], ht | [_, _], ht | _ :: _ :: _ :: _ :: [], ht | _ :: _ :: _ :: _ :: _ :: [], ht
    | _ :: _ :: _ :: _ :: _ :: _ :: [], ht | _ :: _ :: _ :: _ :: _ :: _ :: _ :: [], ht => simp at ht
    | _ :: _ :: _ :: _ :: _ :: _ :: _ :: _ :: _, ht => simp at ht
  subst hpos'
  simp only [List.mem_cons, AnyDest.captures.injEq, List.not_mem_nil, or_false] at hm
  have hdst : dst = .utf8 := by rcases hm with h | h <;> exact h.1
  subst hdst
  have h0 : (parseSpecs ⟨false, false, false⟩ .utf8 .narrowRegex ⟨{}, false⟩ [47, 120, 47, 125]).map (fun r => r.1.specs.setString) =
      some [120] := by decide +kernel
  rw [show parseSpecs ⟨false, false, false⟩ .utf8 .narrowRegex ⟨{}, false⟩ [47, 120, 47, 125] = some (setter, p) from hps] at h0
  rw [show setter.specs.setString = [120] from Option.some.inj h0]
  decide

/-- C74 is violated for `regex_matches` and a format string that was not checked: a specification without a regular
    expression is undefined behaviour for every source, whatever else it has, as the reader asserts that there is one after it
    has noted the error. -/
theorem C74_violated_captures (e dst : Enc) (impl : List Nat → Nat → List Nat → Res (List (Option RegexMatch) × List Nat)) (sp : Specs)
    (hsp : sp.setString = []) (lay : List Nat → Layout) (s : List Nat) : matchesSpecs e dst impl sp lay s = .ub := by
  unfold matchesSpecs
  have : runTypeCheck (if dst = .utf8 then .narrowRegex else .wideRegex) sp = none := by
    split <;> (show (if sp.setString = [] then none else some (checkRegex sp)) = none; rw [if_pos hsp])
  rw [this]

/-- `{:s}` is such a specification. -/
example : (parseSpecs ⟨false, false, false⟩ .utf8 .narrowRegex ⟨{}, false⟩ [115, 125]).map (fun r => (r.1.err, r.1.specs.setString)) =
    some (false, []) := by decide +kernel

end Scn
