import Verif.Model.Api
import Verif.Props.Continued
import Verif.Props.Defined
/-
C34 for the built-in types, and C93: what a scan call returns.
-/
namespace Scn
open Spec

variable {V : Type}

/-! ### C34 -/

/-- C34 for calls with well-behaved readers: on success the unused range is a suffix of the source. -/
theorem C34_suffix {env : Env V} {U : List Nat → Prop} {fmt : List Nat} (ho : EnvOk env U fmt) (hfmt : UnitsOk env.enc fmt)
    {src rest : List Nat} (hsrc : U src) {evs : List (Event V)} (h : vscan env fmt src = some (.ok rest, evs)) : rest <:+ src := by
  have hc : env.count < 64 := Nat.lt_of_not_le fun hc => C23_many_never_succeed hc fmt src rest evs h
  rcases vscan_ok_cases h with ⟨_, _, v, h2, rfl⟩ | ⟨st, h1, rfl, _, rfl⟩
  · exact (ho.dflt 0 src (by omega) hsrc).2 _ _ h2
  · obtain ⟨st', h3, h4⟩ := general_within (ho.within src) hc src ⟨hsrc, List.suffix_refl _⟩ hfmt
    rw [h1] at h3
    cases h3
    exact h4.2

/-- C34 for the built-in types: for every format string and every source (any bytes when narrow), a successful call into integers,
    booleans, characters, strings, string views, pointers and floating-point numbers leaves a suffix of its source. Not for
    `char32_t`, characters of the other width, and `regex_matches`. -/
theorem C34_builtin_partial (e wide : Enc) (cfg : RegexCfg) (loc : LocaleData) (old : Nat) {ds : List Dest} (hds : ∀ d ∈ ds, d.Tame e)
    {fmt : List Nat} (hfmt : UnitsOk e fmt) {src rest : List Nat} (hsrc : UnitsOk e src) {evs : List (Event Val)}
    (h : vscan (stdEnv e wide cfg loc old ds) fmt src = some (.ok rest, evs)) : rest <:+ src :=
  C34_suffix (stdEnv_ok e wide cfg loc old hds fmt) hfmt hsrc h

/-- "{:[a-z]}" into a string, from "ab" and a stray byte. -/
example : (∀ d ∈ [Dest.string .utf8], d.Tame .utf8) ∧ UnitsOk .utf8 [123, 58, 91, 97, 45, 122, 93, 125] ∧ UnitsOk .utf8 [97, 98, 255] ∧
    ((vscan (stdEnv .utf8 .utf32 ⟨false, false, false⟩ ⟨44, 46, [], [], fun _ _ _ _ => .bad⟩ 0 [.string .utf8])
      [123, 58, 91, 97, 45, 122, 93, 125] [97, 98, 255]).map fun x => match x.1 with | .ok r => r | .error _ => [0]) = some [255] := by
  refine ⟨?_, ?_, ?_, by decide +kernel⟩
  · intro d hd
    obtain rfl := List.mem_singleton.1 hd
    exact Or.inl rfl
  all_goals (intro _ b hb; revert b; decide)

/-! ### C93 -/

theorem storeAll_stored (evs : List (Event V)) : ∀ init, storeAll init evs = (stored evs).foldl (fun vs p => vs.set p.1 p.2) init := by
  induction evs with
  | nil => intro init; rfl
  | cons ev evs ih =>
    intro init
    show storeAll (match ev with | .visit id _ (.ok (v, _)) => init.set id v | _ => init) evs = _
    rw [ih]
    cases ev with
    | literal => rfl
    | visit id s r =>
      cases r with
      | ok r => rfl
      | err e => rfl
      | ub => rfl

theorem foldl_set_length (l : List (Nat × V)) : ∀ init : List V, (l.foldl (fun vs p => vs.set p.1 p.2) init).length = init.length := by
  induction l with
  | nil => intro init; rfl
  | cons p l ih => intro init; rw [List.foldl_cons, ih, List.length_set]

theorem foldl_set_other (l : List (Nat × V)) (i : Nat) (hi : i ∉ l.map Prod.fst) : ∀ init : List V,
    (l.foldl (fun vs p => vs.set p.1 p.2) init)[i]? = init[i]? := by
  induction l with
  | nil => intro init; rfl
  | cons p l ih =>
    intro init
    rw [List.map_cons, List.mem_cons, not_or] at hi
    rw [List.foldl_cons, ih hi.2, List.getElem?_set_ne (fun h => hi.1 h.symm)]

theorem foldl_set_get (l : List (Nat × V)) (hn : (l.map Prod.fst).Nodup) : ∀ (init : List V) (i : Nat) (v : V), i < init.length →
    (i, v) ∈ l → (l.foldl (fun vs p => vs.set p.1 p.2) init)[i]? = some v := by
  induction l with
  | nil => intro init i v _ h; cases h
  | cons p l ih =>
    intro init i v hi h
    rw [List.map_cons, List.nodup_cons] at hn
    rw [List.foldl_cons]
    rcases List.mem_cons.1 h with rfl | h
    · rw [foldl_set_other l i hn.1, List.getElem?_set_self hi]
    · exact ih hn.2 _ i v (by rw [List.length_set]; exact hi) h

theorem writes_stored (evs : List (Event V)) : writes evs = (stored evs).map Prod.fst := by
  induction evs with
  | nil => rfl
  | cons ev evs ih =>
    unfold writes stored at ih ⊢
    cases ev with
    | literal => exact ih
    | visit id s r =>
      cases r with
      | ok r =>
        obtain ⟨v, q⟩ := r
        simp only [List.filterMap_cons, writeOf, List.map_cons, ih]
      | err e => exact ih
      | ub => exact ih

/-- C93, the fields: a call with any mix of fields returns, when all its steps succeed, as many values as there are arguments,
    at each index the one read by the field for that argument, whatever the values were initialized with; and the range
    returned is what the last step left of the source. Missing from the full claim: see C81; the result is computed for readers
    that leave suffixes (`EnvOk`). -/
theorem C93_fields_partial {env : Env V} {U : List Nat → Prop} {auto : Bool} {fs : List (CallField V)} {last : List Nat} (hl : NoBrace last)
    (h64 : env.count < 64) (hf : ∀ f ∈ fs, FieldMeans env f ∧ NoBrace f.gap) (hn : Numbered auto (fs.map fun f => f.id) env.count)
    (ho : EnvOk env U (callFormat auto fs last)) (hfmt : UnitsOk env.enc (callFormat auto fs last)) (src : Source) (hsrc : U src.scanned)
    {vs : List (Nat × V)} {r : List Nat} (h : inOrder (litStep env) fs last src.scanned = .ok (vs, r)) (init : List V) (hi : init.length = env.count) :
    ∃ res, scanCall env src (callFormat auto fs last) init = some (.ok res) ∧ res.range.scanned = r ∧ res.values.length = env.count ∧
      ∀ i v, (i, v) ∈ vs → res.values[i]? = some v := by
  obtain ⟨evs, h1, h2⟩ := C81_success_partial hl h64 hf hn h
  have hs := C34_suffix ho hfmt hsrc h1
  have hw : (vs.map Prod.fst).Nodup := by
    rw [← h2, ← writes_stored]; exact (C19_at_most_once h1).2
  have hids := inOrder_ids (litStep env) fs last src.scanned vs r h
  refine ⟨_, by rw [scanCall, h1]; rfl, ?_, ?_, ?_⟩
  · show (src.unused _).scanned = r
    rw [C92_unused]
    obtain ⟨t, ht⟩ := hs
    rw [← ht, List.length_append, Nat.add_sub_cancel, List.drop_left]
  · show (storeAll init evs).length = _
    rw [storeAll_stored, foldl_set_length, hi]
  · intro i v hv
    show (storeAll init evs)[i]? = _
    rw [storeAll_stored, h2]
    refine foldl_set_get vs hw init i v ?_ hv
    rw [hi]
    refine hn.below i ?_
    rw [← hids]
    exact List.mem_map_of_mem (f := Prod.fst) hv

/-- C93, failure: when a step fails the call returns an error and nothing else; it is undefined exactly when a step is. -/
theorem C93_failure_partial {env : Env V} {auto : Bool} {fs : List (CallField V)} {last : List Nat} (hl : NoBrace last)
    (h64 : env.count < 64) (hf : ∀ f ∈ fs, FieldMeans env f ∧ NoBrace f.gap) (hn : Numbered auto (fs.map fun f => f.id) env.count)
    (src : Source) (init : List V) :
    ((∃ e, scanCall env src (callFormat auto fs last) init = some (.error e)) ↔ ∃ e, inOrder (litStep env) fs last src.scanned = .err e) ∧
    (scanCall env src (callFormat auto fs last) init = none ↔ inOrder (litStep env) fs last src.scanned = .ub) := by
  unfold scanCall
  cases h : inOrder (litStep env) fs last src.scanned with
  | ub => rw [(C81_undefined_partial hl h64 hf hn _).2 h]; simp [fillResult]
  | err e =>
    obtain ⟨evs, e', h1, _⟩ := C81_failure_partial hl h64 hf hn h
    rw [h1]; simp [fillResult]
  | ok p =>
    obtain ⟨evs, h1, _⟩ := C81_success_partial hl h64 hf hn h
    rw [h1]; simp [fillResult]

/-- C93, every accepted format string: with a format string accepted by the compile-time check, a successful call returns a value
    that was read for every argument; so the result does not depend on the initial values. -/
theorem C93_checked_partial {cenv : CTEnv} {env : Env V} (hs : SameCall cenv env) (hc : env.count < 64) {fmt : List Nat} {c : CT}
    (hacc : compileCheck cenv fmt = some c) (hok : c.err = false) (src : Source) {init init' : List V} (hi : init.length = env.count)
    (hi' : init'.length = env.count) {res : ScanResult V} (h : scanCall env src fmt init = some (.ok res)) :
    scanCall env src fmt init' = some (.ok res) := by
  unfold scanCall at h ⊢
  cases hv : vscan env fmt src.scanned with
  | none => rw [hv] at h; cases h
  | some x =>
    obtain ⟨o, evs⟩ := x
    rw [hv] at h
    cases o with
    | error e => cases h
    | ok rest =>
      cases h
      show some (Except.ok _) = some (Except.ok _)
      congr 3
      have hall := C19_success_writes_all_partial hs hc hacc hok hv
      have hnd := (C19_at_most_once hv).2
      rw [writes_stored] at hnd
      rw [storeAll_stored, storeAll_stored]
      apply List.ext_getElem?
      intro i
      by_cases hlt : i < env.count
      · have hm : i ∈ writes evs := List.count_pos_iff.1 (by rw [hall i hlt]; omega)
        rw [writes_stored] at hm
        obtain ⟨⟨j, v⟩, hp, rfl⟩ := List.mem_map.1 hm
        rw [foldl_set_get _ hnd init' _ v (by rw [hi']; exact hlt) hp, foldl_set_get _ hnd init _ v (by rw [hi]; exact hlt) hp]
      · rw [List.getElem?_eq_none (by rw [foldl_set_length, hi']; omega), List.getElem?_eq_none (by rw [foldl_set_length, hi]; omega)]

/-- C93, `scan_value`: it returns what `scan` with "{}" returns. -/
theorem C93_value {env : Env V} (hc : env.count = 1) (src : Source) (init : V) :
    scanValueCall env src init = scanCall env src [123, 125] [init] := by
  unfold scanValueCall scanCall vscan
  rw [if_pos ⟨rfl, hc⟩]
  rfl

/-- C93 is not kept by format strings that are only checked at run time: "{:d} {:L}" for an `int`, a string and an `int` succeeds on
    "1 2", and returns the initial string. -/
theorem C93_violated_skipped : ∃ res, scanCall (intArgs [.int, .narrowString, .int]) (.contiguous [49, 32, 50])
    [123, 58, 100, 125, 32, 123, 58, 76, 125] [7, 8, 9] = some (.ok res) ∧ res.values = [1, 8, 2] := by
  have h : ((scanCall (intArgs [.int, .narrowString, .int]) (.contiguous [49, 32, 50])
      [123, 58, 100, 125, 32, 123, 58, 76, 125] [7, 8, 9]).bind fun x => match x with | .ok r => some r.values | .error _ => none) = some [1, 8, 2] := by
    decide +kernel
  revert h
  cases scanCall (intArgs [.int, .narrowString, .int]) (.contiguous [49, 32, 50]) [123, 58, 100, 125, 32, 123, 58, 76, 125] [7, 8, 9] with
  | none => intro h; cases h
  | some x =>
    cases x with
    | error e => intro h; cases h
    | ok r => intro h; exact ⟨r, rfl, Option.some.inj h⟩

/-- "{1:x}, {0}" on the literal "1f, 2!": argument 1 is 31 and argument 0 is 2. -/
example : ((scanCall (intArgs [.int, .int]) (.array [49, 102, 44, 32, 50, 33, 0]) (callFormat false twoFields []) [7, 8]).bind fun x =>
    match x with | .ok r => some (r.values, r.range) | .error _ => none) = some ([2, 31], .contiguous [33]) := by decide +kernel
example : inOrder (litStep (intArgs [.int, .int])) twoFields [] (Source.array [49, 102, 44, 32, 50, 33, 0]).scanned =
    .ok ([(1, 31), (0, 2)], [33]) ∧ EnvOk (intArgs [.int, .int]) Bytes (callFormat false twoFields []) :=
  ⟨by decide +kernel, intArgs_ok _ (by decide) _⟩
example : (compileCheck (intCheck [.int, .int]) [123, 49, 125, 45, 123, 48, 125]).map CT.err = some false ∧
    ((scanCall (intArgs [.int, .int]) (.forward [49, 45, 50]) [123, 49, 125, 45, 123, 48, 125] [7, 8]).bind fun x =>
      match x with | .ok r => some (r.values, r.range) | .error _ => none) = some ([2, 1], .forward []) := by decide +kernel

end Scn
