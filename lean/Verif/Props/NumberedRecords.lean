import Verif.Lemmas.NumberedRecords
/-
C91 for records whose literal texts have braces in them and whose fields name their arguments.
The vocabulary is in `Verif/Spec/NumberedRecords.lean`.
-/
namespace Scn
open Spec

/-- C91, records, below 64 fields: a record printed with a format string is read back by it. The literal texts may have braces
    in them (doubled in the format string), the fields may name their arguments in any order, and each value ends up in the
    argument its field names. -/
theorem C91_numbered_partial (e wide : Enc) (cfg : RegexCfg) (loc : LocaleData) (old : Nat) (auto : Bool) (ds : List Dest) (xs : List (Nat × PrintedField))
    (last rest : List Nat) (hn : ds.length < 64) (hids : Numbered auto (xs.map fun x => x.1) ds.length) (hds : ∀ x ∈ xs, ds[x.1]? = some x.2.dest)
    (hok : ∀ x ∈ xs, x.2.Ok e) (hg : ∀ x ∈ xs, ∀ c ∈ x.2.gap, Simple e c)
    (hgap : ∀ x ∈ xs, EndsInText x.2.gap ∨ ∃ c r, x.2.shown = c :: r ∧ isSpace c = false)
    (hlast : ∀ c ∈ last, Simple e c) (hend : EndsInText last) (hrest : ∀ c ∈ rest, IsScalar c)
    (hclear : AllClear (xs.map fun x => x.2) (last ++ rest)) :
    ∃ evs, vscan (stdEnv e wide cfg loc old ds) (numberedFormat e auto xs last) (encodes e (printedRecord (xs.map fun x => x.2) (last ++ rest))) =
      some (.ok (encodes e rest), evs) ∧ stored evs = xs.map fun x => (x.1, x.2.val) := by
  have hrun := numberedRecord_run e wide cfg loc old ds last rest hlast hrest hend xs hds hok hg hgap hclear
  have hstay := numberedFields_stay (wide := wide) (cfg := cfg) (loc := loc) (old := old) hds hok
  have hm : ∀ f ∈ numberedFields (stdEnv e wide cfg loc old ds) e xs, FieldMeans (stdEnv e wide cfg loc old ds) f := by
    intro f hf
    obtain ⟨x, hx, rfl⟩ := List.mem_map.1 hf
    exact numberedFields_mean (hds x hx) (hok x hx)
  have hidm : (numberedFields (stdEnv e wide cfg loc old ds) e xs).map (fun f => f.id) = xs.map fun x => x.1 := by
    unfold numberedFields; rw [List.map_map]; rfl
  have hscalar : ∀ c ∈ printedRecord (xs.map fun x => x.2) (last ++ rest), IsScalar c := by
    refine printedRecord_scalar (e := e) loc _ _ ?_ ?_ ?_
    · intro y hy; obtain ⟨z, hz, rfl⟩ := List.mem_map.1 hy; exact hok z hz
    · intro y hy; obtain ⟨z, hz, rfl⟩ := List.mem_map.1 hy; exact hg z hz
    · intro c hc
      rcases List.mem_append.1 hc with h | h
      · exact (hlast c h).1
      · exact hrest c h
  have hgaps : ∀ f ∈ numberedFields (stdEnv e wide cfg loc old ds) e xs, SimpleText e f.gap := by
    intro f hf
    obtain ⟨x, hx, rfl⟩ := List.mem_map.1 hf
    exact ⟨x.2.gap, rfl, hg x hx⟩
  rw [numberedFormat_eq (stdEnv e wide cfg loc old ds)]
  rw [← hidm] at hids
  exact escaped_ok (stdEnv_skipsUnits e wide cfg loc old ds) ⟨last, rfl, hlast⟩ hn hm hgaps hids hstay (encodes_unitsOk e hscalar) hrun

/-- "{{{1:4}}},{0};" with true and 42: "{  42},true;". -/
example : let xs : List (Nat × PrintedField) :=
      [(1, ⟨[123], some { width := some 4 }, .int ⟨32, true⟩ .int, .int 42, intText 10 42,
        fun rest => NoDigitFirst 10 rest ∧ ((42 : Int) = 0 → (10 : Nat) ≠ 10 → ∀ l, rest.head? = some l → l ∉ [98, 66, 111, 79, 120, 88])⟩),
       (0, ⟨[125, 44], none, .bool, .bool true, trueWord, fun _ => True⟩)]
    let ds : List Dest := [.bool, .int ⟨32, true⟩ .int]
    numberedFormat .utf8 false xs [59] = [123, 123, 123, 49, 58, 52, 125, 125, 125, 44, 123, 48, 125, 59] ∧
    printedRecord (xs.map fun x => x.2) [59] = [123, 32, 32, 52, 50, 125, 44, 116, 114, 117, 101, 59] ∧
    Numbered false (xs.map fun x => x.1) ds.length ∧ (∀ x ∈ xs, ds[x.1]? = some x.2.dest) ∧ (∀ x ∈ xs, x.2.Ok .utf8) ∧
    (∀ x ∈ xs, ∀ c ∈ x.2.gap, Simple .utf8 c) ∧ (∀ x ∈ xs, EndsInText x.2.gap ∨ ∃ c r, x.2.shown = c :: r ∧ isSpace c = false) ∧
    AllClear (xs.map fun x => x.2) [59] := by
  refine ⟨by decide +kernel, by decide +kernel, ⟨by decide, by decide, by decide, by decide⟩, ?_, ?_, ?_, ?_, ?_, trivial, trivial⟩
  · intro x hx
    rcases List.mem_cons.1 hx with rfl | hx
    · rfl
    · obtain rfl := List.mem_singleton.1 hx; rfl
  · intro x hx
    rcases List.mem_cons.1 hx with rfl | hx
    · refine ⟨by decide +kernel, ⟨?_, ?_, ?_, ?_, ?_, ?_⟩, rfl, .int _ _ _ 10 false _ (by decide) (by decide) (by decide) (by decide) (by decide) (by decide)⟩
      · rintro f a ⟨⟩
      · rintro n ⟨⟩; decide
      · rintro n ⟨⟩
      · decide
      · rintro c ⟨⟩
      · intro h; exact absurd h (by decide +kernel)
    · obtain rfl := List.mem_singleton.1 hx
      exact .bool true
  · intro x hx
    rcases List.mem_cons.1 hx with rfl | hx
    · unfold Simple IsScalar; decide
    · obtain rfl := List.mem_singleton.1 hx
      unfold Simple IsScalar; decide
  · intro x hx
    rcases List.mem_cons.1 hx with rfl | hx
    · exact Or.inl (by rintro c ⟨⟩; decide)
    · obtain rfl := List.mem_singleton.1 hx
      exact Or.inl (by rintro c ⟨⟩; decide)
  · refine ⟨?_, ?_, Or.inl rfl, ⟨?_, ?_⟩, ?_, ?_⟩
    · decide
    · decide
    · intro c hc
      cases hc
      decide
    · decide
    · decide
    · decide

end Scn
