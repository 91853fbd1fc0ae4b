import Verif.Spec.Scannable
/-
C101: what can be scanned from and into is decided by the compiler.
-/
namespace Scn
open Spec

/-- C101, destinations: a destination compiles exactly when it should, whatever types have been taken out of the library, in C++17 and C++20. Missing
    from the full claim: `regex_matches` when only one of characters and regular expressions is taken out (`C101_violated_regex_flag`). -/
theorem C101_destination_partial (cpp20 : Bool) (off : Flag → Bool) (wide : Bool) (d : DestTy) (ht : d.ty ≠ .builtin .none ∧ d.ty ≠ .builtin .custom)
    (hr : (d.ty = .builtin .narrowRegex ∨ d.ty = .builtin .wideRegex) → off .char = off .regex) :
    makeValue cpp20 off wide d = true ↔ destinationOk off wide d := by
  obtain ⟨ty, c⟩ := d
  cases c with
  | true =>
    unfold destinationOk makeValue argMap
    rcases ty with t | _ | s <;> cases cpp20 <;> simp [scannerBraces]
  | false =>
    rcases ty with t | _ | s
    · cases ho : off t.flag <;> cases hc : off .char <;> cases t <;> simp at ht <;> simp [ArgTy.flag] at ho <;> simp [hc, ho] at hr <;> cases wide <;>
        simp [destinationOk, makeValue, argMap, ArgTy.flag, needsSource, ho, hc] <;> simp_all
    · cases ho : off .pointer <;> simp [destinationOk, makeValue, argMap, ho]
    · cases s <;> cases cpp20 <;> simp [destinationOk, makeValue, argMap, scannerBraces]

/-- A `wchar_t` from a narrow source compiles, a `char` from a wide source does not. -/
example : makeValue true (fun _ => false) false ⟨.builtin .wideChar, false⟩ = true ∧ makeValue true (fun _ => false) true ⟨.builtin .narrowChar, false⟩ = false ∧
    destinationOk (fun _ => false) false ⟨.builtin .wideChar, false⟩ ∧ ¬ destinationOk (fun _ => false) true ⟨.builtin .narrowChar, false⟩ := by
  simp [makeValue, argMap, destinationOk, needsSource]

/-- C101 and the flags: taking `char` out of the library takes `regex_matches` out as well, though not strings read by regular expressions; the flag
    that is asked about is that of the character type. -/
theorem C101_violated_regex_flag (cpp20 wide : Bool) (off : Flag → Bool) (hc : off .char = true) (hr : off .regex = false) :
    destinationOk off wide ⟨.builtin (if wide then .wideRegex else .narrowRegex), false⟩ ∧
    makeValue cpp20 off wide ⟨.builtin (if wide then .wideRegex else .narrowRegex), false⟩ = false := by
  cases wide <;> simp [destinationOk, makeValue, argMap, ArgTy.flag, needsSource, hc, hr]
example : ∃ off : Flag → Bool, off .char = true ∧ off .regex = false := ⟨fun f => f == .char, by decide, by decide⟩

/-- C101, `is_scannable`: from C++20 on it holds exactly for the destinations that compile, if nothing has been taken out. -/
theorem C101_is_scannable_partial (wide : Bool) (d : DestTy) (ht : d.ty ≠ .builtin .none ∧ d.ty ≠ .builtin .custom) :
    isScannable true (fun _ => false) wide d = true ↔ destinationOk (fun _ => false) wide d := by
  obtain ⟨ty, c⟩ := d
  cases c with
  | true =>
    unfold destinationOk isScannable argMap
    rcases ty with t | _ | s <;> simp [scannerBraces]
  | false =>
    rcases ty with t | _ | s
    · cases t <;> simp at ht <;> cases wide <;> simp [destinationOk, isScannable, argMap, needsSource]
    · simp [destinationOk, isScannable, argMap]
    · cases s <;> simp [destinationOk, isScannable, argMap, scannerBraces]

/-- In C++17 `is_scannable` holds for every type that is not built in, and for every `const` type: the primary template of `scanner`, which is meant not
    to be constructible, is an aggregate, and the test initializes it with braces. -/
theorem C101_violated_cpp17 (off : Flag → Bool) (wide : Bool) (d : DestTy) (h : d.isConst = true ∨ d.ty = .other false) :
    isScannable false off wide d = true ∧ ¬ destinationOk off wide d := by
  obtain ⟨ty, c⟩ := d
  dsimp only at h
  cases c with
  | true => rcases ty with t | _ | s <;> simp [isScannable, argMap, scannerBraces, destinationOk]
  | false =>
    rcases h with h | rfl
    · cases h
    · simp [isScannable, argMap, scannerBraces, destinationOk]
/-- A `const int`. -/
example : isScannable false (fun _ => false) false ⟨.builtin .int, true⟩ = true ∧ isScannable true (fun _ => false) false ⟨.builtin .int, true⟩ = false := by decide

/-- C101, elements of ranges and tuples and `discard`: the types for which the program is linked are exactly the scannable ones that are not `bool`,
    `char32_t`, a pointer, or a `wchar_t` from a narrow source. -/
theorem C101_elements_partial (cpp20 : Bool) (off : Flag → Bool) (wide : Bool) (d : DestTy) (ht : d.ty ≠ .builtin .none ∧ d.ty ≠ .builtin .custom) :
    elementLinks cpp20 off wide d = true ↔ makeValue cpp20 off wide d = true ∧ d.ty ≠ .builtin .bool ∧ d.ty ≠ .builtin .codePoint ∧
      d.ty ≠ .builtin .pointer ∧ d.ty ≠ .constPointer ∧ ¬ (wide = false ∧ d.ty = .builtin .wideChar) := by
  obtain ⟨ty, c⟩ := d
  unfold elementLinks
  rw [Bool.and_eq_true]
  constructor
  · rintro ⟨h1, h2⟩
    refine ⟨h1, ?_⟩
    rcases ty with t | _ | s
    · cases t <;> cases wide <;> simp [definedScans] at h2 ⊢
    · cases wide <;> simp [definedScans] at h2
    · simp
  · rintro ⟨h1, h2⟩
    refine ⟨h1, ?_⟩
    rcases ty with t | _ | s
    · cases t <;> simp at ht <;> cases wide <;> simp [definedScans] at h1 h2 ⊢
      cases c <;> cases cpp20 <;> cases hc : off .char <;> simp [makeValue, argMap, scannerBraces, hc] at h1
    · simp at h2
    · rfl

/-- A `bool` is a scannable destination, but a `std::vector<bool>` or a `discard<bool>` is not linked: there is no instantiation of the scanner of `bool`. -/
theorem C101_violated_elements (cpp20 wide : Bool) :
    makeValue cpp20 (fun _ => false) wide ⟨.builtin .bool, false⟩ = true ∧ elementLinks cpp20 (fun _ => false) wide ⟨.builtin .bool, false⟩ = false ∧
    makeValue cpp20 (fun _ => false) wide ⟨.builtin .codePoint, false⟩ = true ∧ elementLinks cpp20 (fun _ => false) wide ⟨.builtin .codePoint, false⟩ = false ∧
    makeValue cpp20 (fun _ => false) wide ⟨.builtin .pointer, false⟩ = true ∧ elementLinks cpp20 (fun _ => false) wide ⟨.builtin .pointer, false⟩ = false ∧
    makeValue cpp20 (fun _ => false) false ⟨.builtin .wideChar, false⟩ = true ∧ elementLinks cpp20 (fun _ => false) false ⟨.builtin .wideChar, false⟩ = false := by
  cases cpp20 <;> cases wide <;> decide

/-- Ranges and tuples are read from narrow sources, of the elements of `C101_elements_partial`; from wide sources none is: whatever the elements are, the
    scanner does not compile, as its brackets are narrow literals. -/
theorem C101_violated_wide_ranges (cpp20 : Bool) (off : Flag → Bool) (wide : Bool) (d : DestTy) :
    rangeLinks cpp20 off wide d = if wide then false else elementLinks cpp20 off false d := by
  cases wide <;> rfl
/-- A `std::vector<int>` from a `std::string` and a `std::wstring`: both are accepted as elements. -/
example : (∀ wide, elementLinks true (fun _ => false) wide ⟨.builtin .int, false⟩ = true) ∧ rangeLinks true (fun _ => false) false ⟨.builtin .int, false⟩ = true ∧
    rangeLinks true (fun _ => false) true ⟨.builtin .int, false⟩ = false := by
  refine ⟨?_, ?_, ?_⟩ <;> decide

/-- C101, the types of arguments: what the static assertions accept, for any number of arguments. Missing from the full claim: references are not rejected
    (`C101_violated_references`). -/
theorem C101_arguments_partial (ts : List TypeTraits) (hr : ∀ t ∈ ts, t.reference = false) : checkScanArgTypes ts = true ↔ argumentsOk ts := by
  unfold checkScanArgTypes argumentsOk conjunction
  simp only [Bool.and_eq_true, List.all_eq_true, List.mem_map, id_eq, forall_exists_index, and_imp, forall_apply_eq_imp_iff₂, List.all_cons, Bool.false_and,
    Bool.not_false, and_true]
  constructor
  · rintro ⟨⟨h1, h2⟩, h3⟩ t ht
    exact ⟨h1 t ht, h2 t ht, hr t ht, h3 t ht⟩
  · intro h
    exact ⟨⟨fun t ht => (h t ht).1, fun t ht => (h t ht).2.1⟩, fun t ht => (h t ht).2.2.2⟩
example : checkScanArgTypes [⟨true, true, false, true⟩, ⟨true, true, false, true⟩] = true ∧ checkScanArgTypes [⟨true, true, false, true⟩, ⟨true, true, false, false⟩] = false := by decide

/-- The assertion that "Scan argument types must not be references" holds for all types: it is the negation of a conjunction that begins with false. -/
theorem C101_violated_references (ts : List TypeTraits) :
    checkScanArgTypes ts = checkScanArgTypes (ts.map fun t => { t with reference := true }) := by
  unfold checkScanArgTypes conjunction
  simp [List.map_map, Function.comp_def]
example : checkScanArgTypes [⟨true, true, true, true⟩] = true ∧ ¬ argumentsOk [⟨true, true, true, true⟩] := by
  refine ⟨by decide, fun h => ?_⟩
  have := (h _ (List.mem_singleton.2 rfl)).2.2.1
  cases this

/-- C101, sources: a call with a format string of this character type compiles exactly for the sources that are documented as scannable. Missing from the
    full claim: views with other traits (`C101_violated_traits`). -/
theorem C101_source_partial (wide : Bool) (s : SourceTy) (hs : RealSource s) (hv : s.kind = .view → s.stdTraits = true) :
    sourceCompiles wide s = true ↔ sourceOk wide s := by
  obtain ⟨kind, ch, st, ra, fw, rd, ct, sz, ad⟩ := s
  obtain ⟨h1, h2, h3, h4, h5, h6⟩ := hs
  dsimp only at h1 h2 h3 h4 h5 h6 hv
  cases kind <;> simp at h4 h5 h6 hv <;> cases ch <;> cases wide <;> cases st <;> cases ra <;> cases fw <;> simp at h2 h3 h5 h6 hv <;>
    cases rd <;> cases ct <;> cases sz <;> simp at h1 h2 h4 <;> cases ad <;> simp [sourceCompiles, makeScanBuffer, sourceOk, CharTy.valid]

/-- A list of characters (a forward range), read as narrow text. -/
example : RealSource { random := false, contiguous := false, sized := false } ∧ sourceCompiles false { random := false, contiguous := false, sized := false } = true ∧
    sourceCompiles true { random := false, contiguous := false, sized := false } = false := by
  refine ⟨⟨?_, ?_, ?_, ?_, ?_, ?_⟩, by decide, by decide⟩ <;> simp

/-- C101, the explanation: when a source is refused, what the compiler says is true; else it is read in place exactly if its characters lie together. -/
theorem C101_explanation (s : SourceTy) (hs : RealSource s) : complaint s (makeScanBuffer s) := by
  obtain ⟨kind, ch, st, ra, fw, rd, ct, sz, ad⟩ := s
  obtain ⟨h1, h2, h3, h4, h5, h6⟩ := hs
  dsimp only at h1 h2 h3 h4 h5 h6
  cases kind <;> simp at h4 h5 h6 <;> cases ch <;> cases st <;> cases ra <;> cases fw <;> simp at h2 h3 h5 h6 <;>
    cases rd <;> cases ct <;> cases sz <;> simp at h1 h2 h4 <;> cases ad <;> simp [makeScanBuffer, complaint, CharTy.valid]

/-- "Strings with custom Traits are not supported", says the assertion, of `std::basic_string_view` too: but a view with other traits is not seen as a view; it
    is taken like any contiguous range. -/
theorem C101_violated_traits (wide : Bool) (s : SourceTy) (hs : RealSource s) (hk : s.kind = .view) (ht : s.stdTraits = false)
    (hc : s.char = if wide then .wchar else .char) : sourceCompiles wide s = true ∧ ¬ sourceOk wide s := by
  obtain ⟨h1, h2⟩ := hs.text (Or.inl hk)
  constructor
  · cases wide <;> simp [sourceCompiles, makeScanBuffer, hk, ht, h1, h2, hc, CharTy.valid]
  · rintro (⟨h, _⟩ | ⟨_, _, _, h⟩)
    · rw [hk] at h; cases h
    · rw [h (Or.inr hk)] at ht; cases ht
example : RealSource { kind := .view, stdTraits := false } := ⟨by simp, by simp, by simp, by simp, by simp, by simp⟩

end Scn
