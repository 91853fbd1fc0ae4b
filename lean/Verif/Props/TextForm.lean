import Verif.Lemmas.TextForm
import Verif.Props.Texts
import Verif.Props.Unicode
/-
C119: strings that are read are well-formed text.
The vocabulary is in `Verif/Spec/TextForm.lean`.
-/
namespace Scn
open Spec

/-! ### C119 -/

/-- C119 for UTF-16, where it holds: whatever the units of the source are, a string that is read with any specification the parser accepts, into either
    encoding, is well-formed. -/
theorem C119_utf16 {wide dst : Enc} (hd : dst = .utf16 ∨ dst = .utf8) {lay : List Nat → Layout} {s rest : List Nat} (hu : ∀ c ∈ s, c < 65536) {v : Val}
    (h : (∃ cfg pos p setter loc old, parseSpecs cfg .utf16 (Dest.string dst).argTy ⟨{}, false⟩ pos = some (setter, p) ∧ setter.err = false ∧
        (Dest.string dst).readSpecs .utf16 wide loc old setter.specs lay s = .ok (v, rest)) ∨
      defaultRead .utf16 ((Dest.string dst).defaultReader .utf16 wide) lay s = .ok (v, rest)) :
    ∃ w, v = .string w ∧ WellFormedIn dst w := by
  have hp : Enc.utf16 = dst ∨ Enc.utf16 = .utf8 ∨ dst = .utf8 := hd.elim (fun h => Or.inl h.symm) fun h => Or.inr (Or.inr h)
  rcases h with ⟨cfg, pos, p, setter, loc, old, hparse, hok, h⟩ | h
  · obtain ⟨w, rfl, hw⟩ := C76_string_partial cfg loc old hp hparse hok (show Units .utf16 s from hu) h
    exact ⟨w, rfl, partOf_wellFormed (Or.inr rfl) trivial hw⟩
  · obtain ⟨w, rfl, hw⟩ := C76_string_default_partial hp (show Units .utf16 s from hu) h
    exact ⟨w, rfl, partOf_wellFormed (Or.inr rfl) trivial hw⟩

/-- U+20AC and U+1F600 in UTF-16 into a narrow string, with half a character left behind the whitespace. -/
example : (∀ c ∈ [0x20AC, 0xD83D, 0xDE00, 32, 0xD83D], c < 65536) ∧
    parseSpecs ⟨false, false, false⟩ .utf16 (Dest.string .utf8).argTy ⟨{}, false⟩ [115, 125] = some (⟨{ type := .string }, false⟩, [125]) ∧
    defaultRead .utf16 ((Dest.string .utf8).defaultReader .utf16 .utf16) (fun _ => .contiguous) [0x20AC, 0xD83D, 0xDE00, 32, 0xD83D] =
      .ok (.string [0xE2, 0x82, 0xAC, 0xF0, 0x9F, 0x98, 0x80], [32, 0xD83D]) :=
  ⟨by decide, by decide +kernel, by decide +kernel⟩

/-- C119 for any encoding: if nothing in the source looks like a character without being one, a string that is read is well-formed. Missing: sources with
    such impostors, below, and strings of 2-byte characters read from other encodings (C15). -/
theorem C119_string_partial {e wide dst : Enc} (hp : e = dst ∨ e = .utf8 ∨ dst = .utf8) (hd : dst ≠ .utf16 ∨ e = .utf16) {lay : List Nat → Layout}
    {s rest : List Nat} (hu : Units e s) (hn : NoImpostor e s) {v : Val}
    (h : (∃ cfg pos p setter loc old, parseSpecs cfg e (Dest.string dst).argTy ⟨{}, false⟩ pos = some (setter, p) ∧ setter.err = false ∧
        (Dest.string dst).readSpecs e wide loc old setter.specs lay s = .ok (v, rest)) ∨
      defaultRead e ((Dest.string dst).defaultReader e wide) lay s = .ok (v, rest)) :
    ∃ w, v = .string w ∧ WellFormedIn dst w := by
  rcases h with ⟨cfg, pos, p, setter, loc, old, hparse, hok, h⟩ | h
  · obtain ⟨w, rfl, hw⟩ := C76_string_partial cfg loc old hp hparse hok hu h
    exact ⟨w, rfl, partOf_wellFormed hd hn hw⟩
  · obtain ⟨w, rfl, hw⟩ := C76_string_default_partial hp hu h
    exact ⟨w, rfl, partOf_wellFormed hd hn hw⟩

/-- U+1F600 in UTF-32 into a narrow string, with a value beyond Unicode behind the whitespace. -/
example : Units .utf32 [0x1F600, 32, 0x110000] ∧ NoImpostor .utf32 [0x1F600, 32, 0x110000] ∧
    defaultRead .utf32 ((Dest.string .utf8).defaultReader .utf32 .utf32) (fun _ => .contiguous) [0x1F600, 32, 0x110000] =
      .ok (.string [0xF0, 0x9F, 0x98, 0x80], [32, 0x110000]) := by
  refine ⟨trivial, ?_, by decide +kernel⟩
  show ∀ c ∈ [0x1F600, 32, 0x110000], ¬ (0xD800 ≤ c ∧ c ≤ 0xDFFF)
  decide

/-- C119 for string views: the same. -/
theorem C119_view_partial {e wide dst : Enc} {stored : Bool} {lay : List Nat → Layout} {s rest : List Nat} (hu : Units e s) (hn : NoImpostor e s) {v : Val}
    (h : (∃ cfg pos p setter loc old, parseSpecs cfg e (Dest.view dst stored).argTy ⟨{}, false⟩ pos = some (setter, p) ∧ setter.err = false ∧
        (Dest.view dst stored).readSpecs e wide loc old setter.specs lay s = .ok (v, rest)) ∨
      defaultRead e ((Dest.view dst stored).defaultReader e wide) lay s = .ok (v, rest)) :
    ∃ w, v = .string w ∧ WellFormedIn e w := by
  have key : ∃ pre mid post cps, s = pre ++ mid ++ post ∧ rest <:+ post ∧ v = .string mid ∧ Denotes e mid cps := by
    rcases h with ⟨cfg, pos, p, setter, loc, old, hparse, hok, h⟩ | h
    · exact (C76_view cfg loc old hparse hok hu h).2.2
    · exact (C76_view_default hu h).2.2
  obtain ⟨pre, mid, post, cps, rfl, _, rfl, hc⟩ := key
  obtain ⟨g1, g2⟩ := denotes_scalar hc (noImpostor_infix hn ⟨pre, post, rfl⟩)
  exact ⟨mid, rfl, cps, g1, g2⟩

/-- A view of the text of a UTF-16 source. -/
example : Units .utf16 [0xD83D, 0xDE00, 32, 0xDE00] ∧ NoImpostor .utf16 [0xD83D, 0xDE00, 32, 0xDE00] ∧
    defaultRead .utf16 ((Dest.view .utf16 false).defaultReader .utf16 .utf16) (fun _ => .contiguous) [0xD83D, 0xDE00, 32, 0xDE00] =
      .ok (.string [0xD83D, 0xDE00], [32, 0xDE00]) := by
  refine ⟨?_, trivial, by decide +kernel⟩
  show ∀ c ∈ [0xD83D, 0xDE00, 32, 0xDE00], c < 65536
  decide

/-- The condition of the last two theorems is met by every well-formed source: from well-formed text, well-formed strings are read. -/
theorem C119_well_formed_sources {e : Enc} {s : List Nat} (h : WellFormedIn e s) : NoImpostor e s := wellFormed_noImpostor h

/-- "é€". -/
example : WellFormedIn .utf8 [0xC3, 0xA9, 0xE2, 0x82, 0xAC] := ⟨[0xE9, 0x20AC], by decide, by decide⟩

/-- The check of the library behind all this: of the texts in which nothing looks like a character without being one, it accepts exactly the well-formed
    ones. In UTF-16 these are all texts. -/
theorem C119_validated {e : Enc} {s : List Nat} (hu : Units e s) (hn : NoImpostor e s) : validateUnicode e s = some true ↔ WellFormedIn e s := by
  constructor
  · intro h
    obtain ⟨cps, hc, _⟩ := validate_denotes s.length s (Nat.le_refl _) hu h
    obtain ⟨g1, g2⟩ := denotes_scalar hc hn
    exact ⟨cps, g1, g2⟩
  · rintro ⟨cps, h1, rfl⟩
    exact validate_encodes e cps h1

/-- A pair of surrogates is accepted, the same in the wrong order is not. -/
example : Units .utf16 [0xD83D, 0xDE00] ∧ NoImpostor .utf16 [0xD83D, 0xDE00] ∧ validateUnicode .utf16 [0xD83D, 0xDE00] = some true ∧
    validateUnicode .utf16 [0xDE00, 0xD83D] = some false := by
  refine ⟨?_, trivial, by decide, by decide⟩
  show ∀ c ∈ [0xD83D, 0xDE00], c < 65536
  decide

/-- C119 is violated in UTF-32 and UTF-8: a surrogate is read into a string; from UTF-32 into a narrow string it becomes bytes that are not UTF-8. -/
theorem C119_violated :
    (defaultRead .utf32 ((Dest.string .utf8).defaultReader .utf32 .utf32) (fun _ => .contiguous) [0xD800] = .ok (.string [0xED, 0xA0, 0x80], []) ∧
      defaultRead .utf8 ((Dest.string .utf8).defaultReader .utf8 .utf32) (fun _ => .contiguous) [0xED, 0xA0, 0x80] = .ok (.string [0xED, 0xA0, 0x80], []) ∧
      defaultRead .utf32 ((Dest.string .utf32).defaultReader .utf32 .utf32) (fun _ => .contiguous) [0xD800] = .ok (.string [0xD800], [])) ∧
    ¬ WellFormedIn .utf8 [0xED, 0xA0, 0x80] ∧ ¬ WellFormedIn .utf32 [0xD800] := by
  refine ⟨⟨by decide +kernel, by decide +kernel, by decide +kernel⟩, ?_, ?_⟩
  · rintro ⟨cps, h1, h2⟩
    exact C14_violated.2.2 ⟨cps, h1, h2⟩
  · rintro ⟨cps, h1, h2⟩
    cases cps with
    | nil => cases h2
    | cons c cs =>
      have : 0xD800 = c := (List.cons.inj (show 0xD800 :: [] = c :: encodes .utf32 cs from h2)).1
      subst this
      exact (h1 0xD800 (by simp)).2 (by decide)

end Scn
