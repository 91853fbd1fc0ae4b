import Verif.Lemmas.Texts
/-
C76: strings that are read are parts of the source.
-/
namespace Scn
open Spec

/-- C76 for a field with any specification the parser accepts: a string that is read is a part of the source, made of
    whole elements, in the encoding of the destination. What is left of the source begins behind it. Strings of 2-byte
    characters read from other encodings are excepted if there are characters above U+FFFF. -/
theorem C76_string_partial {e wide dst : Enc} (cfg : RegexCfg) (loc : LocaleData) (old : Nat) (hp : e = dst ∨ e = .utf8 ∨ dst = .utf8)
    {pos p : List Nat} {setter : Setter} (hparse : parseSpecs cfg e (Dest.string dst).argTy ⟨{}, false⟩ pos = some (setter, p))
    (hok : setter.err = false) {lay : List Nat → Layout} {s rest : List Nat} (hu : Units e s) {v : Val}
    (h : (Dest.string dst).readSpecs e wide loc old setter.specs lay s = .ok (v, rest)) :
    ∃ w, v = .string w ∧ PartOf e dst s rest w :=
  string_specs_part hp (parseSpecs_accepted hparse hok).ok hu h

/-- `{:[a-ö]}` from narrow text into a wide string. -/
example : let pos := [91, 97, 45, 195, 182, 93, 125]
    let sp : Specs := { nonascii := true, type := .stringSet, setString := [91, 97, 45, 195, 182, 93] }
    let s := [195, 164, 195, 182, 90]
    parseSpecs ⟨false, false, false⟩ .utf8 (Dest.string .utf32).argTy ⟨{}, false⟩ pos = some (⟨sp, false⟩, [125]) ∧ Units .utf8 s ∧
      (Dest.string .utf32).readSpecs .utf8 .utf32 ⟨44, 46, [], [], fun _ _ _ _ => .bad⟩ 0 sp (fun _ => .contiguous) s =
        .ok (.string [228, 246], [90]) := by
  refine ⟨by decide +kernel, ?_, by decide +kernel⟩
  show ∀ c ∈ [195, 164, 195, 182, 90], c < 256
  decide

/-- C76 for `{}`: the same. -/
theorem C76_string_default_partial {e wide dst : Enc} (hp : e = dst ∨ e = .utf8 ∨ dst = .utf8) {lay : List Nat → Layout} {s rest : List Nat}
    (hu : Units e s) {v : Val} (h : defaultRead e ((Dest.string dst).defaultReader e wide) lay s = .ok (v, rest)) :
    ∃ w, v = .string w ∧ PartOf e dst s rest w := string_default_part hp hu h

/-- A wide source, with 2-byte units, into a narrow string: U+20AC and U+1F600 behind whitespace. -/
example : Units .utf16 [0x2028, 0x20AC, 0xD83D, 0xDE00, 32] ∧
    defaultRead .utf16 ((Dest.string .utf8).defaultReader .utf16 .utf16) (fun _ => .contiguous) [0x2028, 0x20AC, 0xD83D, 0xDE00, 32] =
      .ok (.string [0xE2, 0x82, 0xAC, 0xF0, 0x9F, 0x98, 0x80], [32]) := by
  refine ⟨?_, by decide +kernel⟩
  show ∀ c ∈ [0x2028, 0x20AC, 0xD83D, 0xDE00, 32], c < 65536
  decide

/-- C76 for string views, with any specification the parser accepts: the view is a part of the source, unchanged (so the
    encodings are the same), not a copy, and made of whole elements. -/
theorem C76_view {e wide dst : Enc} {stored : Bool} (cfg : RegexCfg) (loc : LocaleData) (old : Nat)
    {pos p : List Nat} {setter : Setter} (hparse : parseSpecs cfg e (Dest.view dst stored).argTy ⟨{}, false⟩ pos = some (setter, p))
    (hok : setter.err = false) {lay : List Nat → Layout} {s rest : List Nat} (hu : Units e s) {v : Val}
    (h : (Dest.view dst stored).readSpecs e wide loc old setter.specs lay s = .ok (v, rest)) :
    e = dst ∧ stored = false ∧ ∃ pre mid post cps, s = pre ++ mid ++ post ∧ rest <:+ post ∧ v = .string mid ∧ Denotes e mid cps :=
  view_specs_part (parseSpecs_accepted hparse hok).ok hu h

/-- `{:.3}` of " héllo": the view is "hé", up to the limit of three columns with the whitespace. -/
example : let pos := [46, 51, 125]
    let sp : Specs := { precision := 3 }
    let s := [32, 104, 195, 169, 108, 108, 111]
    parseSpecs ⟨false, false, false⟩ .utf8 (Dest.view .utf8 false).argTy ⟨{}, false⟩ pos = some (⟨sp, false⟩, [125]) ∧ Units .utf8 s ∧
      (Dest.view .utf8 false).readSpecs .utf8 .utf32 ⟨44, 46, [], [], fun _ _ _ _ => .bad⟩ 0 sp (fun _ => .contiguous) s =
        .ok (.string [104, 195, 169], [108, 108, 111]) := by
  refine ⟨by decide +kernel, ?_, by decide +kernel⟩
  show ∀ c ∈ [32, 104, 195, 169, 108, 108, 111], c < 256
  decide

/-- C76 for string views with `{}`. -/
theorem C76_view_default {e wide dst : Enc} {stored : Bool} {lay : List Nat → Layout} {s rest : List Nat} (hu : Units e s) {v : Val}
    (h : defaultRead e ((Dest.view dst stored).defaultReader e wide) lay s = .ok (v, rest)) :
    e = dst ∧ stored = false ∧ ∃ pre mid post cps, s = pre ++ mid ++ post ∧ rest <:+ post ∧ v = .string mid ∧ Denotes e mid cps :=
  view_default_part hu h

example : Units .utf8 [32, 0xC3, 0xA9, 32] ∧
    defaultRead .utf8 ((Dest.view .utf8 false).defaultReader .utf8 .utf32) (fun _ => .segmented 1) [32, 0xC3, 0xA9, 32] =
      .ok (.string [0xC3, 0xA9], [32]) := by
  refine ⟨?_, by decide +kernel⟩
  show ∀ c ∈ [32, 0xC3, 0xA9, 32], c < 256
  decide

end Scn
