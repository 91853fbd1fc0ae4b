import Verif.Lemmas.Defined5
import Verif.Props.Driver
/-
C74: no source is undefined behaviour.
-/
namespace Scn
open Spec

/-- C74 for one field: whatever specification the format string parser accepts for it, the field reads
    any source (well-formed text or not, contiguous or not) with a result, and what is left is the end
    of the source. Not for `char32_t` and characters of the other width. The conversions of floating-point
    numbers and the regex engine are assumed not to claim more text than they were given. -/
theorem C74_field_partial (e wide : Enc) (cfg : RegexCfg) (loc : LocaleData) (old : Nat) (d : Dest) (hd : d.Tame e)
    {pos p : List Nat} {setter : Setter} (hparse : parseSpecs cfg e d.argTy ⟨{}, false⟩ pos = some (setter, p))
    (hok : setter.err = false) (lay : List Nat → Layout) (s : List Nat) (hu : UnitsOk e s) :
    d.readSpecs e wide loc old setter.specs lay s ≠ .ub ∧
    ∀ v rest, d.readSpecs e wide loc old setter.specs lay s = .ok (v, rest) → rest <:+ s :=
  readSpecs_sound e wide loc old hd (parseSpecs_accepted hparse hok).ok lay s hu

/-- `[^ä-ö]}` into a string, from text that ends inside a code point, in segments of one unit: the
    hypotheses hold, and the field is rejected. -/
example : let pos := [91, 94, 195, 164, 45, 195, 182, 93, 125]
    ∃ setter p, parseSpecs ⟨false, false, false⟩ .utf8 (Dest.string .utf8).argTy ⟨{}, false⟩ pos = some (setter, p) ∧
      setter.err = false ∧ (Dest.string .utf8).Tame .utf8 ∧ UnitsOk .utf8 [97, 98, 0xE2, 0x82] ∧
      (Dest.string .utf8).readSpecs .utf8 .utf32 ⟨44, 46, [], [], fun _ _ _ _ => .bad⟩ 0 setter.specs (fun _ => .segmented 1) [97, 98, 0xE2, 0x82] =
        .err .invalidScannedValue := by
  refine ⟨⟨{ nonascii := true, inverted := true, type := .stringSet, setString := [91, 94, 195, 164, 45, 195, 182, 93] }, false⟩,
    [125], by decide +kernel, rfl, Or.inl rfl, ?_, by decide +kernel⟩
  intro _ b hb
  revert b
  decide

/-- C74 for a whole call: every format string and every source, into fewer than 64
    destinations: a result is returned. The sources are any units (bytes when narrow), in particular
    any malformed text. Not for `char32_t`, characters of the other width, and `regex_matches`, and not for
    64 destinations or more. -/
theorem C74_scan_partial (e wide : Enc) (cfg : RegexCfg) (loc : LocaleData) (old : Nat) (ds : List Dest) (hds : ∀ d ∈ ds, d.Tame e)
    (hcount : ds.length < 64) (fmt : List Nat) (hfmt : UnitsOk e fmt) (src : List Nat) (hsrc : UnitsOk e src) :
    ∃ r, vscan (stdEnv e wide cfg loc old ds) fmt src = some r :=
  C23_few_well_defined_partial (stdEnv_ok e wide cfg loc old hds fmt) hcount src hsrc hfmt

/-- `{:>5.6} {:[a-z]}` into an `int`, a wide string, a string view and a `double`: the hypotheses hold. -/
example (cv : FloatConv Nat) : (∀ d ∈ [Dest.int ⟨32, true⟩ .int, .string .utf32, .view .utf8 false, .float .double cv true], d.Tame .utf8) ∧
    UnitsOk .utf8 [123, 58, 62, 53, 46, 54, 125, 32, 123, 58, 91, 97, 45, 122, 93, 125] ∧ UnitsOk .utf8 [32, 255, 0xC3] := by
  refine ⟨?_, ?_, ?_⟩
  · intro d hd
    simp only [List.mem_cons, List.not_mem_nil, or_false] at hd
    rcases hd with rfl | rfl | rfl | rfl
    · exact Or.inl rfl
    · exact Or.inr (Or.inl rfl)
    · trivial
    · exact Or.inr (Or.inl rfl)
  all_goals (intro _ b hb; revert b; decide)

/-- C74 is violated: reading a `char32_t` with `{:c}` at the end of the source, or with `{}` from a
    truncated code point, and a `wchar_t` (4 bytes) from that same narrow source, is undefined
    behaviour. -/
theorem C74_violated (cfg : RegexCfg) (loc : LocaleData) (old : Nat) :
    (vscan (stdEnv .utf8 .utf32 ⟨false, false, false⟩ ⟨44, 46, [], [], fun _ _ _ _ => .bad⟩ 0 [.codePoint]) [123, 58, 99, 125] []).isNone = true ∧
    vscan (stdEnv .utf8 .utf32 cfg loc old [.codePoint]) [123, 125] [0xE2, 0x82] = none ∧
    vscan (stdEnv .utf8 .utf32 cfg loc old [.wchar]) [123, 125] [0xE2, 0x82] = none := by
  refine ⟨by decide +kernel, ?_, ?_⟩ <;> rfl

end Scn
