import Verif.Lemmas.Layouts2
import Verif.Lemmas.AloneFloat
/-
C41: the same text in a string and in a source that is not contiguous.
-/
namespace Scn
open Spec

/-- C41 (one field with specifications): ASCII text (without the byte 16, see `C07_counterexample`), or any wide text, is
    read alike however the source is cut into segments: same value or error, same remaining input, for every accepted
    specification but regexes, which need a string. Floating-point numbers: without `L`, and if no `0x` is without a digit after
    it (`C39_violated`). Missing for the full claim: localized floating-point numbers, narrow text that is not ASCII (see
    `C41_text_field_partial`), and views of text in more than one segment, which are an error (C75). -/
theorem C41_specs_field_partial (e wide : Enc) (cfg : RegexCfg) (loc : LocaleData) (old : Nat) (d : Dest) (hd : d.Tame e) (hst : d.Steady)
    (spec p : List Nat) (setter : Setter) (hparse : parseSpecs cfg e d.argTy ⟨{}, false⟩ spec = some (setter, p))
    (hok : setter.err = false) (hre : setter.specs.type ≠ .regex ∧ setter.specs.type ≠ .regexEscaped)
    (lay lay' : List Nat → Layout) (s : List Nat) (hs : e = .utf8 → ∀ c ∈ s, c < 128 ∧ c ≠ 16)
    (hfl : d.IsFloat → setter.specs.localized = false ∧ ∀ t, t <:+ s → ¬ BarePrefix t) :
    d.readSpecs e wide loc old setter.specs lay s = d.readSpecs e wide loc old setter.specs lay' s :=
  readSpecs_plain e wide loc old hd hst (parseSpecs_accepted hparse hok).ok
    (fun h => (strKind_none h).elim hre.1 hre.2) (fl := d.IsFloat) (fun h => ⟨h, (hfl h).1⟩) lay lay' ⟨hs, fun h => (hfl h).2⟩

/-- The locale of the examples. -/
def plainLocale : LocaleData := ⟨44, 46, [121], [110], fun _ _ _ _ => .none⟩

example : (parseSpecs ⟨true, true, true⟩ .utf8 .int ⟨{}, false⟩ [42, 94, 54, 46, 57, 120, 125]).map (fun r => (r.1.err, r.2)) =
    some (false, [125]) ∧
    (Dest.int ⟨32, true⟩ .int).readSpecs .utf8 .utf32 plainLocale 0 { fill := ⟨[42, 0, 0, 0], 1⟩, align := .center, width := 6, precision := 9, type := .intHex }
      (fun s => .segmented (s.length % 2)) [42, 42, 102, 102, 42, 42, 42] = .ok (.int 255, []) := by
  decide +kernel

/-- C41 (one field without specifications): likewise, when the reader is given the source and not only its current
    segment. -/
theorem C41_default_field_partial (e wide : Enc) (d : Dest) (hd : d.Steady) (lay lay' : List Nat → Layout) (s : List Nat)
    (hs : e = .utf8 → ∀ c ∈ s, c < 128 ∧ c ≠ 16) (hfl : d.IsFloat → ∀ t, t <:+ s → ¬ BarePrefix t) :
    defaultRead e (d.defaultReader e wide) lay s = defaultRead e (d.defaultReader e wide) lay' s :=
  defaultRead_plain (defaultReader_blind e wide hd (fl := d.IsFloat) id) lay lay' ⟨hs, hfl⟩

example : defaultRead .utf8 ((Dest.string .utf8).defaultReader .utf8 .utf32) (fun _ => .segmented 2) [32, 97, 98, 99, 32] =
    .ok (.string [97, 98, 99], [32]) := by decide +kernel

/-- A floating-point number is read alike from a string and from single units. -/
example : defaultRead .utf8 ((Dest.float .double exConvNat true).defaultReader .utf8 .utf32) (fun _ => .segmented 1) [32, 49, 46, 53] =
    defaultRead .utf8 ((Dest.float .double exConvNat true).defaultReader .utf8 .utf32) (fun _ => .contiguous) [32, 49, 46, 53] := by
  refine C41_default_field_partial .utf8 .utf32 (.float .double exConvNat true) ⟨exRoundNat, exConvNat_ok⟩ _ _ _ (fun _ => by decide) ?_
  rintro - t ht ⟨x, r, rfl, _⟩
  exact absurd (ht.subset (by simp : 48 ∈ 48 :: x :: r)) (by decide)

/-- C41 (whole calls): a scan call over a source that is not contiguous does everything (literals matched, fields read,
    values, errors, remaining input) as the same call over a string does, when no field without specifications is cut
    short by the end of a segment (`C41_later_fields_truncated` is what happens otherwise) and the format string holds no
    slash (no regex). Missing for the full claim: as for `C41_specs_field_partial`. -/
theorem C41_call_partial (e wide : Enc) (cfg : RegexCfg) (loc : LocaleData) (old : Nat) (ds : List Dest)
    (hds : ∀ d ∈ ds, d.Tame e ∧ d.Steady) (lay : List Nat → Layout) (win : List Nat → Option Nat) (fmt src : List Nat)
    (hsrc : e = .utf8 → ∀ c ∈ src, c < 128 ∧ c ≠ 16) (hfmt : 47 ∉ fmt)
    (hfl : ∀ d ∈ ds, d.IsFloat → 76 ∉ fmt ∧ ∀ t, t <:+ src → ¬ BarePrefix t)
    (hwin : ∀ s, s <:+ src → ∀ k, win s = some k → s.length ≤ k)
    (r : Except Err (List Nat) × List (Event Val)) (h : vscan (stdEnv e wide cfg loc old ds) fmt src = some r) :
    vscan (bufEnv e wide cfg loc old lay win ds) fmt src = some r :=
  vscan_simulate (buf_std (fl := ∃ d ∈ ds, d.IsFloat) (fun d hd => ⟨(hds d hd).1, (hds d hd).2, fun h => ⟨d, hd, h⟩⟩) (lay := lay) _ (Or.inl ⟨rfl, hwin⟩)) fmt src
    ⟨⟨hsrc, fun ⟨d, hd, h⟩ => (hfl d hd h).2⟩, List.suffix_refl _⟩ ⟨hfmt, fun ⟨d, hd, h⟩ => (hfl d hd h).1⟩ h

example : (vscan (bufEnv .utf8 .utf32 ⟨true, true, true⟩ plainLocale 0 (fun _ => .segmented 1) (fun _ => none)
      [.int ⟨32, true⟩ .int, .string .utf8]) [123, 125, 59, 123, 125] [32, 49, 50, 59, 32, 97, 98, 10]).map (fun r => r.1.toOption) =
    some (some [10]) ∧
    (vscan (stdEnv .utf8 .utf32 ⟨true, true, true⟩ plainLocale 0 [.int ⟨32, true⟩ .int, .string .utf8])
      [123, 125, 59, 123, 125] [32, 49, 50, 59, 32, 97, 98, 10]).map (fun r => r.1.toOption) = some (some [10]) := by
  decide +kernel

/-- C41 (whole calls with specifications): when no field without specifications is reached (the call is defined even if
    reading one is not), segments make no difference at all, wherever they end. -/
theorem C41_specs_call_partial (e wide : Enc) (cfg : RegexCfg) (loc : LocaleData) (old : Nat) (ds : List Dest)
    (hds : ∀ d ∈ ds, d.Tame e ∧ d.Steady) (lay : List Nat → Layout) (win : List Nat → Option Nat) (fmt src : List Nat)
    (hsrc : e = .utf8 → ∀ c ∈ src, c < 128 ∧ c ≠ 16) (hfmt : 47 ∉ fmt)
    (hfl : ∀ d ∈ ds, d.IsFloat → 76 ∉ fmt ∧ ∀ t, t <:+ src → ¬ BarePrefix t) (r : Except Err (List Nat) × List (Event Val))
    (h : vscan { stdEnv e wide cfg loc old ds with readDefault := fun _ _ => .ub } fmt src = some r) :
    vscan (bufEnv e wide cfg loc old lay win ds) fmt src = some r ∧ vscan (stdEnv e wide cfg loc old ds) fmt src = some r := by
  have key : ∀ lay win, vscan (bufEnv e wide cfg loc old lay win ds) fmt src = some r := fun lay win =>
    vscan_simulate (buf_std (fl := ∃ d ∈ ds, d.IsFloat) (fun d hd => ⟨(hds d hd).1, (hds d hd).2, fun h => ⟨d, hd, h⟩⟩) (lay := lay) (win := win) (src := src) _ (Or.inr rfl))
      fmt src ⟨⟨hsrc, fun ⟨d, hd, h⟩ => (hfl d hd h).2⟩, List.suffix_refl _⟩ ⟨hfmt, fun ⟨d, hd, h⟩ => (hfl d hd h).1⟩ h
  exact ⟨key lay win, key (fun _ => .contiguous) (fun _ => none)⟩

example : (vscan { stdEnv .utf8 .utf32 ⟨true, true, true⟩ plainLocale 0 [.int ⟨32, true⟩ .int, .int ⟨32, true⟩ .int] with
      readDefault := fun _ _ => .ub } [123, 58, 100, 125, 32, 123, 58, 100, 125] [49, 50, 32, 51, 52]).map (fun r => r.1.toOption) =
    some (some []) := by
  decide +kernel

/-- C41 (one field with specifications, any text): well-formed text (without the character 16 in a narrow source) is read
    alike from all sources whose segments end between two characters: same value or error, same remaining input. Missing for
    the full claim: segments that cut a character in two (`C41_violated_split_space`), characters of one unit (`char`,
    `wchar_t` from UTF-16), regexes, localized floating-point numbers, views of text in more than one segment (C75). -/
theorem C41_text_field_partial (e wide : Enc) (cfg : RegexCfg) (loc : LocaleData) (hloc : PlainLocale e loc) (old : Nat) (d : Dest)
    (hd : d.ByCharacter e) (hst : d.Steady) (fmt : List Nat) (hf : ∀ c ∈ fmt, IsScalar c) (spec p : List Nat) (hspec : spec <:+ encodes e fmt)
    (setter : Setter) (hparse : parseSpecs cfg e d.argTy ⟨{}, false⟩ spec = some (setter, p)) (hok : setter.err = false)
    (hre : setter.specs.type ≠ .regex ∧ setter.specs.type ≠ .regexEscaped) (lay lay' : List Nat → Layout) (hlay : GoodLayouts e lay)
    (hlay' : GoodLayouts e lay') (cps : List Nat) (hs : ∀ c ∈ cps, IsScalar c) (h16 : e = .utf8 → 16 ∉ cps)
    (hfl : d.IsFloat → setter.specs.localized = false ∧ ∀ t, t <:+ encodes e cps → ¬ BarePrefix t) :
    d.readSpecs e wide loc old setter.specs lay (encodes e cps) = d.readSpecs e wide loc old setter.specs lay' (encodes e cps) :=
  readSpecs_alike hloc hd hst hlay hlay' hf hspec hparse hok (fun h => (strKind_none h).elim hre.1 hre.2) (fl := d.IsFloat)
    (fun h => ⟨h, (hfl h).1⟩) ⟨hs, h16, fun h => (hfl h).2⟩

/-- Segments of one character. -/
def oneByOne (s : List Nat) : Layout := .segmented (match s with | [] => 0 | c :: _ => cpLength8 c)

theorem oneByOne_good : GoodLayouts .utf8 oneByOne := by
  intro cps hs
  cases cps with
  | nil => exact ⟨[], [], rfl, by simp [utf8s]⟩
  | cons c cps =>
    refine ⟨[c], cps, rfl, ?_⟩
    have hc := hs c (by simp)
    obtain ⟨u, us, hu⟩ : ∃ u us, utf8 c = u :: us := by
      cases h : utf8 c with
      | nil => exact absurd h (encode_ne_nil .utf8 c)
      | cons u us => exact ⟨u, us, rfl⟩
    obtain ⟨x, t, h1, h2, h3, _⟩ := encodes_first (e := .utf8) hs (u := u) (t := us ++ utf8s cps) (by
      rw [encodes_cons]; show utf8 c ++ _ = _; rw [hu, encodes_utf8]; rfl)
    cases h1
    show (utf8s (c :: cps)).take (match encodes .utf8 (c :: cps) with | [] => 0 | c :: _ => cpLength8 c) = utf8s [c]
    have he : encodes .utf8 (c :: cps) = u :: (us ++ utf8s cps) := by
      rw [encodes_cons]; show utf8 c ++ _ = _; rw [hu, encodes_utf8]; rfl
    rw [he]
    dsimp only
    have h2' : cpLength8 u = (utf8 c).length := h2
    rw [h2', ← encodes_utf8, encodes_cons]
    show (utf8 c ++ _).take _ = _
    rw [List.take_left, utf8s]
    simp

example : (parseSpecs ⟨true, true, true⟩ .utf8 (Dest.string .utf8).argTy ⟨{}, false⟩ [0xC3, 0xA9, 62, 54, 125]).map (fun r => (r.1.err, r.1.specs.fill, r.1.specs.width, r.2)) =
      some (false, ⟨[0xC3, 0xA9, 0, 0], 2⟩, 6, [125]) ∧
    (Dest.string .utf8).readSpecs .utf8 .utf32 plainLocale 0 { fill := ⟨[0xC3, 0xA9, 0, 0], 2⟩, align := .right, width := 6 } oneByOne
      (encodes .utf8 [0xE9, 0xE9, 0xFC, 0x4E2D, 98, 0x2028, 99]) = .ok (.string (encodes .utf8 [0xFC, 0x4E2D, 98]), encodes .utf8 [0x2028, 99]) := by
  refine ⟨?_, ?_⟩ <;> decide +kernel

/-- The locale of the examples has single units and well-formed names. -/
example : PlainLocale .utf8 plainLocale :=
  ⟨single_ascii _ (by decide), single_ascii _ (by decide), ⟨[121], by unfold IsScalar; decide, rfl⟩, ⟨[110], by unfold IsScalar; decide, rfl⟩⟩

/-- C41 (one field without specifications, any text): likewise. -/
theorem C41_text_default_partial (e wide : Enc) (d : Dest) (hd : d.Steady) (lay lay' : List Nat → Layout) (hlay : GoodLayouts e lay)
    (hlay' : GoodLayouts e lay') (cps : List Nat) (hs : ∀ c ∈ cps, IsScalar c) (h16 : e = .utf8 → 16 ∉ cps)
    (hfl : d.IsFloat → ∀ t, t <:+ encodes e cps → ¬ BarePrefix t) :
    defaultRead e (d.defaultReader e wide) lay (encodes e cps) = defaultRead e (d.defaultReader e wide) lay' (encodes e cps) :=
  defaultRead_alike (defaultReader_blind e wide hd (fl := d.IsFloat) id) hlay hlay' ⟨hs, h16, hfl⟩

example : GoodLayouts .utf8 oneByOne ∧ defaultRead .utf8 ((Dest.string .utf8).defaultReader .utf8 .utf32) oneByOne (encodes .utf8 [0x2028, 0xFC, 0x4E2D, 0x2029]) =
    .ok (.string (encodes .utf8 [0xFC, 0x4E2D]), encodes .utf8 [0x2029]) := ⟨oneByOne_good, by decide +kernel⟩

/-- C41 (whole calls, any text): a scan call with an ASCII format string over well-formed text, in segments that end between two
    characters, does everything (literals matched, fields read, values, errors, remaining input) as the same call over a string
    does, when no field without specifications is cut short by the end of a segment. Missing for the full claim: as for
    `C41_text_field_partial`. -/
theorem C41_text_call_partial (e wide : Enc) (cfg : RegexCfg) (loc : LocaleData) (hloc : PlainLocale e loc) (old : Nat) (ds : List Dest)
    (hds : ∀ d ∈ ds, d.ByCharacter e ∧ d.Steady) (lay : List Nat → Layout) (hlay : GoodLayouts e lay) (win : List Nat → Option Nat)
    (fmt cps : List Nat) (hs : ∀ c ∈ cps, IsScalar c) (h16 : e = .utf8 → 16 ∉ cps) (hfmt : ∀ u ∈ fmt, u < 128 ∧ u ≠ 47)
    (hfl : ∀ d ∈ ds, d.IsFloat → 76 ∉ fmt ∧ ∀ t, t <:+ encodes e cps → ¬ BarePrefix t)
    (hwin : ∀ s, s <:+ encodes e cps → ∀ k, win s = some k → s.length ≤ k)
    (r : Except Err (List Nat) × List (Event Val)) (h : vscan (stdEnv e wide cfg loc old ds) fmt (encodes e cps) = some r) :
    vscan (bufEnv e wide cfg loc old lay win ds) fmt (encodes e cps) = some r :=
  vscan_simulate (buf_text (fl := ∃ d ∈ ds, d.IsFloat) hloc (fun d hd => ⟨(hds d hd).1, (hds d hd).2, fun h => ⟨d, hd, h⟩⟩) hlay
      ⟨hs, h16, fun ⟨d, hd, h⟩ => (hfl d hd h).2⟩ _ (Or.inl ⟨rfl, hwin⟩)) fmt _ (Between.here e cps)
    ⟨fun hm => (hfmt _ hm).2 rfl, fun ⟨d, hd, h⟩ => (hfl d hd h).1, fun u hu => (hfmt u hu).1⟩ h

example : (vscan (bufEnv .utf8 .utf32 ⟨true, true, true⟩ plainLocale 0 oneByOne (fun _ => none) [.string .utf8, .int ⟨32, true⟩ .int])
      [123, 125, 58, 32, 123, 125] (encodes .utf8 [0x2028, 0xFC, 0x4E2D, 0x2029, 58, 0x2028, 52, 0xE9])).map (fun r => r.1.toOption) = some none ∧
    (vscan (bufEnv .utf8 .utf32 ⟨true, true, true⟩ plainLocale 0 oneByOne (fun _ => none) [.string .utf8, .int ⟨32, true⟩ .int])
      [123, 125, 32, 58, 32, 123, 125] (encodes .utf8 [0x2028, 0xFC, 0x4E2D, 0x2029, 58, 0x2028, 52, 0xE9])).map (fun r => r.1.toOption) =
    some (some (encodes .utf8 [0xE9])) := by
  refine ⟨?_, ?_⟩ <;> decide +kernel

/-- C41 (whole calls with specifications, any text): when no field without specifications is reached, segments that end between
    two characters make no difference at all. -/
theorem C41_text_specs_call_partial (e wide : Enc) (cfg : RegexCfg) (loc : LocaleData) (hloc : PlainLocale e loc) (old : Nat) (ds : List Dest)
    (hds : ∀ d ∈ ds, d.ByCharacter e ∧ d.Steady) (lay : List Nat → Layout) (hlay : GoodLayouts e lay) (win : List Nat → Option Nat)
    (fmt cps : List Nat) (hs : ∀ c ∈ cps, IsScalar c) (h16 : e = .utf8 → 16 ∉ cps) (hfmt : ∀ u ∈ fmt, u < 128 ∧ u ≠ 47)
    (hfl : ∀ d ∈ ds, d.IsFloat → 76 ∉ fmt ∧ ∀ t, t <:+ encodes e cps → ¬ BarePrefix t) (r : Except Err (List Nat) × List (Event Val))
    (h : vscan { stdEnv e wide cfg loc old ds with readDefault := fun _ _ => .ub } fmt (encodes e cps) = some r) :
    vscan (bufEnv e wide cfg loc old lay win ds) fmt (encodes e cps) = some r ∧ vscan (stdEnv e wide cfg loc old ds) fmt (encodes e cps) = some r := by
  have key : ∀ lay win, GoodLayouts e lay → vscan (bufEnv e wide cfg loc old lay win ds) fmt (encodes e cps) = some r := fun lay win hlay =>
    vscan_simulate (buf_text (fl := ∃ d ∈ ds, d.IsFloat) hloc (fun d hd => ⟨(hds d hd).1, (hds d hd).2, fun h => ⟨d, hd, h⟩⟩) (win := win) hlay
      ⟨hs, h16, fun ⟨d, hd, h⟩ => (hfl d hd h).2⟩ _ (Or.inr rfl)) fmt _ (Between.here e cps)
      ⟨fun hm => (hfmt _ hm).2 rfl, fun ⟨d, hd, h⟩ => (hfl d hd h).1, fun u hu => (hfmt u hu).1⟩ h
  exact ⟨key lay win hlay, key (fun _ => .contiguous) (fun _ => none) (goodLayouts_contiguous e)⟩

example : (vscan { stdEnv .utf8 .utf32 ⟨true, true, true⟩ plainLocale 0 [.string .utf8, .int ⟨32, true⟩ .int] with
      readDefault := fun _ _ => .ub } [123, 58, 115, 125, 32, 123, 58, 100, 125] (encodes .utf8 [0xFC, 0x4E2D, 0x2029, 51, 52])).map (fun r => r.1.toOption) =
    some (some []) := by
  decide +kernel

/-- The negation of C41 for whole calls, and the difference a specification makes: of `12 34`, in a source of one-unit
    segments, `{} {}` leaves the 4 unread (the second value is 3), and `{:d} {:d}` reads all of it. -/
theorem C41_violated_call :
    (vscan (bufEnv .utf8 .utf32 ⟨true, true, true⟩ plainLocale 0 (fun _ => .segmented 1)
      (fun s => if s.length = 5 then none else some 1) [.int ⟨32, true⟩ .int, .int ⟨32, true⟩ .int])
      [123, 125, 32, 123, 125] [49, 50, 32, 51, 52]).map (fun r => r.1.toOption) = some (some [52]) ∧
    (vscan (bufEnv .utf8 .utf32 ⟨true, true, true⟩ plainLocale 0 (fun _ => .segmented 1)
      (fun s => if s.length = 5 then none else some 1) [.int ⟨32, true⟩ .int, .int ⟨32, true⟩ .int])
      [123, 58, 100, 125, 32, 123, 58, 100, 125] [49, 50, 32, 51, 52]).map (fun r => r.1.toOption) = some (some []) := by
  decide +kernel

end Scn
