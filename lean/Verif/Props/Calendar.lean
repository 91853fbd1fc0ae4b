import Verif.Lemmas.Calendar
import Verif.Props.Chrono4
/-
C70: calendar types.
-/
namespace Scn
open Spec

/-! ### C70: calendar types -/

/-- A date that is written with a format is read back with it into each of the calendar types that the fields of the format
    determine, and exactly the text is consumed. -/
theorem C70_roundtrip_partial (cfg : ChronoCfg) (hl : GoodLayouts cfg.enc cfg.lay) (gmtoff : Bool) (k : CalKind) (c : Civil) (hv : c.Valid)
    (is : List FmtItem) (hfmt : FormatOk cfg.enc is) (hnd : (fieldsOf (callsOf is)).Nodup) (hF : Compatible (fieldsOf (callsOf is)))
    (hdt : ∀ f ∈ fieldsOf (callsOf is), f ≠ .shortYear ∧ f ≠ .century ∧ (f = .yday → c.yday ≤ 7)) (hk : Determines (fieldsOf (callsOf is)) k)
    {ws t rest : List Nat} (h : ShownSeq cfg.enc c (callsOf is) t rest) (hw : Spaces ws) (hne : t ++ rest ≠ [])
    (hfirst : (t ++ rest).dropWhile isSpace = t ++ rest) (hs : ∀ c ∈ rest, IsScalar c) (r : List Nat) :
    calendarCustom cfg gmtoff k (formatText is ++ 125 :: r) (encodes cfg.enc (ws ++ (t ++ rest))) =
      (125 :: r, .ok (calendarOf c k, encodes cfg.enc rest)) := by
  rw [calendar_of_custom (chronoCustom_dt cfg hl gmtoff c hv is hfmt hnd hF hdt h hw hne hfirst hs {} r)]
  have hm : toUChar c.month = c.month := uchar_small (by omega) (by have := hv.month; omega)
  have hd : toUChar c.mday = c.mday := uchar_small (by omega) (by have := hv.mday; omega)
  have hy : Spec.yearOf (fieldsOf (callsOf is)) c = c.year ∨ .fullYear ∉ fieldsOf (callsOf is) := by
    by_cases hf : .fullYear ∈ fieldsOf (callsOf is)
    · left; unfold yearOf; simp [hf]
    · exact Or.inr hf
  cases k <;> simp only [Determines] at hk <;> simp [CalKind.value, setDateTime, calendarOf, hk, hm, hd]
  all_goals rcases hy with hy | hy
  all_goals first | (rw [hy]) | exact absurd hk hy | exact absurd hk.1 hy

/-- For the examples: the format `%d/%m/%Y`. -/
def exDate : List FmtItem := [.conv [100] (.dayOfMonth .standard), .lit [47], .conv [109] (.decMonth .standard), .lit [47], .conv [89] (.fullYear .standard)]

theorem exDate_ok : FormatOk exChrono.enc exDate := by
  refine ⟨⟨_, _, _, rfl⟩, ?_, ?_⟩
  · intro i hi
    simp only [exDate, List.mem_cons, List.not_mem_nil, or_false] at hi
    rcases hi with rfl | rfl | rfl | rfl | rfl
    · exact Or.inl ⟨_, rfl, by decide⟩
    · exact ⟨by decide, fun x hx => by simp at hx; subst hx; exact ⟨by decide, rfl, rfl, by decide, by decide⟩⟩
    · exact Or.inl ⟨_, rfl, by decide⟩
    · exact ⟨by decide, fun x hx => by simp at hx; subst hx; exact ⟨by decide, rfl, rfl, by decide, by decide⟩⟩
    · exact Or.inl ⟨_, rfl, by decide⟩
  · intro pre a b post h
    match pre with
    | [] => cases h; decide
    | [_] => cases h; decide
    | [_, _] => cases h; decide
    | [_, _, _] => cases h; decide
    | [_, _, _, _] => cases h
    | _ :: _ :: _ :: _ :: _ :: pre => simp [exDate] at h

theorem exDate_shown : ShownSeq exChrono.enc exCivil (callsOf exDate) [48, 53, 47, 48, 51, 47, 50, 48, 50, 52] [33] :=
  (ShownSeq.cons _ _ [48, 53] _ (fun _ => True) _ (.dayOfMonth _ _ _ (digits_pad2 (n := 5) (by decide) (by decide) _)) trivial
      (.cons _ _ [47] _ (fun _ => True) _ (shown_sep (by decide) _) trivial
        (.cons _ _ [48, 51] _ (fun _ => True) _ (.decMonth _ _ _ (digits_pad2 (n := 3) (by decide) (by decide) _)) trivial
          (.cons _ _ [47] _ (fun _ => True) _ (shown_sep (by decide) _) trivial
            (.cons _ _ [50, 48, 50, 52] _ (fun _ => True) _ (.fullYear _ _ _ ⟨by decide, by decide, by decide, by decide, fun _ _ => Or.inl rfl⟩) trivial (.nil [33]))))))

/-- `{:%d/%m/%Y}` on `05/03/2024!` -/
example : calendarCustom exChrono false .yearMonthDay (formatText exDate ++ [125]) (encodes .utf8 ([] ++ ([48, 53, 47, 48, 51, 47, 50, 48, 50, 52] ++ [33]))) =
    ([125], .ok (.yearMonthDay 2024 3 5, [33])) :=
  C70_roundtrip_partial exChrono exChrono_good false .yearMonthDay exCivil exCivil_valid exDate exDate_ok (by decide) (by constructor <;> decide)
    (by decide) (by decide) exDate_shown (by intro c hc; cases hc) (by decide) (by decide) (by decide) []

/-- Whatever the format and the text, what is read into a calendar type is the part of some date. -/
theorem C70_in_range (cfg : ChronoCfg) (gmtoff : Bool) (k : CalKind) (pos src p rest : List Nat) (v : CalVal)
    (h : calendarCustom cfg gmtoff k pos src = (p, .ok (v, rest))) : CalVal.InRange v := by
  obtain ⟨d, h, hv⟩ := custom_of_calendar h
  obtain ⟨fmt, _, hscan⟩ := custom_parts h
  obtain ⟨fs, hin⟩ := C65_any_format_components cfg fmt {} d src rest hscan
  have hmon : ∀ v, d.mon = some v → 1 ≤ v ∧ v ≤ 12 := by
    intro v hd
    by_cases hm : .mon ∈ fs
    · obtain ⟨w, hw, h1⟩ := hin.mon.1 hm
      rw [hw] at hd; cases hd; exact h1
    · rw [hin.mon.2 hm] at hd; cases hd
  have hmday : ∀ v, d.mday = some v → 1 ≤ v ∧ v ≤ 31 := by
    intro v hd
    by_cases hm : .mday ∈ fs
    · obtain ⟨w, hw, h1⟩ := hin.mday.1 hm
      rw [hw] at hd; cases hd; exact h1
    · rw [hin.mday.2 hm] at hd; cases hd
  have hwday : ∀ v, d.wday = some v → 0 ≤ v ∧ v ≤ 6 := by
    intro v hd
    by_cases hm : .wday ∈ fs
    · obtain ⟨w, hw, h1⟩ := hin.wday.1 hm
      rw [hw] at hd; cases hd; exact h1
    · rw [hin.wday.2 hm] at hd; cases hd
  have huc : ∀ v : Int, 1 ≤ v ∧ v ≤ 31 → toUChar v = v := fun v hv => uchar_small (by omega) (by omega)
  cases k <;> simp only [CalKind.value, Option.map_eq_some_iff, Option.bind_eq_some_iff] at hv
  · obtain ⟨a, ha, rfl⟩ := hv; exact hwday a ha
  · obtain ⟨a, ha, rfl⟩ := hv
    have := hmday a ha
    rw [huc a this]; exact this
  · obtain ⟨a, ha, rfl⟩ := hv; exact hmon a ha
  · obtain ⟨a, ha, rfl⟩ := hv; exact True.intro
  · obtain ⟨a, ha, b, hb, rfl⟩ := hv
    have h1 := hmon a ha
    have h2 := hmday b hb
    rw [huc a (by omega), huc b h2]; exact ⟨h1, h2⟩
  · obtain ⟨_, _, a, ha, rfl⟩ := hv
    have h1 := hmon a ha
    rw [huc a (by omega)]; exact h1
  · obtain ⟨_, _, a, ha, b, hb, rfl⟩ := hv
    have h1 := hmon a ha
    have h2 := hmday b hb
    rw [huc a (by omega), huc b h2]; exact ⟨h1, h2⟩

/-- `{:%d}` on `31!` -/
example : CalVal.InRange (.day 31) := C70_in_range exChrono false .day [37, 100, 125] [51, 49, 33] [125] [33] _ rfl

/-- Whatever the text, the scan of a calendar type is well-defined with a format whose fields determine it. Missing:
    formats with `%Z` and `%.S` (`C69_violated`), and those whose fields do not determine the type, for which it is
    false. -/
theorem C70_defined_partial (cfg : ChronoCfg) (hin : Inside cfg) (gmtoff : Bool) (k : CalKind) (is : List FmtItem) (hfmt : FormatOk cfg.enc is)
    (hk : Determines (fieldsOf (callsOf is)) k) (hz : ¬ [37, 90] <:+: formatText is ∧ ¬ [37, 46] <:+: formatText is) (r src : List Nat)
    (hu : UnitsOk cfg.enc src) (hp : chronoParse cfg.enc gmtoff .components (formatText is ++ 125 :: r) ≠ .ub) :
    (calendarCustom cfg gmtoff k (formatText is ++ 125 :: r) src).2 ≠ .ub := by
  have h1 := C69_components_partial cfg hin gmtoff {} _ src hu (fun fmt p h => (chronoParse_text hfmt h).1 ▸ hz) hp
  unfold chronoCustom at h1
  unfold calendarCustom calendarScan
  split
  · rename_i h; exact absurd h hp
  · simp
  · rename_i fmt p hparse
    rw [hparse] at h1
    dsimp only at h1 ⊢
    cases hscan : chronoScan cfg dtSetter fmt {} src with
    | ub => exact absurd hscan h1
    | err e => simp [Res.bind]
    | ok w =>
      rw [Res.bind_ok]
      have h2 := C65_components cfg gmtoff is hfmt {} w.1 r src p w.2 (by unfold chronoCustom; rw [hparse]; dsimp only; rw [hscan])
      have : k.value w.1 ≠ none := by
        cases k <;> simp only [Determines] at hk
        · obtain ⟨a, ha, _⟩ := h2.wday.1 hk; simp [CalKind.value, ha]
        · obtain ⟨a, ha, _⟩ := h2.mday.1 hk; simp [CalKind.value, ha]
        · obtain ⟨a, ha, _⟩ := h2.mon.1 hk; simp [CalKind.value, ha]
        · obtain ⟨a, ha⟩ := h2.year.1 (Or.inl hk); simp [CalKind.value, ha]
        · obtain ⟨a, ha, _⟩ := h2.mon.1 hk.1
          obtain ⟨b, hb, _⟩ := h2.mday.1 hk.2
          simp [CalKind.value, ha, hb]
        · obtain ⟨a, ha⟩ := h2.year.1 (Or.inl hk.1)
          obtain ⟨b, hb, _⟩ := h2.mon.1 hk.2
          simp [CalKind.value, ha, hb]
        · obtain ⟨a, ha⟩ := h2.year.1 (Or.inl hk.1)
          obtain ⟨b, hb, _⟩ := h2.mon.1 hk.2.1
          obtain ⟨c, hc, _⟩ := h2.mday.1 hk.2.2
          simp [CalKind.value, ha, hb, hc]
      split
      · contradiction
      · simp

/-- `{:%d/%m/%Y}`, on anything -/
example (src : List Nat) (hu : UnitsOk .utf8 src) : (calendarCustom exChrono false .yearMonthDay (formatText exDate ++ [125]) src).2 ≠ .ub :=
  C70_defined_partial exChrono ⟨fun _ _ _ _ h => (by cases h), fun _ _ _ _ h => (by cases h)⟩ false .yearMonthDay exDate exDate_ok (by decide) (by decide) [] src hu
    (by decide)

/-- With a format that does not determine the calendar type, which passes the check, the scan of every text that was written
    with it is undefined. -/
theorem C70_violated (cfg : ChronoCfg) (hl : GoodLayouts cfg.enc cfg.lay) (gmtoff : Bool) (k : CalKind) (c : Civil) (hv : c.Valid)
    (is : List FmtItem) (hfmt : FormatOk cfg.enc is) (hnd : (fieldsOf (callsOf is)).Nodup) (hF : Compatible (fieldsOf (callsOf is)))
    (hdt : ∀ f ∈ fieldsOf (callsOf is), f ≠ .shortYear ∧ f ≠ .century ∧ (f = .yday → c.yday ≤ 7)) (hk : ¬ Determines (fieldsOf (callsOf is)) k)
    {ws t rest : List Nat} (h : ShownSeq cfg.enc c (callsOf is) t rest) (hw : Spaces ws) (hne : t ++ rest ≠ [])
    (hfirst : (t ++ rest).dropWhile isSpace = t ++ rest) (hs : ∀ c ∈ rest, IsScalar c) (r : List Nat) :
    calendarCustom cfg gmtoff k (formatText is ++ 125 :: r) (encodes cfg.enc (ws ++ (t ++ rest))) = (125 :: r, .ub) := by
  rw [calendar_of_custom (chronoCustom_dt cfg hl gmtoff c hv is hfmt hnd hF hdt h hw hne hfirst hs {} r)]
  have h1 : .shortYear ∉ fieldsOf (callsOf is) := fun hm => (hdt _ hm).1 rfl
  have h2 : .century ∉ fieldsOf (callsOf is) := fun hm => (hdt _ hm).2.1 rfl
  suffices k.value (setDateTime (fieldsOf (callsOf is)) c {}) = none by rw [this]
  cases k <;> simp only [Determines, Classical.not_and_iff_not_or_not] at hk <;> simp only [CalKind.value, setDateTime, h1, h2, or_false]
  all_goals first
    | (rw [if_neg hk]; rfl)
    | (rcases hk with hk | hk | hk <;> rw [if_neg hk] <;> simp)
    | (rcases hk with hk | hk <;> rw [if_neg hk] <;> simp)

/-- `{:%H:%OM}` on `19:08!`, into a day -/
example : calendarCustom exChrono false .day (formatText exFormat ++ [125]) (encodes .utf8 ([32] ++ ([49, 57, 58, 48, 56] ++ [33]))) = ([125], .ub) :=
  C70_violated exChrono exChrono_good false .day exCivil exCivil_valid exFormat exFormat_ok (by decide) (by constructor <;> decide) (by decide)
    (by decide) exFormat_shown (by intro c hc; simp at hc; subst hc; decide) (by decide) (by decide) (by intro c hc; simp at hc; subst hc; decide) []

end Scn
