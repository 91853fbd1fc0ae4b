import Verif.Lemmas.Locale
import Verif.Props.Chrono
/-
C88: with `L` before the first conversion, the conversions whose texts depend on the locale are read by the locale's
facet, each at the place where it stands.
-/
namespace Scn
open Spec

/-- For `std::tm`: a conversion that depends on the locale is read by the locale, with the same conversion, from the first
    character that is not whitespace; exactly its fields are set, to what the locale has read, and the position is where
    the locale has stopped. Missing: more than one conversion (`C88_violated_position`), `%EC`, and `%Oy`
    (`C88_violated_short_year`). -/
theorem C88_localized_tm_partial (cfg : ChronoCfg) (hl : GoodLayouts cfg.enc cfg.lay) (gmtoff : Bool) (x f : List Nat) (fs : List ChronoField)
    (h : (x, f, fs) ∈ localeConversions) (ws u : List Nat) (hw : Spaces ws) (hne : u ≠ []) (hfirst : u.dropWhile isSpace = u) (hs : ∀ c ∈ u, IsScalar c)
    (t : Tm) (p : List Nat) (hf : cfg.facet (37 :: f) (encodes cfg.enc u) = some (t, p)) (hr : ∀ g ∈ fs, FieldInRange t g) (t0 : Tm) (r : List Nat) :
    chronoCustom cfg gmtoff .tm (tmSetter gmtoff) t0 (76 :: 37 :: (x ++ 125 :: r)) (encodes cfg.enc (ws ++ u)) = (125 :: r, .ok (takeTm fs t t0, p)) := by
  rw [locale_scan cfg hl gmtoff .tm (stores_tm gmtoff) h hw hne hfirst hs hf hr, put_tm h]

/-- The same for `tm_with_tz`. -/
theorem C88_localized_tm_with_tz_partial (cfg : ChronoCfg) (hl : GoodLayouts cfg.enc cfg.lay) (gmtoff : Bool) (x f : List Nat) (fs : List ChronoField)
    (h : (x, f, fs) ∈ localeConversions) (ws u : List Nat) (hw : Spaces ws) (hne : u ≠ []) (hfirst : u.dropWhile isSpace = u) (hs : ∀ c ∈ u, IsScalar c)
    (t : Tm) (p : List Nat) (hf : cfg.facet (37 :: f) (encodes cfg.enc u) = some (t, p)) (hr : ∀ g ∈ fs, FieldInRange t g) (t0 : TmWithTz) (r : List Nat) :
    chronoCustom cfg gmtoff .tmWithTz (tmTzSetter gmtoff) t0 (76 :: 37 :: (x ++ 125 :: r)) (encodes cfg.enc (ws ++ u)) =
      (125 :: r, .ok ({ t0 with tm := takeTm fs t t0.tm }, p)) := by
  rw [locale_scan cfg hl gmtoff .tmWithTz (stores_tmTz gmtoff) h hw hne hfirst hs hf hr, put_tmTz h]

/-- The same for `datetime_components`. -/
theorem C88_localized_components_partial (cfg : ChronoCfg) (hl : GoodLayouts cfg.enc cfg.lay) (gmtoff : Bool) (x f : List Nat) (fs : List ChronoField)
    (h : (x, f, fs) ∈ localeConversions) (ws u : List Nat) (hw : Spaces ws) (hne : u ≠ []) (hfirst : u.dropWhile isSpace = u) (hs : ∀ c ∈ u, IsScalar c)
    (t : Tm) (p : List Nat) (hf : cfg.facet (37 :: f) (encodes cfg.enc u) = some (t, p)) (hr : ∀ g ∈ fs, FieldInRange t g) (t0 : DateTime) (r : List Nat) :
    chronoCustom cfg gmtoff .components dtSetter t0 (76 :: 37 :: (x ++ 125 :: r)) (encodes cfg.enc (ws ++ u)) = (125 :: r, .ok (takeDt fs t t0, p)) := by
  rw [locale_scan cfg hl gmtoff .components stores_dt h hw hne hfirst hs hf hr, put_dt h]

/-- What the locale cannot read, and what it reads with a field out of its range, is an invalid value, in all three
    types. -/
theorem C88_localized_invalid (cfg : ChronoCfg) (hl : GoodLayouts cfg.enc cfg.lay) (gmtoff : Bool) (x f : List Nat) (fs : List ChronoField)
    (h : (x, f, fs) ∈ localeConversions) (ws u : List Nat) (hw : Spaces ws) (hne : u ≠ []) (hfirst : u.dropWhile isSpace = u) (hs : ∀ c ∈ u, IsScalar c)
    (hf : ∀ t p, cfg.facet (37 :: f) (encodes cfg.enc u) = some (t, p) → -2 ^ 31 ≤ t.year ∧ ∃ g ∈ fs, ¬ FieldInRange t g) (t0 : Tm) (t1 : TmWithTz) (t2 : DateTime)
    (r : List Nat) :
    chronoCustom cfg gmtoff .tm (tmSetter gmtoff) t0 (76 :: 37 :: (x ++ 125 :: r)) (encodes cfg.enc (ws ++ u)) = (125 :: r, .err .invalidScannedValue) ∧
      chronoCustom cfg gmtoff .tmWithTz (tmTzSetter gmtoff) t1 (76 :: 37 :: (x ++ 125 :: r)) (encodes cfg.enc (ws ++ u)) = (125 :: r, .err .invalidScannedValue) ∧
      chronoCustom cfg gmtoff .components dtSetter t2 (76 :: 37 :: (x ++ 125 :: r)) (encodes cfg.enc (ws ++ u)) = (125 :: r, .err .invalidScannedValue) :=
  ⟨locale_fails cfg hl gmtoff .tm (stores_tm gmtoff) h hw hne hfirst hs hf t0 r, locale_fails cfg hl gmtoff .tmWithTz (stores_tmTz gmtoff) h hw hne hfirst hs hf t1 r,
    locale_fails cfg hl gmtoff .components stores_dt h hw hne hfirst hs hf t2 r⟩

/-- For the examples: a locale with `mars` for March, whose dates are `d/m` of 2024 and whose times are `h:m`, all numbers of
    one digit; years in other digits are capital letters. -/
def exLocale : ChronoCfg :=
  { exChrono with
    facet := fun
      | [37, 98], 109 :: 97 :: 114 :: 115 :: s => some ({ mon := 2 }, s)
      | [37, 120], d :: 47 :: m :: s => some ({ mday := d - 48, mon := m - 49, year := 124 }, s)
      | [37, 88], h :: 58 :: m :: s => some ({ hour := h - 48, min := m - 48 }, s)
      | [37, 79, 121], c :: s => some ({ year := c - 65 }, s)
      | _, _ => none }

/-- `{:L%B}` on ` mars!`. -/
example : chronoCustom exLocale false .tm (tmSetter false) {} [76, 37, 66, 125] [32, 109, 97, 114, 115, 33] = ([125], .ok ({ mon := 2 }, [33])) :=
  C88_localized_tm_partial exLocale exChrono_good false [66] [98] [.mon] (by decide) [32] [109, 97, 114, 115, 33] (by unfold Spaces; decide) (by decide) (by decide)
    (by decide) { mon := 2 } [33] rfl (by intro g hg; simp at hg; subst hg; exact ⟨by decide, by decide⟩) {} []

example : chronoCustom exLocale false .tmWithTz (tmTzSetter false) {} [76, 37, 66, 125] [32, 109, 97, 114, 115, 33] = ([125], .ok ({ tm := { mon := 2 } }, [33])) :=
  C88_localized_tm_with_tz_partial exLocale exChrono_good false [66] [98] [.mon] (by decide) [32] [109, 97, 114, 115, 33] (by unfold Spaces; decide) (by decide) (by decide)
    (by decide) { mon := 2 } [33] rfl (by intro g hg; simp at hg; subst hg; exact ⟨by decide, by decide⟩) {} []

example : chronoCustom exLocale false .components dtSetter {} [76, 37, 66, 125] [32, 109, 97, 114, 115, 33] = ([125], .ok ({ mon := some 3 }, [33])) :=
  C88_localized_components_partial exLocale exChrono_good false [66] [98] [.mon] (by decide) [32] [109, 97, 114, 115, 33] (by unfold Spaces; decide) (by decide) (by decide)
    (by decide) { mon := 2 } [33] rfl (by intro g hg; simp at hg; subst hg; exact ⟨by decide, by decide⟩) {} []

/-- `{:L%B}` on `March`, and `{:L%x}` on `0/3`: there is no day 0. -/
example : chronoCustom exLocale false .tm (tmSetter false) {} [76, 37, 66, 125] [77, 97, 114, 99, 104] = ([125], .err .invalidScannedValue) :=
  (C88_localized_invalid exLocale exChrono_good false [66] [98] [.mon] (by decide) [] [77, 97, 114, 99, 104] (fun _ h => by cases h) (by decide) (by decide)
    (by decide) (by intro t p h; cases h) {} {} {} []).1

example : chronoCustom exLocale false .tm (tmSetter false) {} [76, 37, 120, 125] [48, 47, 51] = ([125], .err .invalidScannedValue) :=
  (C88_localized_invalid exLocale exChrono_good false [120] [120] [.fullYear, .mon, .mday] (by decide) [] [48, 47, 51] (fun _ h => by cases h) (by decide) (by decide)
    (by decide) (by intro t p h; cases h; exact ⟨by decide, .mday, by decide, by simp [FieldInRange]⟩) {} {} {} []).1

/-- The second of two conversions is not read where the first has ended, at `p1`, but at the begin of the source, where the
    first is: with `{:L%x%X}`, if what is there can also be read as a time, then that is the time, and the position is
    after it; and if it cannot, then the scan fails. What stands at `p1` does not matter. -/
theorem C88_violated_position (cfg : ChronoCfg) (hl : GoodLayouts cfg.enc cfg.lay) (gmtoff : Bool) (ws u : List Nat) (hw : Spaces ws) (hne : u ≠ [])
    (hfirst : u.dropWhile isSpace = u) (hs : ∀ c ∈ u, IsScalar c) (t1 : Tm) (p1 : List Nat) (h1 : cfg.facet [37, 120] (encodes cfg.enc u) = some (t1, p1))
    (hr1 : ∀ g ∈ [ChronoField.fullYear, .mon, .mday], FieldInRange t1 g) (t0 : Tm) (r : List Nat) :
    (∀ t2 p2, cfg.facet [37, 88] (encodes cfg.enc u) = some (t2, p2) → (∀ g ∈ [ChronoField.hour24, .min, .sec], FieldInRange t2 g) →
      chronoCustom cfg gmtoff .tm (tmSetter gmtoff) t0 (76 :: 37 :: 120 :: 37 :: 88 :: 125 :: r) (encodes cfg.enc (ws ++ u)) =
        (125 :: r, .ok (takeTm [.hour24, .min, .sec] t2 (takeTm [.fullYear, .mon, .mday] t1 t0), p2))) ∧
      (cfg.facet [37, 88] (encodes cfg.enc u) = none →
        chronoCustom cfg gmtoff .tm (tmSetter gmtoff) t0 (76 :: 37 :: 120 :: 37 :: 88 :: 125 :: r) (encodes cfg.enc (ws ++ u)) =
          (125 :: r, .err .invalidScannedValue)) := by
  constructor
  · intro t2 p2 h2 hr2
    rw [date_time_same cfg hl gmtoff .tm (stores_tm gmtoff) hw hne hfirst hs h1 hr1 h2 hr2,
      put_tm (x := [88]) (f := [88]) (by decide), put_tm (x := [120]) (f := [120]) (by decide)]
  · intro h2
    exact date_time_not cfg hl gmtoff .tm (stores_tm gmtoff) hw hne hfirst hs h1 hr1 h2 t0 r

/-- `5/37:8` with `{:L%x%X}`: the date `5/3` is read, and the time is `7:8`; but that is not what is looked at. -/
example : exLocale.facet [37, 120] [53, 47, 51, 55, 58, 56] = some ({ mday := 5, mon := 2, year := 124 }, [55, 58, 56]) ∧
    exLocale.facet [37, 88] [55, 58, 56] = some ({ hour := 7, min := 8 }, []) ∧
    chronoCustom exLocale false .tm (tmSetter false) {} [76, 37, 120, 37, 88, 125] [53, 47, 51, 55, 58, 56] = ([125], .err .invalidScannedValue) :=
  ⟨rfl, rfl, (C88_violated_position exLocale exChrono_good false [] [53, 47, 51, 55, 58, 56] (fun _ h => by cases h) (by decide) (by decide) (by decide)
    { mday := 5, mon := 2, year := 124 } [55, 58, 56] rfl
    (by intro g hg; simp at hg; rcases hg with rfl | rfl | rfl <;> simp [FieldInRange]) {} []).2 rfl⟩

/-- With `{:L%Oy}`, the year in the century in other digits, the locale is asked for `%Ey`, the year in the era: where it does
    not read that, the scan fails, although it may read `%Oy`. -/
theorem C88_violated_short_year (cfg : ChronoCfg) (hl : GoodLayouts cfg.enc cfg.lay) (gmtoff : Bool) (ws u : List Nat) (hw : Spaces ws) (hne : u ≠ [])
    (hfirst : u.dropWhile isSpace = u) (hs : ∀ c ∈ u, IsScalar c) (hf : cfg.facet [37, 69, 121] (encodes cfg.enc u) = none) (t0 : Tm) (t1 : TmWithTz) (t2 : DateTime)
    (r : List Nat) :
    chronoCustom cfg gmtoff .tm (tmSetter gmtoff) t0 (76 :: 37 :: 79 :: 121 :: 125 :: r) (encodes cfg.enc (ws ++ u)) = (125 :: r, .err .invalidScannedValue) ∧
      chronoCustom cfg gmtoff .tmWithTz (tmTzSetter gmtoff) t1 (76 :: 37 :: 79 :: 121 :: 125 :: r) (encodes cfg.enc (ws ++ u)) = (125 :: r, .err .invalidScannedValue) ∧
      chronoCustom cfg gmtoff .components dtSetter t2 (76 :: 37 :: 79 :: 121 :: 125 :: r) (encodes cfg.enc (ws ++ u)) = (125 :: r, .err .invalidScannedValue) :=
  ⟨short_year_not cfg hl gmtoff .tm _ hw hne hfirst hs hf t0 r, short_year_not cfg hl gmtoff .tmWithTz _ hw hne hfirst hs hf t1 r,
    short_year_not cfg hl gmtoff .components _ hw hne hfirst hs hf t2 r⟩

/-- `{:L%Oy}` on `B`, which is 1 in that locale. -/
example : exLocale.facet [37, 79, 121] [66] = some ({ year := 1 }, []) ∧
    chronoCustom exLocale false .tm (tmSetter false) {} [76, 37, 79, 121, 125] [66] = ([125], .err .invalidScannedValue) :=
  ⟨rfl, (C88_violated_short_year exLocale exChrono_good false [] [66] (fun _ h => by cases h) (by decide) (by decide) (by decide) rfl {} {} {} []).1⟩

end Scn
