import Verif.Lemmas.Chrono10
/-
C43–C48: dates and times are read as they are written. The general statements are about any format made of literal
text, whitespace and the conversions of `Spec.conversions` and `Spec.modified`, and about any text that shows a date and
time in that format (`ShownSeq`), with any whitespace in front and any text behind it; the source may be UTF-8, UTF-16
or UTF-32 in any layout of its buffer.
-/
namespace Scn
open Spec

/-- For the examples: UTF-8 in a string, and a locale whose facet reads nothing. -/
def exChrono : ChronoCfg := ⟨.utf8, fun _ => .contiguous, fun _ _ => none, 46, fun _ => .ok (), fun _ _ => .err .invalidScannedValue⟩

/-- For the examples: Tuesday, 5 March 2024, 19:08:09 +05:30. -/
def exCivil : Civil := ⟨2024, 3, 5, 2, 65, 19, 8, 9, false, 5, 30⟩

/-- For the examples: the format `%H:%OM`. -/
def exFormat : List FmtItem := [.conv [72] (.hour24 .standard), .lit [58], .conv [79, 77] (.minute .altO)]

theorem exFormat_ok : FormatOk exChrono.enc exFormat := by
  refine ⟨⟨_, _, _, rfl⟩, ?_, ?_⟩
  · intro i hi
    simp only [exFormat, List.mem_cons, List.not_mem_nil, or_false] at hi
    rcases hi with rfl | rfl | rfl
    · exact Or.inl ⟨_, rfl, by decide⟩
    · exact ⟨by decide, fun x hx => by simp at hx; subst hx; exact ⟨by decide, rfl, rfl, by decide, by decide⟩⟩
    · exact Or.inr ⟨_, _, rfl, by decide⟩
  · intro pre a b post h
    match pre with
    | [] => cases h; decide
    | [_] => cases h; decide
    | [_, _] => cases h
    | _ :: _ :: _ :: pre => simp [exFormat] at h

/-- `19:08`, and an exclamation mark behind it, in that format. -/
theorem exFormat_shown : ShownSeq exChrono.enc exCivil (callsOf exFormat) [49, 57, 58, 48, 56] [33] :=
  (ShownSeq.cons _ _ [49, 57] _ (fun _ => True) _ (.hour24 _ _ _ (digits_pad2 (n := 19) (by decide) (by decide) _)) trivial
      (.cons _ _ [58] _ (fun _ => True) _ (shown_sep (by decide) _) trivial
        (.cons _ _ [48, 56] _ (fun _ => True) _ (.minute _ _ _ (digits_pad2 (n := 8) (by decide) (by decide) _)) trivial (.nil [33]))))

theorem exCivil_valid : exCivil.Valid := by constructor <;> decide

theorem exChrono_good : GoodLayouts exChrono.enc exChrono.lay := goodLayouts_contiguous _


/-! ### C46: what is written is read back -/

/-- A date and time written with a format is read back with that format, into a `std::tm`: exactly the fields of the
    format are set, to the values that were written, and exactly the text is consumed. -/
theorem C46_roundtrip_tm (cfg : ChronoCfg) (hl : GoodLayouts cfg.enc cfg.lay) (gmtoff : Bool) (c : Civil) (hv : c.Valid) (is : List FmtItem)
    (hfmt : FormatOk cfg.enc is) (hnd : (fieldsOf (callsOf is)).Nodup) (hF : Compatible (fieldsOf (callsOf is)))
    (htz : .tzoff ∈ fieldsOf (callsOf is) → gmtoff = true)
    {ws t rest : List Nat} (h : ShownSeq cfg.enc c (callsOf is) t rest) (hw : Spaces ws) (hne : t ++ rest ≠ [])
    (hfirst : (t ++ rest).dropWhile isSpace = t ++ rest) (hs : ∀ c ∈ rest, IsScalar c) (t0 : Tm) (r : List Nat) :
    chronoCustom cfg gmtoff .tm (tmSetter gmtoff) t0 (formatText is ++ 125 :: r) (encodes cfg.enc (ws ++ (t ++ rest))) =
      (125 :: r, .ok (setTm (fieldsOf (callsOf is)) c t0, encodes cfg.enc rest)) :=
  chronoCustom_tm cfg hl gmtoff c hv is hfmt hnd hF htz h hw hne hfirst hs t0 r

example : chronoCustom exChrono false .tm (tmSetter false) {} (formatText exFormat ++ [125]) (encodes .utf8 ([32] ++ ([49, 57, 58, 48, 56] ++ [33]))) =
    ([125], .ok ({ hour := 19, min := 8 }, [33])) :=
  C46_roundtrip_tm exChrono exChrono_good false exCivil exCivil_valid exFormat exFormat_ok (by decide) (by constructor <;> decide) (fun h => absurd h (by decide))
    exFormat_shown (by intro c hc; simp at hc; subst hc; decide) (by decide) (by decide) (by intro c hc; simp at hc; subst hc; decide) {} []

/-- The same for `datetime_components`. Missing: formats with `%y`, `%C` and composites of them, and days of the year
    after the 7th, for which it is false (`C44_violated_components`, `C45_violated_components`). -/
theorem C46_roundtrip_components_partial (cfg : ChronoCfg) (hl : GoodLayouts cfg.enc cfg.lay) (gmtoff : Bool) (c : Civil) (hv : c.Valid)
    (is : List FmtItem) (hfmt : FormatOk cfg.enc is) (hnd : (fieldsOf (callsOf is)).Nodup) (hF : Compatible (fieldsOf (callsOf is)))
    (hdt : ∀ f ∈ fieldsOf (callsOf is), f ≠ .shortYear ∧ f ≠ .century ∧ (f = .yday → c.yday ≤ 7))
    {ws t rest : List Nat} (h : ShownSeq cfg.enc c (callsOf is) t rest) (hw : Spaces ws) (hne : t ++ rest ≠ [])
    (hfirst : (t ++ rest).dropWhile isSpace = t ++ rest) (hs : ∀ c ∈ rest, IsScalar c) (t0 : DateTime) (r : List Nat) :
    chronoCustom cfg gmtoff .components dtSetter t0 (formatText is ++ 125 :: r) (encodes cfg.enc (ws ++ (t ++ rest))) =
      (125 :: r, .ok (setDateTime (fieldsOf (callsOf is)) c t0, encodes cfg.enc rest)) :=
  chronoCustom_dt cfg hl gmtoff c hv is hfmt hnd hF hdt h hw hne hfirst hs t0 r

example : chronoCustom exChrono false .components dtSetter {} (formatText exFormat ++ [125]) (encodes .utf8 ([] ++ ([49, 57, 58, 48, 56] ++ [33]))) =
    ([125], .ok ({ hour := some 19, min := some 8 }, [33])) :=
  C46_roundtrip_components_partial exChrono exChrono_good false exCivil exCivil_valid exFormat exFormat_ok (by decide) (by constructor <;> decide)
    (fun f hf => ⟨fun h => absurd (h ▸ hf) (by decide), fun h => absurd (h ▸ hf) (by decide), fun h => absurd (h ▸ hf) (by decide)⟩)
    exFormat_shown (fun _ h => by cases h) (by decide) (by decide) (by intro c hc; simp at hc; subst hc; decide) {} []



/-- `%T` into a `std::tm`: any hour, minute and second, any text around them. -/
theorem C46_T (cfg : ChronoCfg) (hl : GoodLayouts cfg.enc cfg.lay) (gmtoff : Bool) (c : Civil) (hv : c.Valid)
    (ws rest : List Nat) (hw : Spaces ws) (hr : ∀ c ∈ rest, IsScalar c) (t0 : Tm) (r : List Nat) :
    chronoCustom cfg gmtoff .tm (tmSetter gmtoff) t0 (37 :: 84 :: 125 :: r)
        (encodes cfg.enc (ws ++ ((pad2 c.hour ++ [58] ++ pad2 c.minute ++ [58] ++ pad2 c.second) ++ rest))) =
      (125 :: r, .ok ({ t0 with hour := c.hour, min := c.minute, sec := c.second }, encodes cfg.enc rest)) := by
  have hf := pad2_first (c.hour) (by have := hv.hour; omega)
  exact chronoCustom_tm cfg hl gmtoff c hv [.conv [84] .isoTime] (formatOk_one (by decide)) (by decide) (by constructor <;> decide)
    (fun h => absurd h (by decide)) (shown_hms hv rest)
    hw (by simp only [List.append_assoc]; exact (hf _).2) (by simp only [List.append_assoc]; exact (hf _).1) hr t0 r

example : chronoCustom exChrono false .tm (tmSetter false) {} [37, 84, 125] [49, 57, 58, 48, 56, 58, 48, 57, 33] = ([125], .ok ({ hour := 19, min := 8, sec := 9 }, [33])) :=
  C46_T exChrono exChrono_good false exCivil exCivil_valid [] [33] (fun _ h => by cases h) (by intro c hc; simp at hc; subst hc; decide) {} []

/-- `%R` into a `std::tm`. -/
theorem C46_R (cfg : ChronoCfg) (hl : GoodLayouts cfg.enc cfg.lay) (gmtoff : Bool) (c : Civil) (hv : c.Valid)
    (ws rest : List Nat) (hw : Spaces ws) (hr : ∀ c ∈ rest, IsScalar c) (t0 : Tm) (r : List Nat) :
    chronoCustom cfg gmtoff .tm (tmSetter gmtoff) t0 (37 :: 82 :: 125 :: r)
        (encodes cfg.enc (ws ++ ((pad2 c.hour ++ [58] ++ pad2 c.minute) ++ rest))) =
      (125 :: r, .ok ({ t0 with hour := c.hour, min := c.minute }, encodes cfg.enc rest)) := by
  have hf := pad2_first (c.hour) (by have := hv.hour; omega)
  exact chronoCustom_tm cfg hl gmtoff c hv [.conv [82] .time24Hour] (formatOk_one (by decide)) (by decide) (by constructor <;> decide)
    (fun h => absurd h (by decide)) (shown_hm hv rest)
    hw (by simp only [List.append_assoc]; exact (hf _).2) (by simp only [List.append_assoc]; exact (hf _).1) hr t0 r

example : chronoCustom exChrono false .tm (tmSetter false) {} [37, 82, 125] [49, 57, 58, 48, 56, 33] = ([125], .ok ({ hour := 19, min := 8 }, [33])) :=
  C46_R exChrono exChrono_good false exCivil exCivil_valid [] [33] (fun _ h => by cases h) (by intro c hc; simp at hc; subst hc; decide) {} []

/-- `%F` into a `std::tm`: years count from 1900, months from 0. -/
theorem C46_F (cfg : ChronoCfg) (hl : GoodLayouts cfg.enc cfg.lay) (gmtoff : Bool) (c : Civil) (hv : c.Valid)
    (ws rest : List Nat) (hw : Spaces ws) (hr : ∀ c ∈ rest, IsScalar c) (t0 : Tm) (r : List Nat) :
    chronoCustom cfg gmtoff .tm (tmSetter gmtoff) t0 (37 :: 70 :: 125 :: r)
        (encodes cfg.enc (ws ++ ((pad4 c.year ++ [45] ++ pad2 c.month ++ [45] ++ pad2 c.mday) ++ rest))) =
      (125 :: r, .ok ({ t0 with year := (c.year : Int) - 1900, mon := (c.month : Int) - 1, mday := c.mday }, encodes cfg.enc rest)) := by
  have hf := pad2_first (c.year / 100) (by have := hv.year; omega)
  exact chronoCustom_tm cfg hl gmtoff c hv [.conv [70] .isoDate] (formatOk_one (by decide)) (by decide) (by constructor <;> decide)
    (fun h => absurd h (by decide)) (shown_ymd hv rest)
    hw (by simp only [pad4, List.append_assoc]; exact (hf _).2) (by simp only [pad4, List.append_assoc]; exact (hf _).1) hr t0 r

example : chronoCustom exChrono false .tm (tmSetter false) {} [37, 70, 125] [50, 48, 50, 52, 45, 48, 51, 45, 48, 53, 33] = ([125], .ok ({ year := 124, mon := 2, mday := 5 }, [33])) :=
  C46_F exChrono exChrono_good false exCivil exCivil_valid [] [33] (fun _ h => by cases h) (by intro c hc; simp at hc; subst hc; decide) {} []

/-- `%D` into a `std::tm`: the year is the one of 1969 to 2068 with these last two digits. -/
theorem C46_D (cfg : ChronoCfg) (hl : GoodLayouts cfg.enc cfg.lay) (gmtoff : Bool) (c : Civil) (hv : c.Valid)
    (ws rest : List Nat) (hw : Spaces ws) (hr : ∀ c ∈ rest, IsScalar c) (t0 : Tm) (r : List Nat) :
    chronoCustom cfg gmtoff .tm (tmSetter gmtoff) t0 (37 :: 68 :: 125 :: r)
        (encodes cfg.enc (ws ++ ((pad2 c.month ++ [47] ++ pad2 c.mday ++ [47] ++ pad2 (c.year % 100)) ++ rest))) =
      (125 :: r, .ok ({ t0 with mon := (c.month : Int) - 1, mday := c.mday, year := (((if c.year % 100 < 69 then 2000 else 1900) + c.year % 100 : Nat) : Int) - 1900 }, encodes cfg.enc rest)) := by
  have hf := pad2_first (c.month) (by have := hv.month; omega)
  exact chronoCustom_tm cfg hl gmtoff c hv [.conv [68] .usDate] (formatOk_one (by decide)) (by decide) (by constructor <;> decide)
    (fun h => absurd h (by decide)) (shown_mdy hv rest)
    hw (by simp only [List.append_assoc]; exact (hf _).2) (by simp only [List.append_assoc]; exact (hf _).1) hr t0 r

example : chronoCustom exChrono false .tm (tmSetter false) {} [37, 68, 125] [48, 51, 47, 48, 53, 47, 50, 52, 33] = ([125], .ok ({ year := 124, mon := 2, mday := 5 }, [33])) :=
  C46_D exChrono exChrono_good false exCivil exCivil_valid [] [33] (fun _ h => by cases h) (by intro c hc; simp at hc; subst hc; decide) {} []

/-- `%T` into `datetime_components`. -/
theorem C46_T_components (cfg : ChronoCfg) (hl : GoodLayouts cfg.enc cfg.lay) (gmtoff : Bool) (c : Civil) (hv : c.Valid)
    (ws rest : List Nat) (hw : Spaces ws) (hr : ∀ c ∈ rest, IsScalar c) (t0 : DateTime) (r : List Nat) :
    chronoCustom cfg gmtoff .components dtSetter t0 (37 :: 84 :: 125 :: r)
        (encodes cfg.enc (ws ++ ((pad2 c.hour ++ [58] ++ pad2 c.minute ++ [58] ++ pad2 c.second) ++ rest))) =
      (125 :: r, .ok ({ t0 with hour := some (c.hour : Int), min := some (c.minute : Int), sec := some (c.second : Int) }, encodes cfg.enc rest)) := by
  have hf := pad2_first (c.hour) (by have := hv.hour; omega)
  exact chronoCustom_dt cfg hl gmtoff c hv [.conv [84] .isoTime] (formatOk_one (by decide)) (by decide) (by constructor <;> decide)
    (fun f hf => ⟨fun h => absurd (h ▸ hf) (by decide), fun h => absurd (h ▸ hf) (by decide), fun h => absurd (h ▸ hf) (by decide)⟩) (shown_hms hv rest)
    hw (by simp only [List.append_assoc]; exact (hf _).2) (by simp only [List.append_assoc]; exact (hf _).1) hr t0 r

example : chronoCustom exChrono false .components dtSetter {} [37, 84, 125] [49, 57, 58, 48, 56, 58, 48, 57, 33] = ([125], .ok ({ hour := some 19, min := some 8, sec := some 9 }, [33])) :=
  C46_T_components exChrono exChrono_good false exCivil exCivil_valid [] [33] (fun _ h => by cases h) (by intro c hc; simp at hc; subst hc; decide) {} []

/-- `%R` into `datetime_components`. -/
theorem C46_R_components (cfg : ChronoCfg) (hl : GoodLayouts cfg.enc cfg.lay) (gmtoff : Bool) (c : Civil) (hv : c.Valid)
    (ws rest : List Nat) (hw : Spaces ws) (hr : ∀ c ∈ rest, IsScalar c) (t0 : DateTime) (r : List Nat) :
    chronoCustom cfg gmtoff .components dtSetter t0 (37 :: 82 :: 125 :: r)
        (encodes cfg.enc (ws ++ ((pad2 c.hour ++ [58] ++ pad2 c.minute) ++ rest))) =
      (125 :: r, .ok ({ t0 with hour := some (c.hour : Int), min := some (c.minute : Int) }, encodes cfg.enc rest)) := by
  have hf := pad2_first (c.hour) (by have := hv.hour; omega)
  exact chronoCustom_dt cfg hl gmtoff c hv [.conv [82] .time24Hour] (formatOk_one (by decide)) (by decide) (by constructor <;> decide)
    (fun f hf => ⟨fun h => absurd (h ▸ hf) (by decide), fun h => absurd (h ▸ hf) (by decide), fun h => absurd (h ▸ hf) (by decide)⟩) (shown_hm hv rest)
    hw (by simp only [List.append_assoc]; exact (hf _).2) (by simp only [List.append_assoc]; exact (hf _).1) hr t0 r

example : chronoCustom exChrono false .components dtSetter {} [37, 82, 125] [49, 57, 58, 48, 56, 33] = ([125], .ok ({ hour := some 19, min := some 8 }, [33])) :=
  C46_R_components exChrono exChrono_good false exCivil exCivil_valid [] [33] (fun _ h => by cases h) (by intro c hc; simp at hc; subst hc; decide) {} []

/-- `%F` into `datetime_components`. -/
theorem C46_F_components (cfg : ChronoCfg) (hl : GoodLayouts cfg.enc cfg.lay) (gmtoff : Bool) (c : Civil) (hv : c.Valid)
    (ws rest : List Nat) (hw : Spaces ws) (hr : ∀ c ∈ rest, IsScalar c) (t0 : DateTime) (r : List Nat) :
    chronoCustom cfg gmtoff .components dtSetter t0 (37 :: 70 :: 125 :: r)
        (encodes cfg.enc (ws ++ ((pad4 c.year ++ [45] ++ pad2 c.month ++ [45] ++ pad2 c.mday) ++ rest))) =
      (125 :: r, .ok ({ t0 with year := some (c.year : Int), mon := some (c.month : Int), mday := some (c.mday : Int) }, encodes cfg.enc rest)) := by
  have hf := pad2_first (c.year / 100) (by have := hv.year; omega)
  exact chronoCustom_dt cfg hl gmtoff c hv [.conv [70] .isoDate] (formatOk_one (by decide)) (by decide) (by constructor <;> decide)
    (fun f hf => ⟨fun h => absurd (h ▸ hf) (by decide), fun h => absurd (h ▸ hf) (by decide), fun h => absurd (h ▸ hf) (by decide)⟩) (shown_ymd hv rest)
    hw (by simp only [pad4, List.append_assoc]; exact (hf _).2) (by simp only [pad4, List.append_assoc]; exact (hf _).1) hr t0 r

example : chronoCustom exChrono false .components dtSetter {} [37, 70, 125] [50, 48, 50, 52, 45, 48, 51, 45, 48, 53, 33] = ([125], .ok ({ year := some 2024, mon := some 3, mday := some 5 }, [33])) :=
  C46_F_components exChrono exChrono_good false exCivil exCivil_valid [] [33] (fun _ h => by cases h) (by intro c hc; simp at hc; subst hc; decide) {} []

/-! ### C43: the 12-hour clock -/

/-- With am/pm, in a format of any kind, the hour of the `std::tm` is the hour of the day that was written. -/
theorem C43_tm (cfg : ChronoCfg) (hl : GoodLayouts cfg.enc cfg.lay) (gmtoff : Bool) (c : Civil) (hv : c.Valid) (is : List FmtItem)
    (hfmt : FormatOk cfg.enc is) (hnd : (fieldsOf (callsOf is)).Nodup) (hF : Compatible (fieldsOf (callsOf is)))
    (htz : .tzoff ∈ fieldsOf (callsOf is) → gmtoff = true) (hap : .amPm ∈ fieldsOf (callsOf is))
    {ws t rest : List Nat} (h : ShownSeq cfg.enc c (callsOf is) t rest) (hw : Spaces ws) (hne : t ++ rest ≠ [])
    (hfirst : (t ++ rest).dropWhile isSpace = t ++ rest) (hs : ∀ c ∈ rest, IsScalar c) (t0 : Tm) (r : List Nat) :
    ∃ t1 : Tm, chronoCustom cfg gmtoff .tm (tmSetter gmtoff) t0 (formatText is ++ 125 :: r) (encodes cfg.enc (ws ++ (t ++ rest))) =
      (125 :: r, .ok (t1, encodes cfg.enc rest)) ∧ t1.hour = c.hour :=
  ⟨_, chronoCustom_tm cfg hl gmtoff c hv is hfmt hnd hF htz h hw hne hfirst hs t0 r, by simp [setTm, hourOf, hap, hF.amPm hap]⟩

example : ∃ t1 : Tm, chronoCustom exChrono false .tm (tmSetter false) {} ([37, 73, 37, 112] ++ [125]) (encodes .utf8 ([] ++ ([48, 55, 80, 109] ++ [33]))) =
    ([125], .ok (t1, [33])) ∧ t1.hour = 19 :=
  C43_tm exChrono exChrono_good false exCivil exCivil_valid [.conv [73] (.hour12 .standard), .conv [112] .amPm] (formatOk_two (by decide) (by decide)) (by decide)
    (by constructor <;> decide) (fun h => absurd h (by decide)) (by decide)
    (.cons _ _ [48, 55] _ (fun _ => True) _ (.hour12 _ _ _ (digits_pad2 (n := 7) (by decide) (by decide) _)) trivial
      (.cons _ _ [80, 109] _ (fun _ => True) _ (.pm _ _ (Or.inl (by decide)) (by decide)) trivial (.nil [33])))
    (fun _ h => by cases h) (by decide) (by decide) (by intro c hc; simp at hc; subst hc; decide) {} []

/-- `%I%p`: every hour from 1 to 12 with every spelling of am and pm, into a `std::tm`. -/
theorem C43_I_p (cfg : ChronoCfg) (hl : GoodLayouts cfg.enc cfg.lay) (gmtoff : Bool) (h : Nat) (h1 : 1 ≤ h) (h12 : h ≤ 12) (pm : Bool) (m : List Nat)
    (hm : ∃ name ∈ (if pm then [[112,109], [112,46,109,46]] else [[97,109], [97,46,109,46]]), EqUpToCase name m)
    (ws rest : List Nat) (hw : Spaces ws) (hr : ∀ c ∈ rest, IsScalar c) (t0 : Tm) (r : List Nat) :
    chronoCustom cfg gmtoff .tm (tmSetter gmtoff) t0 (37 :: 73 :: 37 :: 112 :: 125 :: r) (encodes cfg.enc (ws ++ ((pad2 h ++ m) ++ rest))) =
      (125 :: r, .ok ({ t0 with hour := clock24 h pm }, encodes cfg.enc rest)) := by
  obtain ⟨hap, hh, h23⟩ := shown_amPm cfg.enc h1 h12 hm (c := atHour (clock24 h pm)) rfl (fun _ => True)
  have hf := pad2_first h (by omega)
  exact chronoCustom_tm cfg hl gmtoff (atHour (clock24 h pm)) (atHour_valid h23) [.conv [73] (.hour12 .standard), .conv [112] .amPm]
    (formatOk_two (by decide) (by decide)) (by decide) (by constructor <;> decide) (fun h => absurd h (by decide))
    (shown_Ip hh h12 hap rest).1 hw (by simp only [List.append_assoc]; exact (hf _).2) (by simp only [List.append_assoc]; exact (hf _).1) hr t0 r

example : chronoCustom exChrono false .tm (tmSetter false) {} [37, 73, 37, 112, 125] [49, 50, 65, 46, 77, 46, 33] = ([125], .ok ({ hour := 0 }, [33])) :=
  C43_I_p exChrono exChrono_good false 12 (by decide) (by decide) false [65, 46, 77, 46] ⟨[97, 46, 109, 46], by decide, by decide⟩ [] [33] (fun _ h => by cases h)
    (by intro c hc; simp at hc; subst hc; decide) {} []

/-- `%p%I`: the other order. -/
theorem C43_p_I (cfg : ChronoCfg) (hl : GoodLayouts cfg.enc cfg.lay) (gmtoff : Bool) (h : Nat) (h1 : 1 ≤ h) (h12 : h ≤ 12) (pm : Bool) (m : List Nat)
    (hm : ∃ name ∈ (if pm then [[112,109], [112,46,109,46]] else [[97,109], [97,46,109,46]]), EqUpToCase name m)
    (ws rest : List Nat) (hw : Spaces ws) (hr : ∀ c ∈ rest, IsScalar c) (t0 : Tm) (r : List Nat) :
    chronoCustom cfg gmtoff .tm (tmSetter gmtoff) t0 (37 :: 112 :: 37 :: 73 :: 125 :: r) (encodes cfg.enc (ws ++ ((m ++ pad2 h) ++ rest))) =
      (125 :: r, .ok ({ t0 with hour := clock24 h pm }, encodes cfg.enc rest)) := by
  obtain ⟨hap, hh, h23⟩ := shown_amPm cfg.enc h1 h12 hm (c := atHour (clock24 h pm)) rfl (fun _ => True)
  have hf := amPm_first hm
  exact chronoCustom_tm cfg hl gmtoff (atHour (clock24 h pm)) (atHour_valid h23) [.conv [112] .amPm, .conv [73] (.hour12 .standard)]
    (formatOk_two (by decide) (by decide)) (by decide) (by constructor <;> decide) (fun h => absurd h (by decide))
    (shown_Ip hh h12 hap rest).2 hw (by simp only [List.append_assoc]; exact (hf _).2) (by simp only [List.append_assoc]; exact (hf _).1) hr t0 r

example : chronoCustom exChrono false .tm (tmSetter false) {} [37, 112, 37, 73, 125] [65, 46, 77, 46, 49, 50, 33] = ([125], .ok ({ hour := 0 }, [33])) :=
  C43_p_I exChrono exChrono_good false 12 (by decide) (by decide) false [65, 46, 77, 46] ⟨[97, 46, 109, 46], by decide, by decide⟩ [] [33] (fun _ h => by cases h)
    (by intro c hc; simp at hc; subst hc; decide) {} []

/-- `%I%p` into `datetime_components`. -/
theorem C43_I_p_components (cfg : ChronoCfg) (hl : GoodLayouts cfg.enc cfg.lay) (gmtoff : Bool) (h : Nat) (h1 : 1 ≤ h) (h12 : h ≤ 12) (pm : Bool) (m : List Nat)
    (hm : ∃ name ∈ (if pm then [[112,109], [112,46,109,46]] else [[97,109], [97,46,109,46]]), EqUpToCase name m)
    (ws rest : List Nat) (hw : Spaces ws) (hr : ∀ c ∈ rest, IsScalar c) (t0 : DateTime) (r : List Nat) :
    chronoCustom cfg gmtoff .components dtSetter t0 (37 :: 73 :: 37 :: 112 :: 125 :: r) (encodes cfg.enc (ws ++ ((pad2 h ++ m) ++ rest))) =
      (125 :: r, .ok ({ t0 with hour := some (clock24 h pm : Int) }, encodes cfg.enc rest)) := by
  obtain ⟨hap, hh, h23⟩ := shown_amPm cfg.enc h1 h12 hm (c := atHour (clock24 h pm)) rfl (fun _ => True)
  have hf := pad2_first h (by omega)
  exact chronoCustom_dt cfg hl gmtoff (atHour (clock24 h pm)) (atHour_valid h23) [.conv [73] (.hour12 .standard), .conv [112] .amPm]
    (formatOk_two (by decide) (by decide)) (by decide) (by constructor <;> decide) (fun f hf => ⟨fun h => absurd (h ▸ hf) (by decide), fun h => absurd (h ▸ hf) (by decide), fun h => absurd (h ▸ hf) (by decide)⟩)
    (shown_Ip hh h12 hap rest).1 hw (by simp only [List.append_assoc]; exact (hf _).2) (by simp only [List.append_assoc]; exact (hf _).1) hr t0 r

example : chronoCustom exChrono false .components dtSetter {} [37, 73, 37, 112, 125] [49, 50, 65, 46, 77, 46, 33] = ([125], .ok ({ hour := some 0 }, [33])) :=
  C43_I_p_components exChrono exChrono_good false 12 (by decide) (by decide) false [65, 46, 77, 46] ⟨[97, 46, 109, 46], by decide, by decide⟩ [] [33] (fun _ h => by cases h)
    (by intro c hc; simp at hc; subst hc; decide) {} []

/-- `%p%I` into `datetime_components`. -/
theorem C43_p_I_components (cfg : ChronoCfg) (hl : GoodLayouts cfg.enc cfg.lay) (gmtoff : Bool) (h : Nat) (h1 : 1 ≤ h) (h12 : h ≤ 12) (pm : Bool) (m : List Nat)
    (hm : ∃ name ∈ (if pm then [[112,109], [112,46,109,46]] else [[97,109], [97,46,109,46]]), EqUpToCase name m)
    (ws rest : List Nat) (hw : Spaces ws) (hr : ∀ c ∈ rest, IsScalar c) (t0 : DateTime) (r : List Nat) :
    chronoCustom cfg gmtoff .components dtSetter t0 (37 :: 112 :: 37 :: 73 :: 125 :: r) (encodes cfg.enc (ws ++ ((m ++ pad2 h) ++ rest))) =
      (125 :: r, .ok ({ t0 with hour := some (clock24 h pm : Int) }, encodes cfg.enc rest)) := by
  obtain ⟨hap, hh, h23⟩ := shown_amPm cfg.enc h1 h12 hm (c := atHour (clock24 h pm)) rfl (fun _ => True)
  have hf := amPm_first hm
  exact chronoCustom_dt cfg hl gmtoff (atHour (clock24 h pm)) (atHour_valid h23) [.conv [112] .amPm, .conv [73] (.hour12 .standard)]
    (formatOk_two (by decide) (by decide)) (by decide) (by constructor <;> decide) (fun f hf => ⟨fun h => absurd (h ▸ hf) (by decide), fun h => absurd (h ▸ hf) (by decide), fun h => absurd (h ▸ hf) (by decide)⟩)
    (shown_Ip hh h12 hap rest).2 hw (by simp only [List.append_assoc]; exact (hf _).2) (by simp only [List.append_assoc]; exact (hf _).1) hr t0 r

example : chronoCustom exChrono false .components dtSetter {} [37, 112, 37, 73, 125] [65, 46, 77, 46, 49, 50, 33] = ([125], .ok ({ hour := some 0 }, [33])) :=
  C43_p_I_components exChrono exChrono_good false 12 (by decide) (by decide) false [65, 46, 77, 46] ⟨[97, 46, 109, 46], by decide, by decide⟩ [] [33] (fun _ h => by cases h)
    (by intro c hc; simp at hc; subst hc; decide) {} []

/-! ### C44: short years and centuries -/

/-- `%y` into a `std::tm`: 69 to 99 are in the 20th century, 0 to 68 in the 21st (`tm_year` counts from 1900). -/
theorem C44_y (cfg : ChronoCfg) (hl : GoodLayouts cfg.enc cfg.lay) (gmtoff : Bool) (n : Nat) (hn : n ≤ 99)
    (ws rest : List Nat) (hw : Spaces ws) (hr : ∀ c ∈ rest, IsScalar c) (t0 : Tm) (r : List Nat) :
    chronoCustom cfg gmtoff .tm (tmSetter gmtoff) t0 (37 :: 121 :: 125 :: r) (encodes cfg.enc (ws ++ (pad2 n ++ rest))) =
      (125 :: r, .ok ({ t0 with year := ((if n < 69 then 2000 + n else 1900 + n : Nat) : Int) - 1900 }, encodes cfg.enc rest)) := by
  have hf := pad2_first n (by omega)
  have hsh : ShownSeq cfg.enc ⟨n, 1, 1, 0, 1, 0, 0, 0, false, 0, 0⟩ [.shortYear .standard] (pad2 n) rest := by
    have := seq_cons (rest := rest) (e := cfg.enc) (c := ⟨n, 1, 1, 0, 1, 0, 0, 0, false, 0, 0⟩) (t := pad2 n)
      (.shortYear .standard _ _ (by dsimp only; rw [Nat.mod_eq_of_lt (by omega)]; exact digits_pad2 (by decide) hn _)) (.nil _)
    rwa [List.append_nil] at this
  have := chronoCustom_tm cfg hl gmtoff ⟨n, 1, 1, 0, 1, 0, 0, 0, false, 0, 0⟩ (inYear_valid (by omega)) [.conv [121] (.shortYear .standard)]
    (formatOk_one (by decide)) (by decide) (by constructor <;> decide) (fun h => absurd h (by decide)) hsh hw (hf _).2 (hf _).1 hr t0 r
  refine Eq.trans this ?_
  have hy : setTm (fieldsOf (callsOf [.conv [121] (.shortYear .standard)])) ⟨n, 1, 1, 0, 1, 0, 0, 0, false, 0, 0⟩ t0 =
      { t0 with year := (((if n % 100 < 69 then 2000 else 1900) + n % 100 : Nat) : Int) - 1900 } := rfl
  rw [hy, Nat.mod_eq_of_lt (show n < 100 by omega)]
  split <;> rfl

example : chronoCustom exChrono false .tm (tmSetter false) {} [37, 121, 125] [54, 56, 33] = ([125], .ok ({ year := 168 }, [33])) :=
  C44_y exChrono exChrono_good false 68 (by decide) [] [33] (fun _ h => by cases h) (by intro c hc; simp at hc; subst hc; decide) {} []

/-- `%C%y` and `%y%C` into a `std::tm`: a hundred times the century plus the short year. -/
theorem C44_Cy (cfg : ChronoCfg) (hl : GoodLayouts cfg.enc cfg.lay) (gmtoff : Bool) (c n : Nat) (hc : c ≤ 99) (hn : n ≤ 99)
    (ws rest : List Nat) (hw : Spaces ws) (hr : ∀ c ∈ rest, IsScalar c) (t0 : Tm) (r : List Nat) :
    chronoCustom cfg gmtoff .tm (tmSetter gmtoff) t0 (37 :: 67 :: 37 :: 121 :: 125 :: r) (encodes cfg.enc (ws ++ ((pad2 c ++ pad2 n) ++ rest))) =
        (125 :: r, .ok ({ t0 with year := ((c * 100 + n : Nat) : Int) - 1900 }, encodes cfg.enc rest)) ∧
      chronoCustom cfg gmtoff .tm (tmSetter gmtoff) t0 (37 :: 121 :: 37 :: 67 :: 125 :: r) (encodes cfg.enc (ws ++ ((pad2 n ++ pad2 c) ++ rest))) =
        (125 :: r, .ok ({ t0 with year := ((c * 100 + n : Nat) : Int) - 1900 }, encodes cfg.enc rest)) := by
  have hfc := pad2_first c (by omega)
  have hfn := pad2_first n (by omega)
  have hv : (⟨c * 100 + n, 1, 1, 0, 1, 0, 0, 0, false, 0, 0⟩ : Civil).Valid := inYear_valid (by omega)
  have h1 : Shown cfg.enc ⟨c * 100 + n, 1, 1, 0, 1, 0, 0, 0, false, 0, 0⟩ (.century .standard) (pad2 c) fun _ => True := by
    refine .century .standard _ _ ?_
    dsimp only
    rw [show (c * 100 + n) / 100 = c by omega]
    exact digits_pad2 (by decide) hc _
  have h2 : Shown cfg.enc ⟨c * 100 + n, 1, 1, 0, 1, 0, 0, 0, false, 0, 0⟩ (.shortYear .standard) (pad2 n) fun _ => True := by
    refine .shortYear .standard _ _ ?_
    dsimp only
    rw [show (c * 100 + n) % 100 = n by omega]
    exact digits_pad2 (by decide) hn _
  constructor
  · exact chronoCustom_tm cfg hl gmtoff _ hv [.conv [67] (.century .standard), .conv [121] (.shortYear .standard)]
      (formatOk_two (by decide) (by decide)) (by decide) (by constructor <;> decide) (fun h => absurd h (by decide))
      (by have := seq_cons (rest := rest) h1 (seq_cons h2 (.nil _)); rwa [List.append_nil] at this) hw
      (by simp only [List.append_assoc]; exact (hfc _).2) (by simp only [List.append_assoc]; exact (hfc _).1) hr t0 r
  · exact chronoCustom_tm cfg hl gmtoff _ hv [.conv [121] (.shortYear .standard), .conv [67] (.century .standard)]
      (formatOk_two (by decide) (by decide)) (by decide) (by constructor <;> decide) (fun h => absurd h (by decide))
      (by have := seq_cons (rest := rest) h2 (seq_cons h1 (.nil _)); rwa [List.append_nil] at this) hw
      (by simp only [List.append_assoc]; exact (hfn _).2) (by simp only [List.append_assoc]; exact (hfn _).1) hr t0 r

example : chronoCustom exChrono false .tm (tmSetter false) {} [37, 67, 37, 121, 125] [49, 55, 54, 56, 33] = ([125], .ok ({ year := -132 }, [33])) :=
  (C44_Cy exChrono exChrono_good false 17 68 (by decide) (by decide) [] [33] (fun _ h => by cases h) (by intro c hc; simp at hc; subst hc; decide) {} []).1

/-- Into `datetime_components` short years and centuries are lost: `%y` gives the year 2000 and `%C%y` the year 0, whatever
    the numbers are. -/
theorem C44_violated_components (cfg : ChronoCfg) (hl : GoodLayouts cfg.enc cfg.lay) (gmtoff : Bool) (c n : Nat) (hc : c ≤ 99) (hn : n ≤ 99)
    (ws rest : List Nat) (hw : Spaces ws) (hr : ∀ c ∈ rest, IsScalar c) (t0 : DateTime) (r : List Nat) :
    chronoCustom cfg gmtoff .components dtSetter t0 (37 :: 121 :: 125 :: r) (encodes cfg.enc (ws ++ (pad2 n ++ rest))) =
        (125 :: r, .ok ({ t0 with year := some 2000 }, encodes cfg.enc rest)) ∧
      chronoCustom cfg gmtoff .components dtSetter t0 (37 :: 67 :: 37 :: 121 :: 125 :: r) (encodes cfg.enc (ws ++ (pad2 c ++ (pad2 n ++ rest)))) =
        (125 :: r, .ok ({ t0 with year := some 0 }, encodes cfg.enc rest)) := by
  have p1 := chronoParse_ok cfg.enc gmtoff .components [.conv [121] (.shortYear .standard)] (formatOk_one (by decide)) (by decide) (by constructor <;> decide)
    (fun h => absurd h (by decide)) (by decide) r
  have p2 := chronoParse_ok cfg.enc gmtoff .components [.conv [67] (.century .standard), .conv [121] (.shortYear .standard)]
    (formatOk_two (by decide) (by decide)) (by decide) (by constructor <;> decide) (fun h => absurd h (by decide)) (by decide) r
  constructor
  · unfold chronoCustom
    rw [show (37 :: 121 :: 125 :: r) = formatText [.conv [121] (.shortYear .standard)] ++ 125 :: r from rfl, p1]
    exact congrArg _ (scan_shortYear_dt cfg hl t0 hw hn hr)
  · unfold chronoCustom
    rw [show (37 :: 67 :: 37 :: 121 :: 125 :: r) = formatText [.conv [67] (.century .standard), .conv [121] (.shortYear .standard)] ++ 125 :: r from rfl, p2]
    exact congrArg _ (scan_century_dt cfg hl t0 hw hc hn hr)

example : chronoCustom exChrono false .components dtSetter {} [37, 121, 125] [54, 56, 33] = ([125], .ok ({ year := some 2000 }, [33])) :=
  (C44_violated_components exChrono exChrono_good false 17 68 (by decide) (by decide) [] [33] (fun _ h => by cases h) (by intro c hc; simp at hc; subst hc; decide) {} []).1

/-! ### C45: the day of the year -/

/-- `%j` into a `std::tm`: a numeral of one to three digits is accepted exactly when it is from 1 to 366. -/
theorem C45_tm (cfg : ChronoCfg) (hl : GoodLayouts cfg.enc cfg.lay) (gmtoff : Bool) (v : Nat) (ws t rest : List Nat) (hw : Spaces ws)
    (ht : Digits 1 3 v t fun u => u = rest) (hr : ∀ c ∈ rest, IsScalar c) (t0 : Tm) (r : List Nat) :
    chronoCustom cfg gmtoff .tm (tmSetter gmtoff) t0 (37 :: 106 :: 125 :: r) (encodes cfg.enc (ws ++ (t ++ rest))) =
      (125 :: r, if 1 ≤ v ∧ v ≤ 366 then .ok ({ t0 with yday := (v : Int) - 1 }, encodes cfg.enc rest) else .err .invalidScannedValue) := by
  have p1 := chronoParse_ok cfg.enc gmtoff .tm [.conv [106] .dayOfYear] (formatOk_one (by decide)) (by decide) (by constructor <;> decide)
    (fun h => absurd h (by decide)) (by decide) r
  unfold chronoCustom
  rw [show (37 :: 106 :: 125 :: r) = formatText [.conv [106] .dayOfYear] ++ 125 :: r from rfl, p1]
  refine congrArg (Prod.mk (125 :: r)) ?_
  refine Eq.trans (scan_dayOfYear cfg hl (tmSetter gmtoff) t0 hw ht hr) ?_
  dsimp only [tmSetter, tmSetterOn, Rd.setField]
  by_cases hc : 1 ≤ v ∧ v ≤ 366
  · have h : ¬ ((v : Int) - 1 < 0 ∨ (v : Int) - 1 > 365) := by omega
    rw [if_pos hc]
    simp only [if_neg h]
    rfl
  · have h : (v : Int) - 1 < 0 ∨ (v : Int) - 1 > 365 := by omega
    rw [if_neg hc]
    simp only [if_pos h]
    rfl

example : chronoCustom exChrono false .tm (tmSetter false) {} [37, 106, 125] [51, 54, 54, 33] = ([125], .ok ({ yday := 365 }, [33])) :=
  C45_tm exChrono exChrono_good false 366 [] [51, 54, 54] [33] (fun _ h => by cases h) ⟨by intro c hc; simp at hc; rcases hc with rfl | rfl | rfl <;> exact ⟨_, rfl, by decide⟩, rfl, by decide, by decide, fun _ _ => Or.inl rfl⟩ (by intro c hc; simp at hc; subst hc; decide) {} []

/-- Into `datetime_components`, the days of the year from the 8th on are rejected. -/
theorem C45_violated_components (cfg : ChronoCfg) (hl : GoodLayouts cfg.enc cfg.lay) (gmtoff : Bool) (v : Nat) (ws t rest : List Nat) (hw : Spaces ws)
    (ht : Digits 1 3 v t fun u => u = rest) (hr : ∀ c ∈ rest, IsScalar c) (t0 : DateTime) (r : List Nat) :
    chronoCustom cfg gmtoff .components dtSetter t0 (37 :: 106 :: 125 :: r) (encodes cfg.enc (ws ++ (t ++ rest))) =
      (125 :: r, if 1 ≤ v ∧ v ≤ 7 then .ok ({ t0 with yday := some ((v : Int) - 1) }, encodes cfg.enc rest) else .err .invalidScannedValue) := by
  have p1 := chronoParse_ok cfg.enc gmtoff .components [.conv [106] .dayOfYear] (formatOk_one (by decide)) (by decide) (by constructor <;> decide)
    (fun h => absurd h (by decide)) (by decide) r
  unfold chronoCustom
  rw [show (37 :: 106 :: 125 :: r) = formatText [.conv [106] .dayOfYear] ++ 125 :: r from rfl, p1]
  refine congrArg (Prod.mk (125 :: r)) ?_
  refine Eq.trans (scan_dayOfYear cfg hl dtSetter t0 hw ht hr) ?_
  dsimp only [dtSetter, Rd.setField]
  by_cases hc : 1 ≤ v ∧ v ≤ 7
  · have h : ¬ ((v : Int) - 1 < 0 ∨ (v : Int) - 1 > 6) := by omega
    rw [if_pos hc]
    simp only [if_neg h]
    rfl
  · have h : (v : Int) - 1 < 0 ∨ (v : Int) - 1 > 6 := by omega
    rw [if_neg hc]
    simp only [if_pos h]
    rfl

example : chronoCustom exChrono false .components dtSetter {} [37, 106, 125] [51, 54, 54, 33] = ([125], .err .invalidScannedValue) :=
  C45_violated_components exChrono exChrono_good false 366 [] [51, 54, 54] [33] (fun _ h => by cases h) ⟨by intro c hc; simp at hc; rcases hc with rfl | rfl | rfl <;> exact ⟨_, rfl, by decide⟩, rfl, by decide, by decide, fun _ _ => Or.inl rfl⟩ (by intro c hc; simp at hc; subst hc; decide) {} []

/-! ### C47: conflicting specifications -/

/-- Whatever the text, a scan into a `std::tm` succeeds only if no field is set twice and the fields of its format go
    together. Missing: a format with all three of the day of the week, of the month and of the year, which is accepted
    (`C47_violated_three_days`). -/
theorem C47_rejected_tm_partial (cfg : ChronoCfg) (gmtoff : Bool) (is : List FmtItem) (hfmt : FormatOk cfg.enc is)
    (hdays : ¬ (.wday ∈ fieldsOf (callsOf is) ∧ .mday ∈ fieldsOf (callsOf is) ∧ .yday ∈ fieldsOf (callsOf is)))
    (t0 : Tm) (r src p' : List Nat) (v : Tm × List Nat)
    (h : chronoCustom cfg gmtoff .tm (tmSetter gmtoff) t0 (formatText is ++ 125 :: r) src = (p', .ok v)) :
    ((fieldsOf (callsOf is)).filter notTzoff).Nodup ∧ Compatible (fieldsOf (callsOf is)) := by
  obtain ⟨fmt, hp, hscan⟩ := custom_parts h
  obtain ⟨rfl, _⟩ := chronoParse_text hfmt hp
  obtain ⟨rd, hfin, _⟩ := finished_of_ok (t := v.1) (rest := v.2) hscan
  obtain ⟨h1, h2, h3⟩ := finished_marked cfg _ (marks_tm gmtoff) (tm_sticky cfg gmtoff) is hfmt t0 src hfin
  have h1' := (finished_marked cfg _ (marks_tm_noName gmtoff) (tm_sticky cfg gmtoff) is hfmt t0 src hfin).1
  have hmem : ∀ f, f ∈ rd.st.set ↔ f ∈ fieldsOf (callsOf is) ∧ f ≠ .tzoff := by
    intro f; rw [h1]; simp [notTzoff]
  have hname : .tzname ∉ fieldsOf (callsOf is) := by
    intro hn
    have hh := (hmem .tzname).2 ⟨hn, by decide⟩
    rw [h1'] at hh
    simp at hh
  have hc := verify_rejects h3 (by simpa [hmem] using hdays)
  refine ⟨?_, ?_⟩
  · rw [h1] at h2
    exact (List.pairwise_reverse.1 h2).imp Ne.symm
  · obtain ⟨a1, a2, a3, a4, a5⟩ := hc
    exact ⟨by simpa [hmem] using a1, by simpa [hmem] using a2, by simpa [hmem] using a3, fun hh => hname hh.2, by simpa [hmem] using a5⟩

example : ∃ v, chronoCustom exChrono false .tm (tmSetter false) {} (formatText exFormat ++ [125]) [49, 57, 58, 48, 56, 33] = ([125], .ok v) :=
  ⟨({ hour := 19, min := 8 }, [33]), rfl⟩

/-- The same for `datetime_components`. -/
theorem C47_rejected_components_partial (cfg : ChronoCfg) (gmtoff : Bool) (is : List FmtItem) (hfmt : FormatOk cfg.enc is)
    (hdays : ¬ (.wday ∈ fieldsOf (callsOf is) ∧ .mday ∈ fieldsOf (callsOf is) ∧ .yday ∈ fieldsOf (callsOf is)))
    (t0 : DateTime) (r src p' : List Nat) (v : DateTime × List Nat)
    (h : chronoCustom cfg gmtoff .components dtSetter t0 (formatText is ++ 125 :: r) src = (p', .ok v)) :
    (fieldsOf (callsOf is)).Nodup ∧ Compatible (fieldsOf (callsOf is)) := by
  obtain ⟨fmt, hp, hscan⟩ := custom_parts h
  obtain ⟨rfl, _⟩ := chronoParse_text hfmt hp
  obtain ⟨rd, hfin, _⟩ := finished_of_ok (t := v.1) (rest := v.2) hscan
  obtain ⟨h1, h2, h3⟩ := finished_marked cfg _ marks_dt (dt_sticky cfg) is hfmt t0 src hfin
  rw [List.filter_eq_self.2 (fun _ _ => rfl)] at h1
  have hc := verify_rejects h3 (by simpa [h1] using hdays)
  rw [h1] at h2 hc
  exact ⟨(List.pairwise_reverse.1 h2).imp Ne.symm, by simpa using compatible_reverse hc⟩

example : ∃ v, chronoCustom exChrono false .components dtSetter {} (formatText exFormat ++ [125]) [49, 57, 58, 48, 56, 33] = ([125], .ok v) :=
  ⟨({ hour := some 19, min := some 8 }, [33]), rfl⟩

/-- `%c` is never accepted: a text that shows a date and time just as `%c` prescribes is rejected as a wrong format
    string, although the check of the format string let it pass. -/
theorem C47_violated_c (cfg : ChronoCfg) (hl : GoodLayouts cfg.enc cfg.lay) (gmtoff : Bool) (c : Civil) (hv : c.Valid)
    {ws t rest : List Nat} (h : ShownSeq cfg.enc c (expansion (.locDatetime .standard)) t rest) (hw : Spaces ws) (hne : t ++ rest ≠ [])
    (hfirst : (t ++ rest).dropWhile isSpace = t ++ rest) (hs : ∀ c ∈ rest, IsScalar c) (t0 : Tm) (t1 : DateTime) (r : List Nat) :
    chronoCustom cfg gmtoff .tm (tmSetter gmtoff) t0 (37 :: 99 :: 125 :: r) (encodes cfg.enc (ws ++ (t ++ rest))) = (125 :: r, .err .invalidFormatString) ∧
      chronoCustom cfg gmtoff .components dtSetter t1 (37 :: 99 :: 125 :: r) (encodes cfg.enc (ws ++ (t ++ rest))) = (125 :: r, .err .invalidFormatString) := by
  constructor
  · unfold chronoCustom
    rw [chronoParse_c]
    refine congrArg (Prod.mk (125 :: r)) ?_
    exact chronoScan_shown cfg hl (tmSetter gmtoff) c hv (tracks_tm gmtoff c hv t0) t0 (by simp [trackedTm, trackedSt]) [.conv [99] (.locDatetime .standard)]
      (formatOk_one (by decide)) h hw hne hfirst hs (tm_supports gmtoff (fun h => absurd h (by decide)) (by decide)) (by decide) (by decide) _ _ _
      (fun rg p => verify_c_tm gmtoff c t0 rg p)
  · unfold chronoCustom
    rw [chronoParse_c]
    refine congrArg (Prod.mk (125 :: r)) ?_
    exact chronoScan_shown cfg hl dtSetter c hv (tracks_dt c hv t1) t1 (by simp [trackedDateTime, trackedSt]) [.conv [99] (.locDatetime .standard)]
      (formatOk_one (by decide)) h hw hne hfirst hs
      (fun f hf => decide_eq_true ⟨fun h => absurd (h ▸ hf) (by decide), fun h => absurd (h ▸ hf) (by decide), fun h => absurd (h ▸ hf) (by decide)⟩)
      (by decide) (by decide) _ _ _ (fun rg p => verify_c_dt c t1 rg p)

/-- `Tue Mar 05 19:08:09 2024` -/
theorem exCivil_c : ShownSeq exChrono.enc exCivil (expansion (.locDatetime .standard)) [84, 117, 101, 32, 77, 97, 114, 32, 48, 53, 32, 49, 57, 58, 48, 56, 58, 48, 57, 32, 50, 48, 50, 52] [33] :=
  .cons _ _ [84, 117, 101] _ (fun u => u = [32, 77, 97, 114, 32, 48, 53, 32, 49, 57, 58, 48, 56, 58, 48, 57, 32, 50, 48, 50, 52, 33]) _ (.weekdayName _ _ (Or.inr ⟨by decide, fun _ h => by subst h; unfold StartsWithName; decide⟩)) rfl
    (.cons _ _ [32] _ (fun u => u.dropWhile isSpace = u) _ (.whitespace [32] (fun u => u.dropWhile isSpace = u) (by intro c hc; simp at hc; subst hc; decide) (fun _ h => h)) (by decide)
    (.cons _ _ [77, 97, 114] _ (fun u => u = [32, 48, 53, 32, 49, 57, 58, 48, 56, 58, 48, 57, 32, 50, 48, 50, 52, 33]) _ (.monthName _ _ (Or.inr ⟨by decide, fun _ h => by subst h; unfold StartsWithName; decide⟩)) rfl
    (.cons _ _ [32] _ (fun u => u.dropWhile isSpace = u) _ (.whitespace [32] (fun u => u.dropWhile isSpace = u) (by intro c hc; simp at hc; subst hc; decide) (fun _ h => h)) (by decide)
    (.cons _ _ [48, 53] _ (fun _ => True) _ (.dayOfMonth _ _ _ (digits_pad2 (n := 5) (by decide) (by decide) _)) trivial
    (.cons _ _ [32] _ (fun u => u.dropWhile isSpace = u) _ (.whitespace [32] (fun u => u.dropWhile isSpace = u) (by intro c hc; simp at hc; subst hc; decide) (fun _ h => h)) (by decide)
    (.cons _ _ [49, 57] _ (fun _ => True) _ (.hour24 _ _ _ (digits_pad2 (n := 19) (by decide) (by decide) _)) trivial
    (.cons _ _ [58] _ (fun _ => True) _ (shown_sep (by decide) _) trivial
    (.cons _ _ [48, 56] _ (fun _ => True) _ (.minute _ _ _ (digits_pad2 (n := 8) (by decide) (by decide) _)) trivial
    (.cons _ _ [58] _ (fun _ => True) _ (shown_sep (by decide) _) trivial
    (.cons _ _ [48, 57] _ (fun _ => True) _ (.second _ _ _ (digits_pad2 (n := 9) (by decide) (by decide) _)) trivial
    (.cons _ _ [32] _ (fun u => u.dropWhile isSpace = u) _ (.whitespace [32] (fun u => u.dropWhile isSpace = u) (by intro c hc; simp at hc; subst hc; decide) (fun _ h => h)) (by decide)
    (.cons _ _ [50, 48, 50, 52] _ (fun _ => True) _ (.fullYear _ _ _ (digits_pad4 (n := 2024) (by decide) _)) trivial
    (.nil [33])))))))))))))

example : chronoCustom exChrono false .tm (tmSetter false) {} [37, 99, 125] [84, 117, 101, 32, 77, 97, 114, 32, 48, 53, 32, 49, 57, 58, 48, 56, 58, 48, 57, 32, 50, 48, 50, 52, 33] = ([125], .err .invalidFormatString) :=
  (C47_violated_c exChrono exChrono_good false exCivil exCivil_valid exCivil_c (ws := []) (fun _ h => by cases h) (by decide) (by decide)
    (by intro c hc; simp at hc; subst hc; decide) {} {} []).1

/-- The day of the week, of the month and of the year together are accepted. -/
theorem C47_violated_three_days (cfg : ChronoCfg) (hl : GoodLayouts cfg.enc cfg.lay) (gmtoff : Bool) (c : Civil) (hv : c.Valid)
    {ws t rest : List Nat} (h : ShownSeq cfg.enc c [.dec0Weekday .standard, .dayOfMonth .standard, .dayOfYear] t rest) (hw : Spaces ws) (hne : t ++ rest ≠ [])
    (hfirst : (t ++ rest).dropWhile isSpace = t ++ rest) (hs : ∀ c ∈ rest, IsScalar c) (t0 : Tm) (r : List Nat) :
    chronoCustom cfg gmtoff .tm (tmSetter gmtoff) t0 (37 :: 119 :: 37 :: 100 :: 37 :: 106 :: 125 :: r) (encodes cfg.enc (ws ++ (t ++ rest))) =
      (125 :: r, .ok ({ t0 with wday := c.wday, mday := c.mday, yday := (c.yday : Int) - 1 }, encodes cfg.enc rest)) := by
  unfold chronoCustom
  rw [chronoParse_wdj]
  refine congrArg (Prod.mk (125 :: r)) ?_
  exact chronoScan_shown cfg hl (tmSetter gmtoff) c hv (tracks_tm gmtoff c hv t0) t0 (by simp [trackedTm, trackedSt])
    [.conv [119] (.dec0Weekday .standard), .conv [100] (.dayOfMonth .standard), .conv [106] .dayOfYear]
    (formatOk_three (by decide) (by decide) (by decide)) h hw hne hfirst hs (tm_supports gmtoff (fun h => absurd h (by decide)) (by decide)) (by decide) (by decide)
    { t0 with wday := c.wday, mday := c.mday, yday := (c.yday : Int) - 1 } (trackedSt c notTzoff [.yday, .mday, .wday]) none (fun rg p => rfl)

example : chronoCustom exChrono false .tm (tmSetter false) {} [37, 119, 37, 100, 37, 106, 125] [50, 48, 53, 48, 54, 53, 33] =
    ([125], .ok ({ wday := 2, mday := 5, yday := 64 }, [33])) := by rfl

/-! ### C48: offsets from UTC -/

/-- `%z` with four digits after the sign: the offset in minutes into `datetime_components`, in seconds into the
    `tm_gmtoff` of a `std::tm`. -/
theorem C48_hhmm (cfg : ChronoCfg) (hl : GoodLayouts cfg.enc cfg.lay) (west : Bool) (h m : Nat) (hh : h ≤ 99) (hm : m ≤ 99) (ws rest : List Nat)
    (hw : Spaces ws) (hr : ∀ c ∈ rest, IsScalar c) (t0 : DateTime) (t1 : Tm) (gmtoff : Bool) (r : List Nat) :
    chronoCustom cfg gmtoff .components dtSetter t0 (37 :: 122 :: 125 :: r)
        (encodes cfg.enc (ws ++ (((if west then [45] else [43]) ++ (pad2 h ++ pad2 m)) ++ rest))) =
        (125 :: r, .ok ({ t0 with tzOffset := some ((if west then -1 else 1) * ((h : Int) * 60 + m)) }, encodes cfg.enc rest)) ∧
      chronoCustom cfg true .tm (tmSetter true) t1 (37 :: 122 :: 125 :: r)
        (encodes cfg.enc (ws ++ (((if west then [45] else [43]) ++ (pad2 h ++ pad2 m)) ++ rest))) =
        (125 :: r, .ok ({ t1 with gmtoff := (if west then -1 else 1) * ((h : Int) * 60 + m) * 60 }, encodes cfg.enc rest)) :=
  offset_alone cfg hl (t := [122]) (s := .standard) (by decide) west h m (f := fun _ => True)
    (Shown.tzOffset .standard _ (pad2 h) (pad2 m) false _ (fun _ => True) (offsetSign_mark west) (digits_pad2 (by decide) hh _) (digits_pad2 (by decide) hm _) (fun h => absurd rfl h) (fun _ _ => trivial))
    trivial hw hr t0 t1 gmtoff r

example : chronoCustom exChrono false .components dtSetter {} [37, 122, 125] [45, 48, 53, 51, 48, 33] = ([125], .ok ({ tzOffset := some (-330) }, [33])) :=
  (C48_hhmm exChrono exChrono_good true 5 30 (by decide) (by decide) [] [33] (fun _ h => by cases h) (by intro c hc; simp at hc; subst hc; decide) {} {} false []).1

/-- `%z`, `%Ez` and `%Oz` with a colon between hours and minutes. -/
theorem C48_hh_colon_mm (cfg : ChronoCfg) (hl : GoodLayouts cfg.enc cfg.lay) (t : List Nat) (ht : t = [122] ∨ t = [69, 122] ∨ t = [79, 122]) (west : Bool)
    (h m : Nat) (hh : h ≤ 99) (hm : m ≤ 99) (ws rest : List Nat)
    (hw : Spaces ws) (hr : ∀ c ∈ rest, IsScalar c) (t0 : DateTime) (t1 : Tm) (gmtoff : Bool) (r : List Nat) :
    chronoCustom cfg gmtoff .components dtSetter t0 (37 :: t ++ 125 :: r)
        (encodes cfg.enc (ws ++ (((if west then [45] else [43]) ++ (pad2 h ++ ([58] ++ pad2 m))) ++ rest))) =
        (125 :: r, .ok ({ t0 with tzOffset := some ((if west then -1 else 1) * ((h : Int) * 60 + m)) }, encodes cfg.enc rest)) ∧
      chronoCustom cfg true .tm (tmSetter true) t1 (37 :: t ++ 125 :: r)
        (encodes cfg.enc (ws ++ (((if west then [45] else [43]) ++ (pad2 h ++ ([58] ++ pad2 m))) ++ rest))) =
        (125 :: r, .ok ({ t1 with gmtoff := (if west then -1 else 1) * ((h : Int) * 60 + m) * 60 }, encodes cfg.enc rest)) := by
  have hs : ∃ s, (t, s) ∈ [([122], NumSys.standard), ([69, 122], .altE), ([79, 122], .altO)] := by
    rcases ht with rfl | rfl | rfl
    · exact ⟨.standard, by decide⟩
    · exact ⟨.altE, by decide⟩
    · exact ⟨.altO, by decide⟩
  obtain ⟨s, hs⟩ := hs
  exact offset_alone cfg hl hs west h m (f := fun _ => True)
    (Shown.tzOffset s _ (pad2 h) (pad2 m) true _ (fun _ => True) (offsetSign_mark west) (digits_pad2 (by split <;> decide) hh _) (digits_pad2 (by decide) hm _) (fun _ => rfl) (fun _ _ => trivial))
    trivial hw hr t0 t1 gmtoff r

example : chronoCustom exChrono false .components dtSetter {} [37, 122, 125] [45, 48, 53, 58, 51, 48, 33] = ([125], .ok ({ tzOffset := some (-330) }, [33])) :=
  (C48_hh_colon_mm exChrono exChrono_good [122] (Or.inl rfl) true 5 30 (by decide) (by decide) [] [33] (fun _ h => by cases h) (by intro c hc; simp at hc; subst hc; decide) {} {} false []).1

/-- The hours alone, if neither a colon nor a digit follows. -/
theorem C48_hh (cfg : ChronoCfg) (hl : GoodLayouts cfg.enc cfg.lay) (t : List Nat) (ht : t = [122] ∨ t = [69, 122] ∨ t = [79, 122]) (west : Bool)
    (h : Nat) (hh : h ≤ 99) (ws rest : List Nat) (hrest : rest.head? ≠ some 58 ∧ NoDigitFirst 10 rest)
    (hw : Spaces ws) (hr : ∀ c ∈ rest, IsScalar c) (t0 : DateTime) (t1 : Tm) (gmtoff : Bool) (r : List Nat) :
    chronoCustom cfg gmtoff .components dtSetter t0 (37 :: t ++ 125 :: r)
        (encodes cfg.enc (ws ++ (((if west then [45] else [43]) ++ pad2 h) ++ rest))) =
        (125 :: r, .ok ({ t0 with tzOffset := some ((if west then -1 else 1) * ((h : Int) * 60)) }, encodes cfg.enc rest)) ∧
      chronoCustom cfg true .tm (tmSetter true) t1 (37 :: t ++ 125 :: r)
        (encodes cfg.enc (ws ++ (((if west then [45] else [43]) ++ pad2 h) ++ rest))) =
        (125 :: r, .ok ({ t1 with gmtoff := (if west then -1 else 1) * ((h : Int) * 60) * 60 }, encodes cfg.enc rest)) := by
  have hs : ∃ s, (t, s) ∈ [([122], NumSys.standard), ([69, 122], .altE), ([79, 122], .altO)] := by
    rcases ht with rfl | rfl | rfl
    · exact ⟨.standard, by decide⟩
    · exact ⟨.altE, by decide⟩
    · exact ⟨.altO, by decide⟩
  obtain ⟨s, hs⟩ := hs
  have := offset_alone cfg hl hs west h 0 (f := fun u => u = rest)
    (Shown.tzHours s _ (pad2 h) _ (offsetSign_mark west) (digits_pad2 (by split <;> decide) hh _) rfl
      (fun _ e => e ▸ ⟨fun _ => hrest.2, fun q hq => absurd (by rw [hq]; rfl) hrest.1⟩)) rfl hw hr t0 t1 gmtoff r
  simpa using this

example : chronoCustom exChrono true .tm (tmSetter true) {} [37, 122, 125] [43, 48, 53, 33] = ([125], .ok ({ gmtoff := 18000 }, [33])) :=
  (C48_hh exChrono exChrono_good [122] (Or.inl rfl) false 5 (by decide) [] [33] ⟨by decide, by intro c hc hd; cases hc; obtain ⟨_, hd, _⟩ := hd; revert hd; simp [digit?]⟩
    (fun _ h => by cases h) (by intro c hc; simp at hc; subst hc; decide) {} {} false []).2

/-- `%Ez` and `%Oz` also with one digit for the hours. -/
theorem C48_h_colon_mm (cfg : ChronoCfg) (hl : GoodLayouts cfg.enc cfg.lay) (t : List Nat) (ht : t = [69, 122] ∨ t = [79, 122]) (west : Bool)
    (h m : Nat) (hh : h ≤ 9) (hm : m ≤ 99) (ws rest : List Nat)
    (hw : Spaces ws) (hr : ∀ c ∈ rest, IsScalar c) (t0 : DateTime) (t1 : Tm) (gmtoff : Bool) (r : List Nat) :
    chronoCustom cfg gmtoff .components dtSetter t0 (37 :: t ++ 125 :: r)
        (encodes cfg.enc (ws ++ (((if west then [45] else [43]) ++ ([48 + h] ++ ([58] ++ pad2 m))) ++ rest))) =
        (125 :: r, .ok ({ t0 with tzOffset := some ((if west then -1 else 1) * ((h : Int) * 60 + m)) }, encodes cfg.enc rest)) ∧
      chronoCustom cfg true .tm (tmSetter true) t1 (37 :: t ++ 125 :: r)
        (encodes cfg.enc (ws ++ (((if west then [45] else [43]) ++ ([48 + h] ++ ([58] ++ pad2 m))) ++ rest))) =
        (125 :: r, .ok ({ t1 with gmtoff := (if west then -1 else 1) * ((h : Int) * 60 + m) * 60 }, encodes cfg.enc rest)) := by
  have hs : ∃ s, s ≠ NumSys.standard ∧ (t, s) ∈ [([122], NumSys.standard), ([69, 122], .altE), ([79, 122], .altO)] := by
    rcases ht with rfl | rfl
    · exact ⟨.altE, by decide, by decide⟩
    · exact ⟨.altO, by decide, by decide⟩
  obtain ⟨s, hn, hs⟩ := hs
  refine offset_alone cfg hl hs west h m (f := fun _ => True)
    (Shown.tzOffset s _ [48 + h] (pad2 m) true _ (fun u => NoDigitFirst 10 u) (offsetSign_mark west) ?_ (digits_pad2 (by decide) hm _) (fun _ => rfl) (fun _ _ => ?_))
    trivial hw hr t0 t1 gmtoff r
  · rw [if_neg hn]
    exact digits_one hh
  · exact noDigit_colon _

example : chronoCustom exChrono false .components dtSetter {} [37, 69, 122, 125] [45, 53, 58, 51, 48, 33] = ([125], .ok ({ tzOffset := some (-330) }, [33])) :=
  (C48_h_colon_mm exChrono exChrono_good [69, 122] (Or.inl rfl) true 5 30 (by decide) (by decide) [] [33] (fun _ h => by cases h) (by intro c hc; simp at hc; subst hc; decide) {} {} false []).1

end Scn
