import Verif.Lemmas.Chrono13
import Verif.Props.Chrono2
/-
C65–C68: what a scan of a date or time leaves, the names of months and weekdays, and the numbers of ISO weekdays.
-/
namespace Scn
open Spec

/-! ### C65: ranges -/

/-- After a scan of a `std::tm` that succeeds, with any format of modelled conversions and whatever the text, the fields of
    the format are in their ranges and the others are as before. (Of `gmtoff` nothing is said.) -/
theorem C65_tm (cfg : ChronoCfg) (gmtoff : Bool) (is : List FmtItem) (hfmt : FormatOk cfg.enc is) (t0 t : Tm) (r src p' rest : List Nat)
    (h : chronoCustom cfg gmtoff .tm (tmSetter gmtoff) t0 (formatText is ++ 125 :: r) src = (p', .ok (t, rest))) :
    TmWithin t0 (fieldsOf (callsOf is)) t := by
  obtain ⟨fmt, hp, hscan⟩ := custom_parts h
  obtain ⟨rfl, _⟩ := chronoParse_text hfmt hp
  obtain ⟨rd, hfin, rfl, _⟩ := finished_of_ok hscan
  have h1 := (finished_marked cfg _ (marks_tm gmtoff) (tm_sticky cfg gmtoff) is hfmt t0 src hfin).1
  obtain ⟨p, p'', hp, hparse, _⟩ := hfin
  have hin : TmWithin t0 rd.st.set rd.tm := closed_parse (tmIn_closed cfg gmtoff t0) (r := ⟨p, p, t0, {}, none⟩) (by constructor <;> simp) hparse
  have hmem : ∀ f, f ≠ .tzoff → (f ∈ rd.st.set ↔ f ∈ fieldsOf (callsOf is)) := by
    intro f hf; rw [h1]; simp [notTzoff, hf]
  exact tmWithin_congr hmem hin

/-- `{:%H:%OM}` on `19:08!` -/
example : TmWithin {} (fieldsOf (callsOf exFormat)) { hour := 19, min := 8 } :=
  C65_tm exChrono false exFormat exFormat_ok {} _ [] [49, 57, 58, 48, 56, 33] [125] [33] rfl

/-- The same for `datetime_components`. -/
theorem C65_components (cfg : ChronoCfg) (gmtoff : Bool) (is : List FmtItem) (hfmt : FormatOk cfg.enc is) (t0 t : DateTime) (r src p' rest : List Nat)
    (h : chronoCustom cfg gmtoff .components dtSetter t0 (formatText is ++ 125 :: r) src = (p', .ok (t, rest))) :
    DateTimeWithin t0 (fieldsOf (callsOf is)) t := by
  obtain ⟨fmt, hp, hscan⟩ := custom_parts h
  obtain ⟨rfl, _⟩ := chronoParse_text hfmt hp
  obtain ⟨rd, hfin, rfl, _⟩ := finished_of_ok hscan
  have h1 := (finished_marked cfg _ marks_dt (dt_sticky cfg) is hfmt t0 src hfin).1
  obtain ⟨p, p'', hp, hparse, _⟩ := hfin
  have hin : DateTimeWithin t0 rd.st.set rd.tm := closed_parse (dtIn_closed cfg t0) (r := ⟨p, p, t0, {}, none⟩) (by constructor <;> simp) hparse
  have hmem : ∀ f, f ∈ rd.st.set ↔ f ∈ fieldsOf (callsOf is) := by
    intro f; rw [h1]; simp
  exact dateTimeWithin_congr hmem hin

example : DateTimeWithin {} (fieldsOf (callsOf exFormat)) { hour := some 19, min := some 8 } :=
  C65_components exChrono false exFormat exFormat_ok {} _ [] [49, 57, 58, 48, 56, 33] [125] [33] rfl

/-- With any format whatever, localized or not, some fields are in their ranges and the others are as before. -/
theorem C65_any_format_tm (cfg : ChronoCfg) (gmtoff : Bool) (fmt : List Nat) (t0 t : Tm) (src rest : List Nat)
    (h : chronoScan cfg (tmSetter gmtoff) fmt t0 src = .ok (t, rest)) : ∃ fs, TmWithin t0 fs t := by
  obtain ⟨rd, ⟨p, p'', hp, hparse, _⟩, rfl, _⟩ := finished_of_ok h
  exact ⟨rd.st.set, closed_parse (tmIn_closed cfg gmtoff t0) (r := ⟨p, p, t0, {}, none⟩) (by constructor <;> simp) hparse⟩

example : ∃ fs, TmWithin {} fs { hour := 19 } := C65_any_format_tm exChrono false [37, 72] {} _ [49, 57, 33] [33] rfl

/-- The same for `datetime_components`. -/
theorem C65_any_format_components (cfg : ChronoCfg) (fmt : List Nat) (t0 t : DateTime) (src rest : List Nat)
    (h : chronoScan cfg dtSetter fmt t0 src = .ok (t, rest)) : ∃ fs, DateTimeWithin t0 fs t := by
  obtain ⟨rd, ⟨p, p'', hp, hparse, _⟩, rfl, _⟩ := finished_of_ok h
  exact ⟨rd.st.set, closed_parse (dtIn_closed cfg t0) (r := ⟨p, p, t0, {}, none⟩) (by constructor <;> simp) hparse⟩

example : ∃ fs, DateTimeWithin {} fs { hour := some 19 } := C65_any_format_components exChrono [37, 72] {} _ [49, 57, 33] [33] rfl

/-! ### C66: the unread part -/

/-- What a scan of a date or time leaves unread is the rest of its source: any format, any units, any of the three
    destinations. The locale's facet and the scan of character sets must themselves stay inside their texts. -/
theorem C66_unread (cfg : ChronoCfg) (hin : Inside cfg) (gmtoff : Bool) (fmt src rest : List Nat) :
    (∀ t0 t, chronoScan cfg (tmSetter gmtoff) fmt t0 src = .ok (t, rest) → rest <:+ src) ∧
      (∀ t0 t, chronoScan cfg (tmTzSetter gmtoff) fmt t0 src = .ok (t, rest) → rest <:+ src) ∧
      ∀ t0 t, chronoScan cfg dtSetter fmt t0 src = .ok (t, rest) → rest <:+ src :=
  ⟨fun _ _ h => scan_unread hin (keepsPos_tmOn gmtoff _ _) h, fun _ _ h => scan_unread hin (keepsPos_tmTz gmtoff) h, fun _ _ h => scan_unread hin keepsPos_dt h⟩

example : [33] <:+ [49, 57, 33] :=
  (C66_unread exChrono ⟨fun _ _ _ _ h => (by cases h), fun _ _ _ _ h => (by cases h)⟩ false [37, 72] [49, 57, 33] [33]).2.2 {} { hour := some 19 } rfl

/-! ### C67: names of months and weekdays -/

/-- Any conversion for the name of a month: `%b`, `%B`, `%h`. The name may be in full or abbreviated, in any case; in an
    abbreviated name the rest of the full name does not follow. -/
theorem C67_month (cfg : ChronoCfg) (hl : GoodLayouts cfg.enc cfg.lay) (gmtoff : Bool) (x m : Nat) (hx : x ∈ [98, 66, 104]) (h1 : 1 ≤ m) (h12 : m ≤ 12)
    (ws t rest : List Nat) (ht : Named (Spec.monthName m) t fun u => u = rest) (hw : Spaces ws) (hr : ∀ c ∈ rest, IsScalar c) (t0 : Tm) (t1 : DateTime) (r : List Nat) :
    chronoCustom cfg gmtoff .tm (tmSetter gmtoff) t0 (37 :: x :: 125 :: r) (encodes cfg.enc (ws ++ (t ++ rest))) =
        (125 :: r, .ok ({ t0 with mon := (m : Int) - 1 }, encodes cfg.enc rest)) ∧
      chronoCustom cfg gmtoff .components dtSetter t1 (37 :: x :: 125 :: r) (encodes cfg.enc (ws ++ (t ++ rest))) =
        (125 :: r, .ok ({ t1 with mon := some (m : Int) }, encodes cfg.enc rest)) := by
  have hx' : (x, ChronoCall.monthName) ∈ conversions := by
    simp only [List.mem_cons, List.not_mem_nil, or_false] at hx
    rcases hx with rfl | rfl | rfl <;> decide
  have hv : (⟨2000, m, 1, 0, 1, 0, 0, 0, false, 0, 0⟩ : Civil).Valid := by constructor <;> simp; omega
  have hsh : Shown cfg.enc ⟨2000, m, 1, 0, 1, 0, 0, 0, false, 0, 0⟩ .monthName t fun u => u = rest := .monthName _ _ ht
  have hf : (t ++ rest).dropWhile isSpace = t ++ rest ∧ t ++ rest ≠ [] := by
    have hall : ∀ m, m ≤ 12 → 1 ≤ m → ∀ c ∈ Spec.monthName m, letter c = true := by decide +kernel
    have hlong : ∀ m, m ≤ 12 → 1 ≤ m → 3 ≤ (Spec.monthName m).length := by decide +kernel
    exact name_first (hall m h12 h1) (hlong m h12 h1) ht rest
  exact ⟨alone_tm cfg hl gmtoff _ hv hx' rfl rfl (by decide) (by decide) hsh rfl hw hf hr t0 r,
    alone_dt cfg hl gmtoff _ hv hx' rfl rfl (by decide) hsh rfl hw hf hr t1 r⟩

/-- `{:%b}` on `jUNx`. -/
example : chronoCustom exChrono false .tm (tmSetter false) {} [37, 98, 125] [106, 85, 78, 120] = ([125], .ok ({ mon := 5 }, [120])) :=
  (C67_month exChrono exChrono_good false 98 6 (by decide) (by decide) (by decide) [] [106, 85, 78] [120]
    (Or.inr ⟨by decide, fun _ h => by subst h; unfold StartsWithName; decide⟩) (fun _ h => by cases h) (by intro c hc; simp at hc; subst hc; decide) {} {} []).1

/-- `%a` and `%A` for weekdays. -/
theorem C67_weekday (cfg : ChronoCfg) (hl : GoodLayouts cfg.enc cfg.lay) (gmtoff : Bool) (x d : Nat) (hx : x ∈ [97, 65]) (h6 : d ≤ 6)
    (ws t rest : List Nat) (ht : Named (Spec.weekdayName d) t fun u => u = rest) (hw : Spaces ws) (hr : ∀ c ∈ rest, IsScalar c) (t0 : Tm) (t1 : DateTime) (r : List Nat) :
    chronoCustom cfg gmtoff .tm (tmSetter gmtoff) t0 (37 :: x :: 125 :: r) (encodes cfg.enc (ws ++ (t ++ rest))) =
        (125 :: r, .ok ({ t0 with wday := d }, encodes cfg.enc rest)) ∧
      chronoCustom cfg gmtoff .components dtSetter t1 (37 :: x :: 125 :: r) (encodes cfg.enc (ws ++ (t ++ rest))) =
        (125 :: r, .ok ({ t1 with wday := some (d : Int) }, encodes cfg.enc rest)) := by
  have hx' : (x, ChronoCall.weekdayName) ∈ conversions := by
    simp only [List.mem_cons, List.not_mem_nil, or_false] at hx
    rcases hx with rfl | rfl <;> decide
  have hv : (⟨2000, 1, 1, d, 1, 0, 0, 0, false, 0, 0⟩ : Civil).Valid := by constructor <;> simp; omega
  have hsh : Shown cfg.enc ⟨2000, 1, 1, d, 1, 0, 0, 0, false, 0, 0⟩ .weekdayName t fun u => u = rest := .weekdayName _ _ ht
  have hf : (t ++ rest).dropWhile isSpace = t ++ rest ∧ t ++ rest ≠ [] := by
    have hall : ∀ m, m ≤ 6 → ∀ c ∈ Spec.weekdayName m, letter c = true := by decide +kernel
    have hlong : ∀ m, m ≤ 6 → 3 ≤ (Spec.weekdayName m).length := by decide +kernel
    exact name_first (hall d h6) (hlong d h6) ht rest
  exact ⟨alone_tm cfg hl gmtoff _ hv hx' rfl rfl (by decide) (by decide) hsh rfl hw hf hr t0 r,
    alone_dt cfg hl gmtoff _ hv hx' rfl rfl (by decide) hsh rfl hw hf hr t1 r⟩

/-- `{:%A}` on `wednesday!`. -/
example : chronoCustom exChrono false .tm (tmSetter false) {} [37, 65, 125] [119,101,100,110,101,115,100,97,121,33] = ([125], .ok ({ wday := 3 }, [33])) :=
  (C67_weekday exChrono exChrono_good false 65 3 (by decide) (by decide) [] [119,101,100,110,101,115,100,97,121] [33]
    (Or.inl (by decide)) (fun _ h => by cases h) (by intro c hc; simp at hc; subst hc; decide) {} {} []).1

/-- A text that begins with no abbreviated name of a month is rejected by `%b`, `%B` and `%h`. -/
theorem C67_month_rejected (cfg : ChronoCfg) (hl : GoodLayouts cfg.enc cfg.lay) (gmtoff : Bool) (x : Nat) (hx : x ∈ [98, 66, 104])
    (ws u : List Nat) (hw : Spaces ws) (hne : u ≠ []) (hfirst : u.dropWhile isSpace = u) (hu : ∀ c ∈ u, IsScalar c)
    (hno : ∀ m, 1 ≤ m → m ≤ 12 → ¬ StartsWithName ((Spec.monthName m).take 3) u) (t0 : Tm) (t1 : DateTime) (r : List Nat) :
    chronoCustom cfg gmtoff .tm (tmSetter gmtoff) t0 (37 :: x :: 125 :: r) (encodes cfg.enc (ws ++ u)) = (125 :: r, .err .invalidScannedValue) ∧
      chronoCustom cfg gmtoff .components dtSetter t1 (37 :: x :: 125 :: r) (encodes cfg.enc (ws ++ u)) = (125 :: r, .err .invalidScannedValue) := by
  have hx' : (x, ChronoCall.monthName) ∈ conversions := by
    simp only [List.mem_cons, List.not_mem_nil, or_false] at hx
    rcases hx with rfl | rfl | rfl <;> decide
  have hp : ∀ k, chronoParse cfg.enc gmtoff k (37 :: x :: 125 :: r) = .ok ([37, x], 125 :: r) := fun k =>
    alone_parse cfg.enc gmtoff k hx' rfl (by decide) (by decide) (by decide) r
  have hlong : ∀ o ∈ monthNames, ∃ m, 1 ≤ m ∧ m ≤ 12 ∧ o.1.take 3 = (Spec.monthName m).take 3 := by
    intro o ho
    have hall : ∀ o ∈ monthNames, o.1 = Spec.monthName o.2.toNat ∧ 1 ≤ o.2.toNat ∧ o.2.toNat ≤ 12 := by decide +kernel
    obtain ⟨a, b, c⟩ := hall o ho
    exact ⟨_, b, c, by rw [a]⟩
  have hshort : ∀ o ∈ monthNamesShort, ∃ m, 1 ≤ m ∧ m ≤ 12 ∧ o.1 = (Spec.monthName m).take 3 := by
    intro o ho
    have hall : ∀ o ∈ monthNamesShort, o.1 = (Spec.monthName o.2.toNat).take 3 ∧ 1 ≤ o.2.toNat ∧ o.2.toNat ≤ 12 := by decide +kernel
    obtain ⟨a, b, c⟩ := hall o ho
    exact ⟨_, b, c, a⟩
  have key : ∀ {T : Type} (set : TmSetter T) (t : T), chronoScan cfg set [37, x] t (encodes cfg.enc (ws ++ u)) = .err .invalidScannedValue := by
    intro T set t
    refine scan_one_err cfg hl set t hw hne hfirst hu hx' (r := Rd.setError ⟨encodes cfg.enc u, encodes cfg.enc u, t, {}, none⟩ .invalidScannedValue) ?_ rfl
    show Rd.name monthNames monthNamesShort set.mon _ = _
    refine name_none months_tables (by decide +kernel) cfg.enc u hu ?_ ?_ _ _ rfl
    · intro o ho hs
      obtain ⟨m, h1, h12, heq⟩ := hlong o ho
      exact hno m h1 h12 (heq ▸ startsWith_take 3 hs)
    · intro o ho hs
      obtain ⟨m, h1, h12, heq⟩ := hshort o ho
      exact hno m h1 h12 (heq ▸ hs)
  constructor
  · unfold chronoCustom; rw [hp]; exact congrArg _ (key (tmSetter gmtoff) t0)
  · unfold chronoCustom; rw [hp]; exact congrArg _ (key dtSetter t1)

/-- `{:%b}` on `Jam`. -/
example : chronoCustom exChrono false .tm (tmSetter false) {} [37, 98, 125] [74, 97, 109] = ([125], .err .invalidScannedValue) :=
  (C67_month_rejected exChrono exChrono_good false 98 (by decide) [] [74, 97, 109] (fun _ h => by cases h) (by decide) (by decide) (by decide)
    (by unfold StartsWithName; intro m h1 h12; revert h1; revert m; decide) {} {} []).1

/-- A text that begins with no abbreviated name of a weekday is rejected by `%a` and `%A`. -/
theorem C67_weekday_rejected (cfg : ChronoCfg) (hl : GoodLayouts cfg.enc cfg.lay) (gmtoff : Bool) (x : Nat) (hx : x ∈ [97, 65])
    (ws u : List Nat) (hw : Spaces ws) (hne : u ≠ []) (hfirst : u.dropWhile isSpace = u) (hu : ∀ c ∈ u, IsScalar c)
    (hno : ∀ d, d ≤ 6 → ¬ StartsWithName ((Spec.weekdayName d).take 3) u) (t0 : Tm) (t1 : DateTime) (r : List Nat) :
    chronoCustom cfg gmtoff .tm (tmSetter gmtoff) t0 (37 :: x :: 125 :: r) (encodes cfg.enc (ws ++ u)) = (125 :: r, .err .invalidScannedValue) ∧
      chronoCustom cfg gmtoff .components dtSetter t1 (37 :: x :: 125 :: r) (encodes cfg.enc (ws ++ u)) = (125 :: r, .err .invalidScannedValue) := by
  have hx' : (x, ChronoCall.weekdayName) ∈ conversions := by
    simp only [List.mem_cons, List.not_mem_nil, or_false] at hx
    rcases hx with rfl | rfl <;> decide
  have hp : ∀ k, chronoParse cfg.enc gmtoff k (37 :: x :: 125 :: r) = .ok ([37, x], 125 :: r) := fun k =>
    alone_parse cfg.enc gmtoff k hx' rfl (by decide) (by decide) (by decide) r
  have hlong : ∀ o ∈ weekdayNames, ∃ m, m ≤ 6 ∧ o.1.take 3 = (Spec.weekdayName m).take 3 := by
    intro o ho
    have hall : ∀ o ∈ weekdayNames, o.1 = Spec.weekdayName o.2.toNat ∧ o.2.toNat ≤ 6 := by decide +kernel
    obtain ⟨a, b⟩ := hall o ho
    exact ⟨_, b, by rw [a]⟩
  have hshort : ∀ o ∈ weekdayNamesShort, ∃ m, m ≤ 6 ∧ o.1 = (Spec.weekdayName m).take 3 := by
    intro o ho
    have hall : ∀ o ∈ weekdayNamesShort, o.1 = (Spec.weekdayName o.2.toNat).take 3 ∧ o.2.toNat ≤ 6 := by decide +kernel
    obtain ⟨a, b⟩ := hall o ho
    exact ⟨_, b, a⟩
  have key : ∀ {T : Type} (set : TmSetter T) (t : T), chronoScan cfg set [37, x] t (encodes cfg.enc (ws ++ u)) = .err .invalidScannedValue := by
    intro T set t
    refine scan_one_err cfg hl set t hw hne hfirst hu hx' (r := Rd.setError ⟨encodes cfg.enc u, encodes cfg.enc u, t, {}, none⟩ .invalidScannedValue) ?_ rfl
    show Rd.name weekdayNames weekdayNamesShort set.wday _ = _
    refine name_none weekdays_tables (by decide +kernel) cfg.enc u hu ?_ ?_ _ _ rfl
    · intro o ho hs
      obtain ⟨m, h6, heq⟩ := hlong o ho
      exact hno m h6 (heq ▸ startsWith_take 3 hs)
    · intro o ho hs
      obtain ⟨m, h6, heq⟩ := hshort o ho
      exact hno m h6 (heq ▸ hs)
  constructor
  · unfold chronoCustom; rw [hp]; exact congrArg _ (key (tmSetter gmtoff) t0)
  · unfold chronoCustom; rw [hp]; exact congrArg _ (key dtSetter t1)

/-- `{:%a}` on `Moon`. -/
example : chronoCustom exChrono false .tm (tmSetter false) {} [37, 97, 125] [77, 111, 111, 110] = ([125], .err .invalidScannedValue) :=
  (C67_weekday_rejected exChrono exChrono_good false 97 (by decide) [] [77, 111, 111, 110] (fun _ h => by cases h) (by decide) (by decide) (by decide)
    (by unfold StartsWithName; decide) {} {} []).1

/-! ### C68: ISO weekdays -/

/-- `%u` is the number of the weekday with Monday as 1 and Sunday as 7. No number is read as that: for each `d` from 1 to 7
    the day before is stored, and 0 is read, as Saturday. -/
theorem C68_violated (cfg : ChronoCfg) (hl : GoodLayouts cfg.enc cfg.lay) (gmtoff : Bool) (d : Nat) (h7 : d ≤ 7)
    (ws rest : List Nat) (hw : Spaces ws) (hr : ∀ c ∈ rest, IsScalar c) (t0 : Tm) (t1 : DateTime) (r : List Nat) :
    ∃ w : Int, w = (if d = 0 then 6 else (d : Int) - 1) ∧ (1 ≤ d → w ≠ (d % 7 : Nat)) ∧
      chronoCustom cfg gmtoff .tm (tmSetter gmtoff) t0 (37 :: 117 :: 125 :: r) (encodes cfg.enc (ws ++ ([48 + d] ++ rest))) =
        (125 :: r, .ok ({ t0 with wday := w }, encodes cfg.enc rest)) ∧
      chronoCustom cfg gmtoff .components dtSetter t1 (37 :: 117 :: 125 :: r) (encodes cfg.enc (ws ++ ([48 + d] ++ rest))) =
        (125 :: r, .ok ({ t1 with wday := some w }, encodes cfg.enc rest)) := by
  have hp : ∀ k, chronoParse cfg.enc gmtoff k (37 :: 117 :: 125 :: r) = .ok ([37, 117], 125 :: r) := fun k =>
    chronoParse_ok cfg.enc gmtoff k [.conv [117] (.dec1Weekday .standard)] (formatOk_one (by decide)) (by decide) (by constructor <;> decide) (fun h => absurd h (by decide)) (by decide) r
  have hn : ¬ ((if d = 0 then 6 else (d : Int) - 1) < 0 ∨ (if d = 0 then 6 else (d : Int) - 1) > 6) := by split <;> omega
  refine ⟨_, rfl, ?_, ?_, ?_⟩
  · intro h1; rw [if_neg (by omega)]; omega
  · unfold chronoCustom
    rw [hp]
    refine congrArg (Prod.mk (125 :: r)) ?_
    refine Eq.trans (scan_isoWeekday cfg hl (tmSetter gmtoff) t0 hw (by omega) hr) ?_
    dsimp only [tmSetter, tmSetterOn, Rd.setField]
    simp only [if_neg hn]
    rfl
  · unfold chronoCustom
    rw [hp]
    refine congrArg (Prod.mk (125 :: r)) ?_
    refine Eq.trans (scan_isoWeekday cfg hl dtSetter t1 hw (by omega) hr) ?_
    dsimp only [dtSetter, Rd.setField]
    simp only [if_neg hn]
    rfl

/-- `{:%u}` on `7`, Sunday: Saturday (6) is stored. -/
example : chronoCustom exChrono false .tm (tmSetter false) {} [37, 117, 125] [55] = ([125], .ok ({ wday := 6 }, [])) := by
  obtain ⟨w, hw, _, h, _⟩ := C68_violated exChrono exChrono_good false 7 (by decide) [] [] (fun _ h => by cases h) (fun _ h => by cases h) {} {} []
  subst hw; exact h

/-- The numbers 8 and 9 are rejected. Missing: 0 is not, and the days are the wrong ones (`C68_violated`). -/
theorem C68_rejected_partial (cfg : ChronoCfg) (hl : GoodLayouts cfg.enc cfg.lay) (gmtoff : Bool) (d : Nat) (h7 : 7 < d) (h9 : d ≤ 9)
    (ws rest : List Nat) (hw : Spaces ws) (hr : ∀ c ∈ rest, IsScalar c) (t0 : Tm) (t1 : DateTime) (r : List Nat) :
    chronoCustom cfg gmtoff .tm (tmSetter gmtoff) t0 (37 :: 117 :: 125 :: r) (encodes cfg.enc (ws ++ ([48 + d] ++ rest))) = (125 :: r, .err .invalidScannedValue) ∧
      chronoCustom cfg gmtoff .components dtSetter t1 (37 :: 117 :: 125 :: r) (encodes cfg.enc (ws ++ ([48 + d] ++ rest))) = (125 :: r, .err .invalidScannedValue) := by
  have hp : ∀ k, chronoParse cfg.enc gmtoff k (37 :: 117 :: 125 :: r) = .ok ([37, 117], 125 :: r) := fun k =>
    chronoParse_ok cfg.enc gmtoff k [.conv [117] (.dec1Weekday .standard)] (formatOk_one (by decide)) (by decide) (by constructor <;> decide) (fun h => absurd h (by decide)) (by decide) r
  have hn : (if d = 0 then 6 else (d : Int) - 1) < 0 ∨ (if d = 0 then 6 else (d : Int) - 1) > 6 := by split <;> omega
  refine ⟨?_, ?_⟩
  · unfold chronoCustom
    rw [hp]
    refine congrArg (Prod.mk (125 :: r)) ?_
    refine Eq.trans (scan_isoWeekday cfg hl (tmSetter gmtoff) t0 hw (by omega) hr) ?_
    dsimp only [tmSetter, tmSetterOn, Rd.setField]
    simp only [if_pos hn]
    rfl
  · unfold chronoCustom
    rw [hp]
    refine congrArg (Prod.mk (125 :: r)) ?_
    refine Eq.trans (scan_isoWeekday cfg hl dtSetter t1 hw (by omega) hr) ?_
    dsimp only [dtSetter, Rd.setField]
    simp only [if_pos hn]
    rfl

example : chronoCustom exChrono false .tm (tmSetter false) {} [37, 117, 125] [56] = ([125], .err .invalidScannedValue) :=
  (C68_rejected_partial exChrono exChrono_good false 8 (by decide) (by decide) [] [] (fun _ h => by cases h) (fun _ h => by cases h) {} {} []).1

end Scn
