import Verif.Props.Calendar
/-
C71: time points.
-/
namespace Scn
open Spec

/-! ### C71: time points -/

/-- Where local time is UTC: a date and time that is written with a format that has the year, the month and the day is
    read back with it into a time point of the system clock of any resolution, if its count is in range: the seconds since
    the Epoch, in units of the time point, rounded towards zero. Hours, minutes and seconds that are not in the format
    are 0. -/
theorem C71_roundtrip_partial (cfg : ChronoCfg) (hl : GoodLayouts cfg.enc cfg.lay) (gmtoff : Bool) (mktime : Tm → Int) (hm : MktimeUtc mktime)
    (nanos : List Nat → Int) (num den : Nat) (hnum : 0 < num) (hden : 0 < den) (c : Civil) (hv : c.Valid)
    (is : List FmtItem) (hfmt : FormatOk cfg.enc is) (hnd : (fieldsOf (callsOf is)).Nodup) (hF : Compatible (fieldsOf (callsOf is)))
    (hno : ∀ f ∈ fieldsOf (callsOf is), f ∉ notInTimePoints)
    (hy : .fullYear ∈ fieldsOf (callsOf is)) (hmon : .mon ∈ fieldsOf (callsOf is)) (hday : .mday ∈ fieldsOf (callsOf is))
    {ws t rest : List Nat} (h : ShownSeq cfg.enc c (callsOf is) t rest) (hw : Spaces ws) (hne : t ++ rest ≠ [])
    (hfirst : (t ++ rest).dropWhile isSpace = t ++ rest) (hs : ∀ c ∈ rest, IsScalar c) (r : List Nat) (s : Int)
    (hsec : s = secondsSinceEpoch c.year c.month c.mday (if .hour24 ∈ fieldsOf (callsOf is) ∨ .hour12 ∈ fieldsOf (callsOf is) then hourOf (fieldsOf (callsOf is)) c else 0)
      (if .min ∈ fieldsOf (callsOf is) then c.minute else 0) (if .sec ∈ fieldsOf (callsOf is) then c.second else 0))
    (hfit : -2 ^ 63 ≤ s * den ∧ s * den < 2 ^ 63) :
    timePointCustom cfg gmtoff mktime nanos num den (formatText is ++ 125 :: r) (encodes cfg.enc (ws ++ (t ++ rest))) =
      (125 :: r, .ok ((s * den).tdiv num, encodes cfg.enc rest)) := by
  have hcs : ∀ f ∈ fieldsOf (callsOf is), f ≠ .shortYear ∧ f ≠ .century ∧ (f = .yday → c.yday ≤ 7) := by
    intro f hf
    refine ⟨?_, ?_, ?_⟩
    · rintro rfl; exact (hF.year hy).2 hf
    · rintro rfl; exact (hF.year hy).1 hf
    · rintro rfl; exact absurd (by decide) (hno _ hf)
  rw [timePoint_of_custom mktime nanos num den (chronoCustom_dt cfg hl gmtoff c hv is hfmt hnd hF hcs h hw hne hfirst hs {} r),
    time_set gmtoff mktime nanos num den hno, mktime_set hm gmtoff hv hy hmon, if_pos hday, ← hsec, durationCast_seconds hnum hden hfit]
  rfl

/-- For the examples: `mktime` where local time is UTC. -/
def exMktime (t : Tm) : Int := secondsSinceEpoch (t.year + 1900) (t.mon + 1) t.mday t.hour t.min t.sec

theorem exMktime_utc : MktimeUtc exMktime := fun _ _ _ => rfl

/-- `{:%d/%m/%Y}` on `05/03/2024!`, in minutes and in milliseconds -/
example : timePointCustom exChrono false exMktime (fun _ => 0) 60 1 (formatText exDate ++ [125]) (encodes .utf8 ([] ++ ([48, 53, 47, 48, 51, 47, 50, 48, 50, 52] ++ [33]))) =
      ([125], .ok (28493280, [33])) ∧
    timePointCustom exChrono false exMktime (fun _ => 0) 1 1000 (formatText exDate ++ [125]) (encodes .utf8 ([] ++ ([48, 53, 47, 48, 51, 47, 50, 48, 50, 52] ++ [33]))) =
      ([125], .ok (1709596800000, [33])) :=
  have h := fun num den hn hd => C71_roundtrip_partial exChrono exChrono_good false exMktime exMktime_utc (fun _ => 0) num den hn hd exCivil exCivil_valid exDate exDate_ok (by decide)
    (by constructor <;> decide) (by decide) (by decide) (by decide) (by decide) exDate_shown (by intro c hc; cases hc) (by decide) (by decide) (by decide) [] 1709596800 (by decide)
  ⟨h 60 1 (by decide) (by decide) (by decide), h 1 1000 (by decide) (by decide) (by decide)⟩

/-- Where local time is UTC: the time point that is read is the one of the components that are read with the same format at the
    same text (`datetime_components`), with the fraction of the second if the unit of the time point is below a second, rounded
    towards zero. `frac` is the fraction in nanoseconds.

    Not covered: counts out of range (`C71_violated_overflow`), and what number of nanoseconds the digits stand for (`nanos`,
    which is computed with `double`). -/
theorem C71_fraction_partial (cfg : ChronoCfg) (gmtoff : Bool) (mktime : Tm → Int) (hm : MktimeUtc mktime) (nanos : List Nat → Int) (num den : Nat)
    (hnum : 0 < num) (hden : 0 < den) {pos src p q : List Nat} {d : DateTime} {y mo da : Int}
    (h : chronoCustom cfg gmtoff .components dtSetter {} pos src = (p, .ok (d, q)))
    (hno : d.wday = none ∧ d.yday = none ∧ d.tzOffset = none ∧ d.tzName = none)
    (hy : d.year = some y) (hmo : d.mon = some mo ∧ 1 ≤ mo ∧ mo ≤ 12) (hda : d.mday = some da) (s frac : Int)
    (hs : s = secondsSinceEpoch y mo da (d.hour.getD 0) (d.min.getD 0) (d.sec.getD 0))
    (hfrac : ∀ ds, d.subsec = some ds → nanos ds = frac) (hfrac0 : d.subsec = none → frac = 0)
    (hfit : -2 ^ 63 ≤ s * 10 ^ 9 ∧ s * 10 ^ 9 < 2 ^ 63) (hfit' : -2 ^ 63 ≤ s * 10 ^ 9 + frac ∧ s * 10 ^ 9 + frac < 2 ^ 63)
    (hfit1 : -2 ^ 63 ≤ s * den ∧ s * den < 2 ^ 63) 
    (hfit2 : -2 ^ 63 ≤ (s * 10 ^ 9 + frac) * (den / Nat.gcd den (10 ^ 9 * num) : Nat) ∧ (s * 10 ^ 9 + frac) * (den / Nat.gcd den (10 ^ 9 * num) : Nat) < 2 ^ 63) :
    timePointCustom cfg gmtoff mktime nanos num den pos src =
      (p, .ok (if den = 1 then s.tdiv num else ((s * 10 ^ 9 + frac) * den).tdiv (10 ^ 9 * num : Nat), q)) := by
  have htime : mktime (d.toTm gmtoff) = s := by
    rw [hm _ (by simp [DateTime.toTm, hmo.1]; omega) (by simp [DateTime.toTm, hmo.1]; omega), hs]
    simp only [DateTime.toTm, hy, hmo.1, hda, Option.getD_some]
    congr 1 <;> omega
  rw [timePoint_of_custom mktime nanos num den h]
  unfold timeSinceEpoch
  rw [if_neg (by simp [hno]), htime]
  dsimp only
  by_cases hd1 : den = 1
  · subst hd1
    rw [if_pos rfl, show decide (1 > 1) = false from rfl]
    dsimp only
    rw [durationCast_seconds hnum (by decide) hfit1]
    simp
  · rw [if_neg hd1, show decide (den > 1) = true by simp; omega]
    cases hsub : d.subsec with
    | none =>
      have hf0 := hfrac0 hsub
      subst hf0
      dsimp only
      rw [durationCast_seconds hnum hden hfit1]
      have : ((s * 10 ^ 9 + 0) * (den : Int)).tdiv ((10 ^ 9 * num : Nat) : Int) = (s * den).tdiv num := by
        rw [show (s * 10 ^ 9 + 0) * (den : Int) = 10 ^ 9 * (s * den) by rw [Int.add_zero, Int.mul_comm s, Int.mul_assoc],
          show ((10 ^ 9 * num : Nat) : Int) = 10 ^ 9 * (num : Int) by omega]
        exact Int.mul_tdiv_mul_of_pos _ _ (by decide)
      rw [this]
      rfl
    | some ds =>
      dsimp only
      rw [int64Op_some hfit, Option.bind_some, hfrac ds hsub, int64Op_some hfit', Option.bind_some, durationCast_from (by decide) hnum hden hfit2]
      rfl

/-- For the examples: a string of digits is read, and a fraction has up to three digits. -/
def exFraction : ChronoCfg :=
  { exChrono with scanSet := fun _ s => match s.takeWhile (fun c => decide (48 ≤ c ∧ c ≤ 57)) with | [] => .err .invalidScannedValue | ds => .ok (ds, s.drop ds.length) }

/-- `{:%F %R:%.S}` of "2024-03-05 12:30:15.250!" in milliseconds. -/
example : timePointCustom exFraction false exMktime (fun ds => value 10 ds * 10 ^ 6) 1 1000 [37, 70, 32, 37, 82, 58, 37, 46, 83, 125]
    [50, 48, 50, 52, 45, 48, 51, 45, 48, 53, 32, 49, 50, 58, 51, 48, 58, 49, 53, 46, 50, 53, 48, 33] = ([125], .ok (1709641815250, [33])) :=
  C71_fraction_partial exFraction false exMktime exMktime_utc (fun ds => value 10 ds * 10 ^ 6) 1 1000 (by decide) (by decide)
    (d := { subsec := some [50, 53, 48], sec := some 15, min := some 30, hour := some 12, mday := some 5, mon := some 3, year := some 2024 })
    (by decide +kernel) (by decide) rfl ⟨rfl, by decide, by decide⟩ rfl 1709641815 250000000 (by decide)
    (by intro ds h; cases h; decide) (by simp) (by decide) (by decide) (by decide) (by decide)

/-- No time point is read with a format that has the day of the week, the day of the year, or a time zone, whatever the text. -/
theorem C71_rejected (cfg : ChronoCfg) (gmtoff : Bool) (mktime : Tm → Int) (nanos : List Nat → Int) (num den : Nat) (is : List FmtItem) (hfmt : FormatOk cfg.enc is)
    (f : ChronoField) (hf : f ∈ fieldsOf (callsOf is)) (hno : f ∈ notInTimePoints) (r src p rest : List Nat) (v : Int) :
    timePointCustom cfg gmtoff mktime nanos num den (formatText is ++ 125 :: r) src ≠ (p, .ok (v, rest)) := by
  intro h
  obtain ⟨d, hd, ht⟩ := custom_of_timePoint h
  have hin := C65_components cfg gmtoff is hfmt {} d r src p rest hd
  unfold timeSinceEpoch at ht
  have hset : (d.tzOffset.isSome || d.tzName.isSome || d.wday.isSome || d.yday.isSome) = true := by
    simp only [notInTimePoints, List.mem_cons, List.not_mem_nil, or_false] at hno
    rcases hno with rfl | rfl | rfl | rfl
    · obtain ⟨w, hw, _⟩ := hin.wday.1 hf; simp [hw]
    · obtain ⟨w, hw, _⟩ := hin.yday.1 hf; simp [hw]
    · obtain ⟨w, hw⟩ := hin.tz.1 hf; simp [hw]
    · obtain ⟨w, hw⟩ := hin.tzname.1 hf; simp [hw]
  rw [if_pos hset] at ht
  cases ht

/-- `{:%Y%z}` -/
example (src p rest : List Nat) (v : Int) :
    timePointCustom exChrono false exMktime (fun _ => 0) 1 1 (formatText [.conv [89] (.fullYear .standard), .conv [122] (.tzOffset .standard)] ++ [125]) src ≠ (p, .ok (v, rest)) := by
  refine C71_rejected exChrono false exMktime (fun _ => 0) 1 1 _ ⟨⟨_, _, _, rfl⟩, ?_, ?_⟩ .tzoff (by decide) (by decide) [] src p rest v
  · intro i hi
    simp only [List.mem_cons, List.not_mem_nil, or_false] at hi
    rcases hi with rfl | rfl
    · exact Or.inl ⟨_, rfl, by decide⟩
    · exact Or.inl ⟨_, rfl, by decide⟩
  · intro pre a b post h
    match pre with
    | [] => cases h; decide
    | [_] => cases h
    | _ :: _ :: pre => simp at h

/-- With a format that has the year and the month but not the day, a time point of the month before is read: the day counts
    as 0. -/
theorem C71_violated_day (cfg : ChronoCfg) (hl : GoodLayouts cfg.enc cfg.lay) (gmtoff : Bool) (mktime : Tm → Int) (hm : MktimeUtc mktime)
    (nanos : List Nat → Int) (c : Civil) (hv : c.Valid) (ws t rest r : List Nat)
    (h : ShownSeq cfg.enc c [.fullYear .standard, .text [45], .decMonth .standard] t rest) (hw : Spaces ws) (hne : t ++ rest ≠ [])
    (hfirst : (t ++ rest).dropWhile isSpace = t ++ rest) (hs : ∀ c ∈ rest, IsScalar c) :
    timePointCustom cfg gmtoff mktime nanos 1 1 (37 :: 89 :: 45 :: 37 :: 109 :: 125 :: r) (encodes cfg.enc (ws ++ (t ++ rest))) =
      (125 :: r, .ok (secondsSinceEpoch c.year c.month 1 0 0 0 - 86400, encodes cfg.enc rest)) := by
  have hfmt : FormatOk cfg.enc [.conv [89] (.fullYear .standard), .lit [45], .conv [109] (.decMonth .standard)] := by
    refine ⟨⟨_, _, _, rfl⟩, ?_, ?_⟩
    · intro i hi
      simp only [List.mem_cons, List.not_mem_nil, or_false] at hi
      rcases hi with rfl | rfl | rfl
      · exact Or.inl ⟨_, rfl, by decide⟩
      · refine ⟨by decide, fun x hx => ?_⟩
        simp at hx; subst hx
        exact ⟨by decide, by cases cfg.enc <;> rfl, by cases cfg.enc <;> rfl, by decide, by decide⟩
      · exact Or.inl ⟨_, rfl, by decide⟩
    · intro pre a b post h
      match pre with
      | [] => cases h; decide
      | [_] => cases h; decide
      | [_, _] => cases h
      | _ :: _ :: _ :: pre => simp at h
  have hc : callsOf [.conv [89] (.fullYear .standard), .lit [45], .conv [109] (.decMonth .standard)] = [.fullYear .standard, .text [45], .decMonth .standard] := rfl
  have hf : fieldsOf (callsOf [.conv [89] (.fullYear .standard), .lit [45], .conv [109] (.decMonth .standard)]) = [.fullYear, .mon] := rfl
  have hdt := chronoCustom_dt cfg hl gmtoff c hv _ hfmt (by rw [hf]; decide) (by rw [hf]; constructor <;> decide) (by rw [hf]; simp) (by rw [hc]; exact h) hw hne hfirst hs {} r
  rw [hf] at hdt
  have h1 := timePoint_of_custom (gmtoff := gmtoff) mktime nanos 1 1 hdt
  rw [time_set gmtoff mktime nanos 1 1 (by decide), mktime_set hm gmtoff hv (by decide) (by decide)] at h1
  have h2 : durationCast 1 1 1 1 (secondsSinceEpoch c.year c.month 0 0 0 0) = some (secondsSinceEpoch c.year c.month 1 0 0 0 - 86400) := by
    unfold durationCast
    simp [secondsSinceEpoch]
    omega
  simp only [List.mem_cons, List.not_mem_nil, reduceCtorEq, if_false, or_self] at h1
  rw [h2] at h1
  exact h1

/-- `{:%Y-%m}` on `2024-03!`: 29 February 2024 -/
example : timePointCustom exChrono false exMktime (fun _ => 0) 1 1 [37, 89, 45, 37, 109, 125] (encodes .utf8 ([] ++ ([50, 48, 50, 52, 45, 48, 51] ++ [33]))) =
      ([125], .ok (secondsSinceEpoch 2024 2 29 0 0 0, [33])) := by
  rw [show secondsSinceEpoch 2024 2 29 0 0 0 = secondsSinceEpoch exCivil.year exCivil.month 1 0 0 0 - 86400 by decide +kernel]
  exact C71_violated_day exChrono exChrono_good false exMktime exMktime_utc (fun _ => 0) exCivil exCivil_valid [] _ [33] []
    (.cons _ _ [50, 48, 50, 52] _ (fun _ => True) _ (.fullYear _ _ _ ⟨by decide, by decide, by decide, by decide, fun _ _ => Or.inl rfl⟩) trivial
      (.cons _ _ [45] _ (fun _ => True) _ (shown_sep (by decide) _) trivial
        (.cons _ _ [48, 51] _ (fun _ => True) _ (.decMonth _ _ _ (digits_pad2 (n := 3) (by decide) (by decide) _)) trivial (.nil [33]))))
    (by intro c hc; cases hc) (by decide) (by decide) (by decide)

/-- Times from 2263 on into a time point in nanoseconds overflow a signed 64-bit integer, which is undefined. -/
theorem C71_violated_overflow (cfg : ChronoCfg) (hl : GoodLayouts cfg.enc cfg.lay) (gmtoff : Bool) (mktime : Tm → Int) (hm : MktimeUtc mktime)
    (nanos : List Nat → Int) (c : Civil) (hv : c.Valid) (hyear : 2263 ≤ c.year)
    (is : List FmtItem) (hfmt : FormatOk cfg.enc is) (hnd : (fieldsOf (callsOf is)).Nodup) (hF : Compatible (fieldsOf (callsOf is)))
    (hno : ∀ f ∈ fieldsOf (callsOf is), f ∉ notInTimePoints)
    (hy : .fullYear ∈ fieldsOf (callsOf is)) (hmon : .mon ∈ fieldsOf (callsOf is)) (hday : .mday ∈ fieldsOf (callsOf is))
    {ws t rest : List Nat} (h : ShownSeq cfg.enc c (callsOf is) t rest) (hw : Spaces ws) (hne : t ++ rest ≠ [])
    (hfirst : (t ++ rest).dropWhile isSpace = t ++ rest) (hs : ∀ c ∈ rest, IsScalar c) (r : List Nat) :
    timePointCustom cfg gmtoff mktime nanos 1 (10 ^ 9) (formatText is ++ 125 :: r) (encodes cfg.enc (ws ++ (t ++ rest))) = (125 :: r, .ub) := by
  have hcs : ∀ f ∈ fieldsOf (callsOf is), f ≠ .shortYear ∧ f ≠ .century ∧ (f = .yday → c.yday ≤ 7) := by
    intro f hf
    refine ⟨?_, ?_, ?_⟩
    · rintro rfl; exact (hF.year hy).2 hf
    · rintro rfl; exact (hF.year hy).1 hf
    · rintro rfl; exact absurd (by decide) (hno _ hf)
  rw [timePoint_of_custom mktime nanos 1 (10 ^ 9) (chronoCustom_dt cfg hl gmtoff c hv is hfmt hnd hF hcs h hw hne hfirst hs {} r),
    time_set gmtoff mktime nanos 1 (10 ^ 9) hno, mktime_set hm gmtoff hv hy hmon, if_pos hday]
  have hbig := seconds_2263 hv hyear (hh := if .hour24 ∈ fieldsOf (callsOf is) ∨ .hour12 ∈ fieldsOf (callsOf is) then hourOf (fieldsOf (callsOf is)) c else 0)
    (mm := if .min ∈ fieldsOf (callsOf is) then c.minute else 0) (ss := if .sec ∈ fieldsOf (callsOf is) then c.second else 0) (by split <;> omega) (by split <;> omega) (by split <;> omega)
  have : ∀ v : Int, 9223372037 ≤ v → durationCast 1 1 1 (10 ^ 9) v = none := by
    intro v hv
    unfold durationCast
    have h1 : 1 * 10 ^ 9 / Nat.gcd (1 * 10 ^ 9) (1 * 1) = 10 ^ 9 := by decide +kernel
    dsimp only
    rw [h1, if_neg (by decide)]
    unfold int64Op
    rw [if_neg (by simp; omega)]
    rfl
  rw [this _ hbig]
  rfl

/-- `{:%d/%m/%Y}` on `05/03/2300`, in nanoseconds -/
example : timePointCustom exChrono false exMktime (fun _ => 0) 1 (10 ^ 9) (formatText exDate ++ [125]) (encodes .utf8 ([] ++ ([48, 53, 47, 48, 51, 47, 50, 51, 48, 48] ++ [33]))) = ([125], .ub) :=
  C71_violated_overflow exChrono exChrono_good false exMktime exMktime_utc (fun _ => 0) { exCivil with year := 2300 } (by constructor <;> decide) (by decide) exDate exDate_ok
    (by decide) (by constructor <;> decide) (by decide) (by decide) (by decide) (by decide)
    (ShownSeq.cons _ _ [48, 53] _ (fun _ => True) _ (.dayOfMonth _ _ _ (digits_pad2 (n := 5) (by decide) (by decide) _)) trivial
      (.cons _ _ [47] _ (fun _ => True) _ (shown_sep (by decide) _) trivial
        (.cons _ _ [48, 51] _ (fun _ => True) _ (.decMonth _ _ _ (digits_pad2 (n := 3) (by decide) (by decide) _)) trivial
          (.cons _ _ [47] _ (fun _ => True) _ (shown_sep (by decide) _) trivial
            (.cons _ _ [50, 51, 48, 48] _ (fun _ => True) _ (.fullYear _ _ _ ⟨by decide, by decide, by decide, by decide, fun _ _ => Or.inl rfl⟩) trivial (.nil [33]))))))
    (by intro c hc; cases hc) (by decide) (by decide) (by decide) []

end Scn
