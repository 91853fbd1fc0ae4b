import Verif.Lemmas.Accepted3
import Verif.Lemmas.Chrono13
import Verif.Props.Chrono
/-
C87: a format of a date and time that is accepted when it is parsed is not reported as invalid when the input is
scanned. What is in the source cannot make a format invalid.
-/
namespace Scn
open Spec

variable {T : Type}

/-- For `std::tm`: with a format that `parse` has accepted, `invalid_format_string` is only reported if some literal text
    of the format is not what stands in the source. Missing: that it is not reported then either
    (`C87_violated_literal`), formats with `%c`, which is checked without a month and a weekday, formats with two
    conversions for the month (`C87_violated_months`), and the conversions `%Z`, `%.S` and those of the locale. -/
theorem C87_accepted_tm_partial (cfg : ChronoCfg) (hl : GoodLayouts cfg.enc cfg.lay) (gmtoff : Bool) (is : List FmtItem) (hok : FormatOk cfg.enc is)
    (hz : .tzName ∉ callsOf is) (hc : ∀ s, .locDatetime s ∉ is.map FmtItem.call) (hmon : (fieldsOf (callsOf is)).count .mon ≤ 1) (r fmt p : List Nat)
    (hacc : chronoParse cfg.enc gmtoff .tm (formatText is ++ 125 :: r) = .ok (fmt, p)) (t0 : Tm) (src : List Nat) (hsrc : ∀ c ∈ src, IsScalar c)
    (h : (chronoCustom cfg gmtoff .tm (tmSetter gmtoff) t0 (formatText is ++ 125 :: r) (encodes cfg.enc src)).2 = .err .invalidFormatString) :
    Mismatch (callsOf is) (src.dropWhile isSpace) :=
  custom_wrong_format hl (setterOk_tm cfg gmtoff) (by intro f hf; simp [notTzoff, hf]) hok hacc hz hc hmon hsrc (Prod.ext rfl h)

/-- The same for `tm_with_tz`. -/
theorem C87_accepted_tm_with_tz_partial (cfg : ChronoCfg) (hl : GoodLayouts cfg.enc cfg.lay) (gmtoff : Bool) (is : List FmtItem) (hok : FormatOk cfg.enc is)
    (hz : .tzName ∉ callsOf is) (hc : ∀ s, .locDatetime s ∉ is.map FmtItem.call) (hmon : (fieldsOf (callsOf is)).count .mon ≤ 1) (r fmt p : List Nat)
    (hacc : chronoParse cfg.enc gmtoff .tmWithTz (formatText is ++ 125 :: r) = .ok (fmt, p)) (t0 : TmWithTz) (src : List Nat) (hsrc : ∀ c ∈ src, IsScalar c)
    (h : (chronoCustom cfg gmtoff .tmWithTz (tmTzSetter gmtoff) t0 (formatText is ++ 125 :: r) (encodes cfg.enc src)).2 = .err .invalidFormatString) :
    Mismatch (callsOf is) (src.dropWhile isSpace) :=
  custom_wrong_format hl (setterOk_tmTz cfg gmtoff) (by intro f hf; simp [hf]) hok hacc hz hc hmon hsrc (Prod.ext rfl h)

/-- The same for `datetime_components`. -/
theorem C87_accepted_components_partial (cfg : ChronoCfg) (hl : GoodLayouts cfg.enc cfg.lay) (gmtoff : Bool) (is : List FmtItem) (hok : FormatOk cfg.enc is)
    (hz : .tzName ∉ callsOf is) (hc : ∀ s, .locDatetime s ∉ is.map FmtItem.call) (hmon : (fieldsOf (callsOf is)).count .mon ≤ 1) (r fmt p : List Nat)
    (hacc : chronoParse cfg.enc gmtoff .components (formatText is ++ 125 :: r) = .ok (fmt, p)) (t0 : DateTime) (src : List Nat) (hsrc : ∀ c ∈ src, IsScalar c)
    (h : (chronoCustom cfg gmtoff .components dtSetter t0 (formatText is ++ 125 :: r) (encodes cfg.enc src)).2 = .err .invalidFormatString) :
    Mismatch (callsOf is) (src.dropWhile isSpace) :=
  custom_wrong_format hl (setterOk_dt cfg gmtoff) (by intro f hf; rfl) hok hacc hz hc hmon hsrc (Prod.ext rfl h)

/-- `%H:%OM` on `19.08`: the colon is not there. -/
example : Mismatch (callsOf exFormat) [49, 57, 46, 48, 56] :=
  C87_accepted_tm_partial exChrono exChrono_good false exFormat exFormat_ok (by decide) (by intro s; cases s <;> decide) (by decide) [] (formatText exFormat) [125] rfl {}
    [49, 57, 46, 48, 56] (by decide) rfl

example : Mismatch (callsOf exFormat) [49, 57, 46, 48, 56] :=
  C87_accepted_tm_with_tz_partial exChrono exChrono_good false exFormat exFormat_ok (by decide) (by intro s; cases s <;> decide) (by decide) [] (formatText exFormat) [125] rfl {}
    [49, 57, 46, 48, 56] (by decide) rfl

/-- Nothing is mismatched where `:` follows two digits, so that is not the result for `19:` and any text behind it. -/
example (s : List Nat) (hs : ∀ c ∈ s, IsScalar c) :
    (chronoCustom exChrono false .components dtSetter {} (formatText exFormat ++ [125]) (encodes .utf8 (49 :: 57 :: 58 :: s))).2 ≠ .err .invalidFormatString := by
  intro h
  obtain ⟨pre, a, c, t, post, w, d, q, h1, h2, h3, h4⟩ := C87_accepted_components_partial exChrono exChrono_good false exFormat exFormat_ok (by decide)
    (by intro s; cases s <;> decide) (by decide) [] (formatText exFormat) [125] rfl {} (49 :: 57 :: 58 :: s)
    (by intro c hc; simp at hc; rcases hc with rfl | rfl | rfl | hc <;> first | decide | exact hs c hc) h
  have hcalls : callsOf exFormat = [.hour24 .standard, .text [58], .minute .altO] := rfl
  rw [hcalls] at h1
  rw [List.dropWhile_cons, if_neg (by decide)] at h2
  match pre with
  | [] => cases h1
  | [x] =>
    simp at h1
    obtain ⟨rfl, h1, _⟩ := h1
    obtain ⟨v, w', rfl, hp, rfl⟩ := h3
    obtain ⟨p1, p2, p3, p4⟩ := hp
    cases a with
    | cons a as => cases as <;> simp at h1
    | nil =>
      simp at h1
      obtain ⟨rfl, rfl⟩ := h1
      match v with
      | [] => exact absurd p2 (by decide)
      | [x] =>
        simp at h2
        obtain ⟨_, rfl, _⟩ := h2
        rcases p4 with p4 | p4
        · cases p4
        · exact p4 57 rfl ⟨9, rfl, by decide⟩
      | [x, y] => simp at h2; exact h4 h2.2.2.1
      | _ :: _ :: _ :: _ => exact absurd p3 (by simp [mostDigits])
  | [_, _] => simp at h1
  | [_, _, _] => simp at h1
  | _ :: _ :: _ :: _ :: _ => simp at h1

/-- Without the text of the separator, the error is that of the format, whatever is there instead. -/
private theorem literal_wrong (cfg : ChronoCfg) (hl : GoodLayouts cfg.enc cfg.lay) (gmtoff : Bool) (k : TmKind) {set : TmSetter T}
    (hk : ∀ e, Closed cfg set (fun r => r.err = some e)) {upd : Int → T → T}
    (hset : ∀ (r : Rd T) v, set.hour24 r v = r.setField .hour24 0 23 v (upd v))
    {h : Nat} (h23 : h ≤ 23) {ws t rest : List Nat} {d : Nat} (hw : Spaces ws) (ht : Digits 1 2 h t (fun u => u = d :: rest))
    (hd : d ≠ 58) (hs : ∀ c ∈ d :: rest, IsScalar c) (t0 : T) (r : List Nat) :
    chronoCustom cfg gmtoff k set t0 (37 :: 82 :: 125 :: r) (encodes cfg.enc (ws ++ (t ++ d :: rest))) = (125 :: r, .err .invalidFormatString) := by
  have hp : chronoParse cfg.enc gmtoff k (37 :: 82 :: 125 :: r) = .ok ([37, 82], 125 :: r) :=
    chronoParse_ok cfg.enc gmtoff k [.conv [82] .time24Hour] (formatOk_one (by decide)) (by decide) (by constructor <;> decide) (fun h => absurd h (by decide)) (by decide) r
  obtain ⟨hf, hne⟩ := digits_first ht (by decide) (d :: rest)
  have hx : (82, ChronoCall.time24Hour) ∈ conversions := by decide
  unfold chronoCustom
  rw [hp]
  refine congrArg (Prod.mk (125 :: r)) ?_
  obtain ⟨c, q, hE⟩ : ∃ c q, encodes cfg.enc (d :: rest) = c :: q := by
    cases hE : encodes cfg.enc (d :: rest) with
    | nil => exact absurd ((encodes_eq_nil _ _).1 hE) (by simp)
    | cons c q => exact ⟨c, q, rfl⟩
  have hc : 58 ≠ c := by
    have := encodes_head (e := cfg.enc) hs (x := 58) (by decide) (by simpa using hd)
    rw [hE] at this
    intro h; subst h; exact this rfl
  generalize hu : t ++ d :: rest = u at *
  have hus : ∀ x ∈ u, IsScalar x := hu ▸ scalar_append (digits_scalar ht) hs
  let r1 : Rd T := ⟨encodes cfg.enc u, c :: q, upd h t0, { set := [.hour24] }, none⟩
  have h1 : (⟨encodes cfg.enc u, encodes cfg.enc u, t0, {}, none⟩ : Rd T).simple cfg set (.hour24 .standard) = some r1 := by
    refine congrArg some ?_
    rw [numberOr_digits ht cfg cfg.enc _ _ _ _ _ hs rfl _ _ (by rw [hu]) rfl, hset, hE]
    exact setField_ok _ _ _ _ _ rfl _ _ _ (show (0 : Int) ≤ (h : Int) ∧ (h : Int) ≤ 23 by omega) _
  have h2 : r1.simple cfg set (.text [58]) = some (r1.setError .invalidFormatString) := by
    show some (Rd.onText [58] r1) = _
    rw [Rd.onText]
    dsimp only [r1]
    rw [if_pos hc]
  have h3 : ∃ r2, (r1.setError .invalidFormatString).simple cfg set (.minute .standard) = some r2 := ⟨_, rfl⟩
  obtain ⟨r2, h3⟩ := h3
  refine scan_one_err cfg hl set t0 hw hne hf hus hx (r := r2) ?_ (closed_simple (hk .invalidFormatString) rfl _ h3)
  show Rd.simples cfg set [.hour24 .standard, .text [58], .minute .standard] _ = _
  rw [Rd.simples, h1, Option.bind_some, Rd.simples, h2, Option.bind_some, Rd.simples, h3]
  rfl

/-- The check accepts `{:%R}`, which stands for `%H:%M`; then the format is reported as invalid for every hour that is
    followed by anything but a colon, rather than that the text is not a time. -/
theorem C87_violated_literal (cfg : ChronoCfg) (hl : GoodLayouts cfg.enc cfg.lay) (gmtoff : Bool) (h : Nat) (h23 : h ≤ 23) (ws t rest : List Nat) (d : Nat)
    (hw : Spaces ws) (ht : Digits 1 2 h t (fun u => u = d :: rest)) (hd : d ≠ 58) (hs : ∀ c ∈ d :: rest, IsScalar c) (t0 : Tm) (t1 : TmWithTz) (t2 : DateTime)
    (r : List Nat) :
    chronoCustom cfg gmtoff .tm (tmSetter gmtoff) t0 (37 :: 82 :: 125 :: r) (encodes cfg.enc (ws ++ (t ++ d :: rest))) =
        (125 :: r, .err .invalidFormatString) ∧
      chronoCustom cfg gmtoff .tmWithTz (tmTzSetter gmtoff) t1 (37 :: 82 :: 125 :: r) (encodes cfg.enc (ws ++ (t ++ d :: rest))) =
        (125 :: r, .err .invalidFormatString) ∧
      chronoCustom cfg gmtoff .components dtSetter t2 (37 :: 82 :: 125 :: r) (encodes cfg.enc (ws ++ (t ++ d :: rest))) =
        (125 :: r, .err .invalidFormatString) :=
  ⟨literal_wrong cfg hl gmtoff _ (setterOk_tm cfg gmtoff).err (fun _ _ => rfl) h23 hw ht hd hs t0 r,
    literal_wrong cfg hl gmtoff _ (setterOk_tmTz cfg gmtoff).err (upd := fun v t => { t with tm := { t.tm with hour := v } }) (fun _ _ => rfl) h23 hw ht hd hs t1 r,
    literal_wrong cfg hl gmtoff _ (setterOk_dt cfg gmtoff).err (upd := fun v t => { t with hour := some v }) (fun _ _ => rfl) h23 hw ht hd hs t2 r⟩

/-- `{:%R}` on `19.08`. -/
example : chronoCustom exChrono false .tm (tmSetter false) {} [37, 82, 125] [49, 57, 46, 48, 56] = ([125], .err .invalidFormatString) :=
  (C87_violated_literal exChrono exChrono_good false 19 (by decide) [] [49, 57] [48, 56] 46 (fun _ h => by cases h) (digits_pad2 (n := 19) (by decide) (by decide) _)
    (by decide) (by decide) {} {} {} []).1

/-- Two conversions for the month. -/
private theorem months_wrong (cfg : ChronoCfg) (hl : GoodLayouts cfg.enc cfg.lay) (gmtoff : Bool) (k : TmKind) {set : TmSetter T} {upd : Int → T → T}
    (hset : ∀ (r : Rd T) v, set.mon r v = r.setField .mon 1 12 v (upd v))
    {m n : Nat} (hm : 1 ≤ m ∧ m ≤ 12) (hn : 1 ≤ n ∧ n ≤ 12) {ws name t rest : List Nat} (hw : Spaces ws) (hname : Named (monthName m) name (fun u => u = t ++ rest))
    (ht : Digits 1 2 n t (fun u => u = rest)) (hs : ∀ c ∈ rest, IsScalar c) (t0 : T) (r : List Nat) :
    chronoCustom cfg gmtoff k set t0 (37 :: 98 :: 37 :: 109 :: 125 :: r) (encodes cfg.enc (ws ++ (name ++ (t ++ rest)))) = (125 :: r, .err .invalidFormatString) := by
  have hp : chronoParse cfg.enc gmtoff k (37 :: 98 :: 37 :: 109 :: 125 :: r) = .ok ([37, 98, 37, 109], 125 :: r) := by
    have htake : (37 :: 98 :: 37 :: 109 :: 125 :: r).take ((37 :: 98 :: 37 :: 109 :: 125 :: r).length - (125 :: r).length) = [37, 98, 37, 109] := by
      have : (37 :: 98 :: 37 :: 109 :: 125 :: r) = [37, 98, 37, 109] ++ 125 :: r := rfl
      rw [this, List.length_append, Nat.add_sub_cancel, List.take_left]
    have hc : parseChrono cfg.enc (checkHandler gmtoff k) {} (37 :: 98 :: 37 :: 109 :: 125 :: r) = some ({ st := { set := [.mon] } }, 125 :: r) := by
      cases k <;> rfl
    unfold chronoParse
    dsimp only
    rw [if_neg (by decide), hc]
    dsimp only
    rw [if_neg (by decide), htake]
  have hts : ∀ c ∈ t ++ rest, IsScalar c := scalar_append (digits_scalar ht) hs
  have hall : ∀ m, m ≤ 12 → 1 ≤ m → ∀ c ∈ Spec.monthName m, letter c = true := by decide +kernel
  have hlong : ∀ m, m ≤ 12 → 1 ≤ m → 3 ≤ (Spec.monthName m).length := by decide +kernel
  obtain ⟨hf, hne⟩ := name_first (hall m hm.2 hm.1) (hlong m hm.2 hm.1) hname (t ++ rest)
  have hsn : ∀ c ∈ name, IsScalar c := by
    rcases hname with hE | ⟨hE, _⟩
    · exact case_scalar hE fun c hc => Or.inl (hall m hm.2 hm.1 c hc)
    · exact case_scalar hE fun c hc => Or.inl (hall m hm.2 hm.1 c (List.mem_of_mem_take hc))
  have hus : ∀ c ∈ name ++ (t ++ rest), IsScalar c := scalar_append hsn hts
  unfold chronoCustom
  rw [hp]
  refine congrArg (Prod.mk (125 :: r)) ?_
  have hx : (98, ChronoCall.monthName) ∈ conversions := by decide
  have hy : (109, ChronoCall.decMonth .standard) ∈ conversions := by decide
  have h1 : (readHandler cfg set).call ⟨encodes cfg.enc (name ++ (t ++ rest)), encodes cfg.enc (name ++ (t ++ rest)), t0, {}, none⟩ .monthName =
      some ⟨encodes cfg.enc (name ++ (t ++ rest)), encodes cfg.enc (t ++ rest), upd m t0, { set := [.mon] }, none⟩ := by
    show Rd.name monthNames monthNamesShort set.mon _ = _
    rw [name_named months_tables _ (month_table m hm) hname cfg.enc (t ++ rest) hts rfl set.mon _ rfl, hset]
    exact congrArg some (setField_ok _ _ _ _ _ rfl _ _ _ (by omega) _)
  have h2 : (readHandler cfg set).call ⟨encodes cfg.enc (name ++ (t ++ rest)), encodes cfg.enc (t ++ rest), upd m t0, { set := [.mon] }, none⟩ (.decMonth .standard) =
      some ⟨encodes cfg.enc (name ++ (t ++ rest)), encodes cfg.enc rest, upd n (upd m t0), { set := [.mon, .mon] }, some .invalidFormatString⟩ := by
    refine congrArg some ?_
    rw [numberOr_digits ht cfg cfg.enc _ _ _ _ _ hs rfl _ _ rfl rfl, hset]
    unfold Rd.setField
    rw [if_neg (show ¬ (id (n : Int) < 1 ∨ id (n : Int) > 12) by simp only [id]; omega)]
    rfl
  rw [chronoScan_at cfg hl set _ t0 hw hne hf hus, parse_two _ _ _ hx hy, h1, Option.bind_some, if_pos (show (readHandler cfg set).ok _ = true from rfl), parse_one _ _ _ hy, h2, Option.bind_some,
    if_neg (by simp [readHandler])]
  rfl

/-- The check accepts `{:%b%m}`, as it does not record that the name of a month sets the month; then
    the format is reported as invalid for every name of a month that is followed by a number of a month. -/
theorem C87_violated_months (cfg : ChronoCfg) (hl : GoodLayouts cfg.enc cfg.lay) (gmtoff : Bool) (m n : Nat) (hm : 1 ≤ m ∧ m ≤ 12) (hn : 1 ≤ n ∧ n ≤ 12)
    (ws name t rest : List Nat) (hw : Spaces ws) (hname : Named (monthName m) name (fun u => u = t ++ rest)) (ht : Digits 1 2 n t (fun u => u = rest))
    (hs : ∀ c ∈ rest, IsScalar c) (t0 : Tm) (t1 : TmWithTz) (t2 : DateTime) (r : List Nat) :
    chronoCustom cfg gmtoff .tm (tmSetter gmtoff) t0 (37 :: 98 :: 37 :: 109 :: 125 :: r) (encodes cfg.enc (ws ++ (name ++ (t ++ rest)))) =
        (125 :: r, .err .invalidFormatString) ∧
      chronoCustom cfg gmtoff .tmWithTz (tmTzSetter gmtoff) t1 (37 :: 98 :: 37 :: 109 :: 125 :: r) (encodes cfg.enc (ws ++ (name ++ (t ++ rest)))) =
        (125 :: r, .err .invalidFormatString) ∧
      chronoCustom cfg gmtoff .components dtSetter t2 (37 :: 98 :: 37 :: 109 :: 125 :: r) (encodes cfg.enc (ws ++ (name ++ (t ++ rest)))) =
        (125 :: r, .err .invalidFormatString) :=
  ⟨months_wrong cfg hl gmtoff _ (fun _ _ => rfl) hm hn hw hname ht hs t0 r, 
    months_wrong cfg hl gmtoff _ (upd := fun v t => { t with tm := { t.tm with mon := v - 1 } }) (fun _ _ => rfl) hm hn hw hname ht hs t1 r,
    months_wrong cfg hl gmtoff _ (upd := fun v t => { t with mon := some v }) (fun _ _ => rfl) hm hn hw hname ht hs t2 r⟩

/-- `{:%b%m}` on `Mar03`. -/
example : chronoCustom exChrono false .tm (tmSetter false) {} [37, 98, 37, 109, 125] [77, 97, 114, 48, 51] = ([125], .err .invalidFormatString) :=
  (C87_violated_months exChrono exChrono_good false 3 3 (by decide) (by decide) [] [77, 97, 114] [48, 51] [] (fun _ h => by cases h)
    (Or.inr ⟨by decide, fun _ h => by subst h; unfold StartsWithName; decide⟩) (digits_pad2 (n := 3) (by decide) (by decide) _) (fun _ h => by cases h) {} {} {} []).1

end Scn
