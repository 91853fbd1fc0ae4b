import Verif.Lemmas.Chrono9
/-
Scans with particular formats; the destination `tm_with_tz`.
-/
namespace Scn
open Spec
variable {T : Type}

/-- The outcome of a scan from the end of the parse. -/
def scanEnd : Option (Rd T × List Nat) → Res (T × List Nat)
  | none => .ub
  | some (r, _) => scanResult r.err (r.tm, r.pos)

theorem chronoScan_at (cfg : ChronoCfg) (hl : GoodLayouts cfg.enc cfg.lay) (set : TmSetter T) (fmt : List Nat) (t0 : T) {ws u : List Nat} (hw : Spaces ws) (hne : u ≠ [])
    (hfirst : u.dropWhile isSpace = u) (hs : ∀ c ∈ u, IsScalar c) :
    chronoScan cfg set fmt t0 (encodes cfg.enc (ws ++ u)) =
      scanEnd (parseChrono cfg.enc (readHandler cfg set) ⟨encodes cfg.enc u, encodes cfg.enc u, t0, {}, none⟩ fmt) := by
  have hall : ∀ c ∈ ws ++ u, IsScalar c := scalar_append (fun c hc => (hw c hc).1) hs
  unfold chronoScan
  rw [skipSpace_encodes cfg.enc _ _ hall (hl _ hall), if_neg, spaces_drop' hw, hfirst]
  · show (match parseChrono cfg.enc (readHandler cfg set) ⟨encodes cfg.enc u, encodes cfg.enc u, t0, {}, none⟩ fmt with
      | none => Res.ub
      | some (r, _) => match r.err with
        | some e => Res.err e
        | none => Res.ok (r.tm, r.pos)) = _
    cases parseChrono cfg.enc (readHandler cfg set) ⟨encodes cfg.enc u, encodes cfg.enc u, t0, {}, none⟩ fmt with
    | none => rfl
    | some rp =>
      obtain ⟨r, p⟩ := rp
      dsimp only [scanEnd]
      cases r.err <;> rfl
  · rintro ⟨_, h⟩
    rw [← dropWhile_nil_iff, spaces_drop' hw, hfirst] at h
    exact hne h

/-- A format with one conversion. -/
theorem parse_one {σ : Type} (e : Enc) (h : ChronoHandler σ) (st : σ) {x : Nat} {c : ChronoCall} (hx : (x, c) ∈ conversions) :
    parseChrono e h st [37, x] = (h.call st c).bind fun st => if h.ok st then (h.call st .verify).map fun s => (s, []) else some (st, []) := by
  simp only [conversions, List.mem_cons, Prod.mk.injEq, List.not_mem_nil, or_false] at hx
  rcases hx with h|h|h|h|h|h|h|h|h|h|h|h|h|h|h|h|h|h|h|h|h|h|h|h|h|h|h|h|h|h|h|h <;> (obtain ⟨rfl, rfl⟩ := h; rfl)

/-- A format with two conversions. -/
theorem parse_two {σ : Type} (e : Enc) (h : ChronoHandler σ) (st : σ) {x y : Nat} {c d : ChronoCall} (hx : (x, c) ∈ conversions) (hy : (y, d) ∈ conversions) :
    parseChrono e h st [37, x, 37, y] = (h.call st c).bind fun st => if h.ok st then (parseChrono e h st [37, y]) else some (st, [37, y]) := by
  simp only [parse_one e h _ hy]
  have hx' : ∀ r, chronoConversion (x :: r) = (some c, r) := fun r => conversion_ok e (t := [x]) (Or.inl ⟨x, rfl, hx⟩) r
  have hy' : ∀ r, chronoConversion (y :: r) = (some d, r) := fun r => conversion_ok e (t := [y]) (Or.inl ⟨y, rfl, hy⟩) r
  show chronoLoop e h 5 st [] [37, x, 37, y] = _
  rw [chronoLoop, if_neg (by decide), if_neg (by decide), if_pos rfl, hx']
  dsimp only [Option.bind_some]
  cases h.call st c with
  | none => rfl
  | some a =>
    simp only [Option.bind_some]
    split
    · rw [chronoLoop, if_neg (by decide), if_neg (by decide), if_pos rfl, hy']
      dsimp only [Option.bind_some]
      rfl
    · rfl

theorem digits_first {lo hi v : Nat} {t : List Nat} {f : List Nat → Prop} (h : Digits lo hi v t f) (hlo : 1 ≤ lo) (u : List Nat) :
    (t ++ u).dropWhile isSpace = t ++ u ∧ t ++ u ≠ [] := by
  have hl := h.low
  have hd := h.digits
  cases t with
  | nil => simp at hl; omega
  | cons c t => exact ⟨first_not_space (digit_not_space (hd c (by simp))), by simp⟩

theorem onText_empty (r : Rd T) : r.onText [] = r := rfl

/-- `%j` with a numeral, into any destination. -/
theorem scan_dayOfYear (cfg : ChronoCfg) (hl : GoodLayouts cfg.enc cfg.lay) (set : TmSetter T) (t0 : T) {ws t rest : List Nat} {v : Nat} (hw : Spaces ws)
    (ht : Digits 1 3 v t fun u => u = rest) (hs : ∀ c ∈ rest, IsScalar c) :
    chronoScan cfg set [37, 106] t0 (encodes cfg.enc (ws ++ (t ++ rest))) =
      scanEnd (let r := set.yday ⟨encodes cfg.enc (t ++ rest), encodes cfg.enc rest, t0, {}, none⟩ (v - 1)
        if r.err.isNone then (r.verify set).map fun s => (s, []) else some (r, [])) := by
  have hf := digits_first ht (by decide) rest
  rw [chronoScan_at cfg hl set [37, 106] t0 hw hf.2 hf.1 (scalar_append (digits_scalar ht) hs), parse_one _ _ _ (c := .dayOfYear) (by decide)]
  show scanEnd ((Rd.simple cfg set ⟨encodes cfg.enc (t ++ rest), encodes cfg.enc (t ++ rest), t0, {}, none⟩ .dayOfYear).bind _) = _
  have : Rd.simple cfg set ⟨encodes cfg.enc (t ++ rest), encodes cfg.enc (t ++ rest), t0, {}, none⟩ .dayOfYear =
      some (set.yday ⟨encodes cfg.enc (t ++ rest), encodes cfg.enc rest, t0, {}, none⟩ (v - 1)) := by
    show some (Rd.number 1 3 _ _) = _
    rw [number_digits ht cfg.enc rest hs rfl _ _ rfl]
  rw [this]
  rfl

/-- A conversion of one number alone into `datetime_components`. -/
theorem scan_shortYear_dt (cfg : ChronoCfg) (hl : GoodLayouts cfg.enc cfg.lay) (t0 : DateTime) {ws rest : List Nat} {v : Nat} (hw : Spaces ws) (hv : v ≤ 99) (hs : ∀ c ∈ rest, IsScalar c) :
    chronoScan cfg dtSetter [37, 121] t0 (encodes cfg.enc (ws ++ (pad2 v ++ rest))) = .ok ({ t0 with year := some 2000 }, encodes cfg.enc rest) := by
  have ht := digits_pad2 (lo := 2) (n := v) (by decide) hv (fun u => u = rest)
  have hf := digits_first ht (by decide) rest
  rw [chronoScan_at cfg hl dtSetter [37, 121] t0 hw hf.2 hf.1 (scalar_append (digits_scalar ht) hs), parse_one _ _ _ (c := .shortYear .standard) (by decide)]
  have : (readHandler cfg dtSetter).call ⟨encodes cfg.enc (pad2 v ++ rest), encodes cfg.enc (pad2 v ++ rest), t0, {}, none⟩ (.shortYear .standard) =
      some (dtSetter.shortYear ⟨encodes cfg.enc (pad2 v ++ rest), encodes cfg.enc rest, t0, {}, none⟩ v) := by
    show some (Rd.numberOr cfg _ _ _ id 2 2 _ _) = _
    rw [numberOr_digits ht cfg cfg.enc .standard _ _ id rest hs rfl _ _ rfl rfl]
    rfl
  rw [this]
  rfl

/-- A century and a short year into `datetime_components`. -/
theorem scan_century_dt (cfg : ChronoCfg) (hl : GoodLayouts cfg.enc cfg.lay) (t0 : DateTime) {ws rest : List Nat} {c v : Nat} (hw : Spaces ws) (hc : c ≤ 99) (hv : v ≤ 99)
    (hs : ∀ c ∈ rest, IsScalar c) :
    chronoScan cfg dtSetter [37, 67, 37, 121] t0 (encodes cfg.enc (ws ++ (pad2 c ++ (pad2 v ++ rest)))) = .ok ({ t0 with year := some 0 }, encodes cfg.enc rest) := by
  have ht := digits_pad2 (lo := 2) (n := v) (by decide) hv (fun u => u = rest)
  have ht' := digits_pad2 (lo := 2) (n := c) (by decide) hc (fun u => u = pad2 v ++ rest)
  have hs' := scalar_append (digits_scalar ht) hs
  have hf := digits_first ht' (by decide) (pad2 v ++ rest)
  rw [chronoScan_at cfg hl dtSetter [37, 67, 37, 121] t0 hw hf.2 hf.1 (scalar_append (digits_scalar ht') hs'),
    parse_two _ _ _ (c := .century .standard) (d := .shortYear .standard) (by decide) (by decide)]
  simp only [parse_one cfg.enc (readHandler cfg dtSetter) _ (show (121, ChronoCall.shortYear .standard) ∈ conversions by decide)]
  have h1 : (readHandler cfg dtSetter).call ⟨encodes cfg.enc (pad2 c ++ (pad2 v ++ rest)), encodes cfg.enc (pad2 c ++ (pad2 v ++ rest)), t0, {}, none⟩ (.century .standard) =
      some (dtSetter.century ⟨encodes cfg.enc (pad2 c ++ (pad2 v ++ rest)), encodes cfg.enc (pad2 v ++ rest), t0, {}, none⟩ c) := by
    show some (Rd.numberOr cfg _ _ _ id 2 2 _ _) = _
    rw [numberOr_digits ht' cfg cfg.enc .standard _ _ id (pad2 v ++ rest) hs' rfl _ _ rfl rfl]
    rfl
  have h2 : ∀ rg t st, st.localized = false → (readHandler cfg dtSetter).call ⟨rg, encodes cfg.enc (pad2 v ++ rest), t, st, none⟩ (.shortYear .standard) =
      some (dtSetter.shortYear ⟨rg, encodes cfg.enc rest, t, st, none⟩ v) := by
    intro rg t st hst
    show some (Rd.numberOr cfg _ _ _ id 2 2 _ _) = _
    rw [numberOr_digits ht cfg cfg.enc .standard _ _ id rest hs rfl _ _ rfl hst]
    rfl
  rw [h1]
  have h3 : dtSetter.century ⟨encodes cfg.enc (pad2 c ++ (pad2 v ++ rest)), encodes cfg.enc (pad2 v ++ rest), t0, {}, none⟩ c =
      ⟨encodes cfg.enc (pad2 c ++ (pad2 v ++ rest)), encodes cfg.enc (pad2 v ++ rest), { t0 with year := some (t0.year.getD 0 + c * 100) }, { set := [.century] }, none⟩ := rfl
  rw [h3]
  simp only [Option.bind_some]
  rw [if_pos (show (readHandler cfg dtSetter).ok _ = true from rfl), h2 _ _ _ rfl]
  simp only [Option.bind_some]
  rfl

/-! ### The 12-hour clock -/

theorem shown_amPm (e : Enc) {h : Nat} {pm : Bool} {m : List Nat} (h1 : 1 ≤ h) (h12 : h ≤ 12)
    (hm : ∃ name ∈ (if pm then [[112,109], [112,46,109,46]] else [[97,109], [97,46,109,46]]), EqUpToCase name m) {c : Civil} (hc : c.hour = clock24 h pm)
    (f : List Nat → Prop) : Shown e c .amPm m f ∧ Spec.hour12 c.hour = h ∧ c.hour ≤ 23 := by
  obtain ⟨name, hn, hm⟩ := hm
  have hh : Spec.hour12 c.hour = h ∧ c.hour ≤ 23 := by
    rw [hc]
    unfold clock24 Spec.hour12
    cases pm
    · by_cases h0 : h = 12
      · simp [h0]
      · simp [h0]; rw [if_neg (by omega)]; omega
    · by_cases h0 : h = 12
      · simp [h0]
      · simp [h0]; rw [if_neg (by omega)]; omega
  refine ⟨?_, hh⟩
  cases pm with
  | true =>
    refine .pm _ _ ?_ (by rw [hc]; unfold clock24; simp; split <;> omega)
    simp only [if_true, List.mem_cons, List.not_mem_nil, or_false] at hn
    rcases hn with rfl | rfl
    · exact Or.inl hm
    · exact Or.inr hm
  | false =>
    refine .am _ _ ?_ (by rw [hc]; unfold clock24; simp; split <;> omega)
    simp only [Bool.false_eq_true, if_false, List.mem_cons, List.not_mem_nil, or_false] at hn
    rcases hn with rfl | rfl
    · exact Or.inl hm
    · exact Or.inr hm

/-- A date and time with nothing but its hour. -/
def atHour (h : Nat) : Civil := ⟨0, 1, 1, 0, 1, h, 0, 0, false, 0, 0⟩

theorem atHour_valid {h : Nat} (hh : h ≤ 23) : (atHour h).Valid := by
  constructor <;> simp [atHour, hh]

theorem amPm_first {pm : Bool} {m : List Nat}
    (hm : ∃ name ∈ (if pm then [[112,109], [112,46,109,46]] else [[97,109], [97,46,109,46]]), EqUpToCase name m) (u : List Nat) :
    ((m ++ u).dropWhile isSpace = m ++ u) ∧ m ++ u ≠ [] := by
  obtain ⟨name, hn, hm⟩ := hm
  have hname : ∃ c cs, name = c :: cs ∧ (c = 97 ∨ c = 112) := by
    cases pm <;> simp at hn <;> rcases hn with rfl | rfl <;> simp
  obtain ⟨c, cs, rfl, hc⟩ := hname
  cases m with
  | nil => cases hm
  | cons d m =>
    have hd : isSpace d = false := by
      have h1 : SameLetter c d := hm.1
      unfold SameLetter at h1
      rcases hc with rfl | rfl
      · have : d = 97 ∨ d = 65 := by omega
        rcases this with rfl | rfl <;> decide
      · have : d = 112 ∨ d = 80 := by omega
        rcases this with rfl | rfl <;> decide
    exact ⟨first_not_space hd, by simp⟩

theorem shown_I {e : Enc} {h : Nat} {c : Civil} (hh : Spec.hour12 c.hour = h) (h12 : h ≤ 12) : Shown e c (.hour12 .standard) (pad2 h) fun _ => True := by
  refine .hour12 .standard _ _ ?_
  rw [hh]
  exact digits_pad2 (by decide) (by omega) _

theorem formatOk_two {e : Enc} {x y : Nat} {c d : ChronoCall} (hx : (x, c) ∈ conversions) (hy : (y, d) ∈ conversions) : FormatOk e [.conv [x] c, .conv [y] d] :=
  formatOk_noLit (by
    intro i hi
    simp only [List.mem_cons, List.not_mem_nil, or_false] at hi
    rcases hi with rfl | rfl
    · exact Or.inl ⟨x, rfl, hx⟩
    · exact Or.inl ⟨y, rfl, hy⟩)
    (by intro i hi; simp only [List.mem_cons, List.not_mem_nil, or_false] at hi; rcases hi with rfl | rfl <;> rfl)

theorem shown_Ip {e : Enc} {c : Civil} {h : Nat} {m : List Nat} (hh : Spec.hour12 c.hour = h) (h12 : h ≤ 12) (hap : Shown e c .amPm m fun _ => True) (rest : List Nat) :
    ShownSeq e c [.hour12 .standard, .amPm] (pad2 h ++ m) rest ∧ ShownSeq e c [.amPm, .hour12 .standard] (m ++ pad2 h) rest := by
  have h1 := seq_cons (rest := rest) (shown_I hh h12) (seq_cons hap (.nil _))
  have h2 := seq_cons (rest := rest) hap (seq_cons (shown_I hh h12) (.nil _))
  rw [List.append_nil] at h1 h2
  exact ⟨h1, h2⟩

theorem inYear_valid {y : Nat} (h : y ≤ 9999) : (⟨y, 1, 1, 0, 1, 0, 0, 0, false, 0, 0⟩ : Civil).Valid := by
  constructor <;> simp [h]

/-! ### `%c` -/

/-- The state in which the reader is after the text of `%c` does not pass the check. -/
theorem verify_c_tm (gmtoff : Bool) (c : Civil) (t : Tm) (rg p : List Nat) :
    Rd.verify (tmSetter gmtoff) ⟨rg, p, trackedTm c t [.fullYear, .sec, .min, .hour24, .mday, .mon, .wday],
        trackedSt c notTzoff [.fullYear, .sec, .min, .hour24, .mday, .mon, .wday], none⟩ =
      some ⟨rg, p, trackedTm c t [.fullYear, .sec, .min, .hour24, .mday, .mon, .wday],
        trackedSt c notTzoff [.fullYear, .sec, .min, .hour24, .mday, .mon, .wday], some .invalidFormatString⟩ := by
  rfl

theorem verify_c_dt (c : Civil) (t : DateTime) (rg p : List Nat) :
    Rd.verify dtSetter ⟨rg, p, trackedDateTime c t [.fullYear, .sec, .min, .hour24, .mday, .mon, .wday],
        trackedSt c (fun _ => true) [.fullYear, .sec, .min, .hour24, .mday, .mon, .wday], none⟩ =
      some ⟨rg, p, trackedDateTime c t [.fullYear, .sec, .min, .hour24, .mday, .mon, .wday],
        trackedSt c (fun _ => true) [.fullYear, .sec, .min, .hour24, .mday, .mon, .wday], some .invalidFormatString⟩ := by
  rfl

/-- The checker accepts `%c`. -/
theorem chronoParse_c (e : Enc) (gmtoff : Bool) (k : TmKind) (r : List Nat) : chronoParse e gmtoff k (37 :: 99 :: 125 :: r) = .ok ([37, 99], 125 :: r) := by
  cases k <;> simp [chronoParse, parseChrono, chronoLoop, chronoConversion, chronoSpecifier, checkHandler, Checker.call, ChronoCall.unimplemented, ChronoCall.checkedFields,
    Checker.field, TmKind.supports, SetterState.mark, SetterState.has, chronoFinish, SetterState.verify]

/-- The checker accepts all three kinds of day together. -/
theorem chronoParse_wdj (e : Enc) (gmtoff : Bool) (k : TmKind) (r : List Nat) :
    chronoParse e gmtoff k (37 :: 119 :: 37 :: 100 :: 37 :: 106 :: 125 :: r) = .ok ([37, 119, 37, 100, 37, 106], 125 :: r) := by
  cases k <;> simp [chronoParse, parseChrono, chronoLoop, chronoConversion, chronoSpecifier, checkHandler, Checker.call, ChronoCall.unimplemented, ChronoCall.checkedFields,
    Checker.field, TmKind.supports, SetterState.mark, SetterState.has, chronoFinish, SetterState.verify]

theorem formatOk_three {e : Enc} {x y z : Nat} {c d f : ChronoCall} (hx : (x, c) ∈ conversions) (hy : (y, d) ∈ conversions) (hz : (z, f) ∈ conversions) :
    FormatOk e [.conv [x] c, .conv [y] d, .conv [z] f] :=
  formatOk_noLit (by
    intro i hi
    simp only [List.mem_cons, List.not_mem_nil, or_false] at hi
    rcases hi with rfl | rfl | rfl
    · exact Or.inl ⟨x, rfl, hx⟩
    · exact Or.inl ⟨y, rfl, hy⟩
    · exact Or.inl ⟨z, rfl, hz⟩)
    (by intro i hi; simp only [List.mem_cons, List.not_mem_nil, or_false] at hi; rcases hi with rfl | rfl | rfl <;> rfl)

theorem custom_parts {cfg : ChronoCfg} {gmtoff : Bool} {k : TmKind} {set : TmSetter T} {t0 : T} {pos src p' : List Nat} {v : T × List Nat}
    (h : chronoCustom cfg gmtoff k set t0 pos src = (p', .ok v)) :
    ∃ fmt, chronoParse cfg.enc gmtoff k pos = .ok (fmt, p') ∧ chronoScan cfg set fmt t0 src = .ok v := by
  unfold chronoCustom at h
  split at h
  · cases h
  · cases h
  · rename_i fmt p hp
    cases h' : chronoScan cfg set fmt t0 src with
    | ok w => rw [h'] at h; cases h; exact ⟨fmt, hp, h'⟩
    | err e => rw [h'] at h; cases h
    | ub => rw [h'] at h; cases h

theorem check_fold_failed (gmtoff : Bool) (k : TmKind) : ∀ (fs : List ChronoField) (c : Checker), c.failed = true →
    (fs.foldl (fun c f => Checker.field gmtoff k f c) c).failed = true
  | [], _, h => h
  | _ :: fs, _, h => check_fold_failed gmtoff k fs _ (by simp [Checker.field, h])

theorem check_sticky (gmtoff : Bool) (k : TmKind) : Sticky (checkHandler gmtoff k) := by
  intro c x c' hc hx
  have hc' : c.failed = true := by simpa [checkHandler] using hc
  suffices hf : c'.failed = true by simp [checkHandler, hf]
  simp only [checkHandler, Checker.call] at hx
  split at hx
  · cases hx; rfl
  · cases hx
    split
    · exact hc'
    · rfl
  · split at hx
    · cases hx; rfl
    · cases hx; exact check_fold_failed gmtoff k _ _ hc'

/-- The format string kept by the scanner is the text up to the closing brace. -/
theorem chronoParse_text {e : Enc} {gmtoff : Bool} {k : TmKind} {is : List FmtItem} (hok : FormatOk e is) {r fmt p : List Nat}
    (h : chronoParse e gmtoff k (formatText is ++ 125 :: r) = .ok (fmt, p)) : fmt = formatText is ∧ p = 125 :: r := by
  obtain ⟨t, c, js, his⟩ := hok.1
  have hl : formatText is ++ 125 :: r = 37 :: (t ++ (formatText js ++ 125 :: r)) := by rw [his]; simp [formatText, FmtItem.text]
  have htake : (formatText is ++ 125 :: r).take ((formatText is ++ 125 :: r).length - (125 :: r).length) = formatText is := by
    rw [List.length_append, Nat.add_sub_cancel, List.take_left]
  unfold chronoParse at h
  rw [hl] at h
  dsimp only at h
  rw [if_neg (by decide), ← hl] at h
  split at h
  · cases h
  · rename_i chk p1 hparse
    split at h
    · cases h
    · rename_i hfail
      cases h
      obtain ⟨xs, hx, _⟩ := parse_success e (checkHandler gmtoff k) (check_sticky gmtoff k) hparse (by simpa [checkHandler] using hfail)
      have := (formatCalls_items hok (125 :: r) (Or.inr ⟨r, rfl⟩) hx).2
      subst this
      exact ⟨htake, rfl⟩


/-! ### Offsets from UTC -/

theorem digits_one {n hi : Nat} (h : n ≤ 9) : Digits 1 (hi + 1) n [48 + n] fun u => NoDigitFirst 10 u where
  digits c hc := by
    simp only [List.mem_cons, List.not_mem_nil, or_false] at hc
    subst hc
    exact (digit_48 h).2
  value := by
    unfold Spec.value
    simp only [List.foldl_cons, List.foldl_nil, (digit_48 h).1, Option.getD_some]
    omega
  low := Nat.le_refl 1
  high := Nat.succ_le_succ (Nat.zero_le hi)
  follow _ hr := Or.inr hr

theorem noDigit_colon (u : List Nat) : NoDigitFirst 10 ([58] ++ u) := by
  intro c hc hd
  cases hc
  obtain ⟨d, hd, _⟩ := hd
  revert hd
  simp [digit?]

/-- Some date and time with this offset from UTC. -/
def atOffset (west : Bool) (h m : Nat) : Civil := ⟨2000, 1, 1, 6, 1, 0, 0, 0, west, h, m⟩

theorem atOffset_valid (west : Bool) (h m : Nat) : (atOffset west h m).Valid := by
  constructor <;> simp [atOffset]

/-- The conversions for the offset from UTC: `%z`, `%Ez` and `%Oz`. -/
theorem formatOk_offset {e : Enc} {t : List Nat} {s : NumSys} (h : (t, s) ∈ [([122], NumSys.standard), ([69, 122], .altE), ([79, 122], .altO)]) :
    FormatOk e [.conv t (.tzOffset s)] := by
  refine formatOk_noLit ?_ ?_
  · intro i hi
    simp only [List.mem_cons, List.not_mem_nil, or_false, Prod.mk.injEq] at hi h
    subst hi
    rcases h with ⟨rfl, rfl⟩ | ⟨rfl, rfl⟩ | ⟨rfl, rfl⟩
    · exact Or.inl ⟨_, rfl, by decide⟩
    · exact Or.inr ⟨_, _, rfl, by decide⟩
    · exact Or.inr ⟨_, _, rfl, by decide⟩
  · intro i hi
    simp only [List.mem_cons, List.not_mem_nil, or_false] at hi
    subst hi; rfl

theorem sign_first (west : Bool) (t rest : List Nat) :
    ((((if west then [45] else [43]) ++ t) ++ rest).dropWhile isSpace = ((if west then [45] else [43]) ++ t) ++ rest) ∧ (((if west then [45] else [43]) ++ t) ++ rest) ≠ [] := by
  cases west
  · exact ⟨first_not_space (by decide), by simp⟩
  · exact ⟨first_not_space (by decide), by simp⟩

theorem seq_one {e : Enc} {c : Civil} {x : ChronoCall} {t rest : List Nat} {f : List Nat → Prop} (h : Shown e c x t f) (hf : f rest) : ShownSeq e c [x] t rest := by
  have := ShownSeq.cons x [] t [] f rest h (by simpa using hf) (.nil rest)
  simpa using this

/-- The offset alone, into `datetime_components` and into a `std::tm` with `tm_gmtoff`. -/
theorem offset_alone (cfg : ChronoCfg) (hl : GoodLayouts cfg.enc cfg.lay) {t : List Nat} {s : NumSys}
    (hts : (t, s) ∈ [([122], NumSys.standard), ([69, 122], .altE), ([79, 122], .altO)]) (west : Bool) (h m : Nat) {u ws rest : List Nat} {f : List Nat → Prop}
    (hu : Shown cfg.enc (atOffset west h m) (.tzOffset s) ((if west then [45] else [43]) ++ u) f) (hf : f rest)
    (hw : Spaces ws) (hr : ∀ c ∈ rest, IsScalar c) (t0 : DateTime) (t1 : Tm) (gmtoff : Bool) (r : List Nat) :
    chronoCustom cfg gmtoff .components dtSetter t0 (37 :: t ++ 125 :: r) (encodes cfg.enc (ws ++ (((if west then [45] else [43]) ++ u) ++ rest))) =
        (125 :: r, .ok ({ t0 with tzOffset := some ((if west then -1 else 1) * ((h : Int) * 60 + m)) }, encodes cfg.enc rest)) ∧
      chronoCustom cfg true .tm (tmSetter true) t1 (37 :: t ++ 125 :: r) (encodes cfg.enc (ws ++ (((if west then [45] else [43]) ++ u) ++ rest))) =
        (125 :: r, .ok ({ t1 with gmtoff := (if west then -1 else 1) * ((h : Int) * 60 + m) * 60 }, encodes cfg.enc rest)) := by
  have hsf := sign_first west u rest
  have hft : formatText [.conv t (.tzOffset s)] = 37 :: t := by simp [formatText, FmtItem.text]
  have hc : callsOf [.conv t (.tzOffset s)] = [.tzOffset s] := by simp [callsOf, FmtItem.call, expansion]
  have hfs : fieldsOf [.tzOffset s] = [.tzoff] := by simp [fieldsOf, fieldOf]
  have hoff : (atOffset west h m).offset = (if west then -1 else 1) * ((h : Int) * 60 + m) := by cases west <;> simp [Civil.offset, atOffset]
  constructor
  · have := chronoCustom_dt cfg hl gmtoff (atOffset west h m) (atOffset_valid west h m) [.conv t (.tzOffset s)] (formatOk_offset hts) (by rw [hc, hfs]; decide)
      (by rw [hc, hfs]; constructor <;> decide) (by rw [hc, hfs]; intro f hf; simp at hf; subst hf; exact ⟨by decide, by decide, fun h => absurd h (by decide)⟩) (by rw [hc]; exact seq_one hu hf) hw hsf.2 hsf.1 hr t0 r
    rw [hft, hc, hfs] at this
    rw [this, ← hoff]
    rfl
  · have := chronoCustom_tm cfg hl true (atOffset west h m) (atOffset_valid west h m) [.conv t (.tzOffset s)] (formatOk_offset hts) (by rw [hc, hfs]; decide)
      (by rw [hc, hfs]; constructor <;> decide) (fun _ => rfl) (by rw [hc]; exact seq_one hu hf) hw hsf.2 hsf.1 hr t1 r
    rw [hft, hc, hfs] at this
    rw [this, ← hoff]
    rfl

end Scn
