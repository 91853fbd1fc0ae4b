import Verif.Lemmas.Chrono13
import Verif.Spec.Numbers
/-
Numbers in dates and times that are out of range or too short.
-/
namespace Scn
open Spec
variable {T : Type}

/-- A conversion that fails at the begin of a format. -/
theorem parse_first_err {σ : Type} (e : Enc) (h : ChronoHandler σ) (st st' : σ) {x : Nat} {c : ChronoCall} (hx : (x, c) ∈ conversions) (fmt : List Nat)
    (hc : h.call st c = some st') (hk : h.ok st' = false) : parseChrono e h st (37 :: x :: fmt) = some (st', fmt) := by
  have hx' : ∀ r, chronoConversion (x :: r) = (some c, r) := fun r => conversion_ok e (t := [x]) (Or.inl ⟨x, rfl, hx⟩) r
  show chronoLoop e h _ st [] (37 :: x :: fmt) = _
  rw [chronoLoop, if_neg (by decide), if_neg (by decide), if_pos rfl, hx']
  simp only [Option.bind_some, hc, hk, Bool.false_eq_true, if_false]

/-- A scan whose first conversion fails. -/
theorem scan_first_err (cfg : ChronoCfg) (hl : GoodLayouts cfg.enc cfg.lay) (set : TmSetter T) (t0 : T) {ws u : List Nat} (hw : Spaces ws) (hne : u ≠ [])
    (hfirst : u.dropWhile isSpace = u) (hs : ∀ c ∈ u, IsScalar c) {x : Nat} {c : ChronoCall} (hx : (x, c) ∈ conversions) (fmt : List Nat) {er : Err} {r : Rd T}
    (hc : (readHandler cfg set).call ⟨encodes cfg.enc u, encodes cfg.enc u, t0, {}, none⟩ c = some r) (he : r.err = some er) :
    chronoScan cfg set (37 :: x :: fmt) t0 (encodes cfg.enc (ws ++ u)) = .err er := by
  rw [chronoScan_at cfg hl set _ t0 hw hne hfirst hs, parse_first_err _ _ _ r hx fmt hc (by simp [readHandler, he])]
  simp [scanEnd, scanResult, he]

/-- Setters that reject what is out of range. -/
structure Rejects (set : TmSetter T) : Prop where
  sec : ∀ r : Rd T, ∀ v, r.err = none → (v < 0 ∨ 60 < v) → (set.sec r v).err = some .invalidScannedValue
  min : ∀ r : Rd T, ∀ v, r.err = none → (v < 0 ∨ 59 < v) → (set.min r v).err = some .invalidScannedValue
  hour24 : ∀ r : Rd T, ∀ v, r.err = none → (v < 0 ∨ 23 < v) → (set.hour24 r v).err = some .invalidScannedValue
  hour12 : ∀ r : Rd T, ∀ v, r.err = none → (v < 1 ∨ 12 < v) → (set.hour12 r v).err = some .invalidScannedValue
  mday : ∀ r : Rd T, ∀ v, r.err = none → (v < 1 ∨ 31 < v) → (set.mday r v).err = some .invalidScannedValue
  mon : ∀ r : Rd T, ∀ v, r.err = none → (v < 1 ∨ 12 < v) → (set.mon r v).err = some .invalidScannedValue
  wday : ∀ r : Rd T, ∀ v, r.err = none → (v < 0 ∨ 6 < v) → (set.wday r v).err = some .invalidScannedValue
  yday : ∀ r : Rd T, ∀ v, r.err = none → (v < 0 ∨ 365 < v) → (set.yday r v).err = some .invalidScannedValue

theorem setField_rejects {r : Rd T} (h : r.err = none) (f : ChronoField) {lo hi v : Int} (hv : v < lo ∨ hi < v) (upd : T → T) :
    (r.setField f lo hi v upd).err = some .invalidScannedValue := by
  unfold Rd.setField
  rw [if_pos (by omega)]
  simp [Rd.setError, h]

theorem rejects_tmOn (gmtoff : Bool) (get : T → Tm) (upd : (Tm → Tm) → T → T) : Rejects (tmSetterOn gmtoff get upd) := by
  constructor <;> intro r v h hv <;> exact setField_rejects h _ hv _

theorem rejects_tmTz (gmtoff : Bool) : Rejects (tmTzSetter gmtoff) := by
  constructor <;> intro r v h hv <;> exact setField_rejects h _ hv _

theorem rejects_dt : Rejects dtSetter := by
  constructor <;> intro r v h hv <;> exact setField_rejects h _ (by omega) _

theorem scan_out_of_range (cfg : ChronoCfg) (hl : GoodLayouts cfg.enc cfg.lay) (set : TmSetter T) (hset : Rejects set) (t0 : T)
    {x n lo hi v : Nat} (hx : (x, n, lo, hi) ∈ numberRanges) {ws t rest : List Nat} (ht : Digits 1 n v t fun u => u = rest) (hv : v < lo ∨ hi < v)
    (hw : Spaces ws) (hr : ∀ c ∈ rest, IsScalar c) (fmt : List Nat) :
    chronoScan cfg set (37 :: x :: fmt) t0 (encodes cfg.enc (ws ++ (t ++ rest))) = .err .invalidScannedValue := by
  have hf := digits_first ht (by decide) rest
  have hs := scalar_append (digits_scalar ht) hr
  simp only [numberRanges, List.mem_cons, Prod.mk.injEq, List.not_mem_nil, or_false] at hx
  rcases hx with h | h | h | h | h | h | h | h | h <;> obtain ⟨rfl, rfl, rfl, rfl⟩ := h
  · refine scan_first_err cfg hl set t0 hw hf.2 hf.1 hs (c := .dayOfMonth .standard) (by decide) fmt
      (congrArg some (numberOr_digits ht cfg cfg.enc _ _ _ _ rest hr rfl _ _ rfl rfl)) (hset.mday _ _ rfl (by dsimp only [id]; omega))
  · refine scan_first_err cfg hl set t0 hw hf.2 hf.1 hs (c := .dayOfMonth .standard) (by decide) fmt
      (congrArg some (numberOr_digits ht cfg cfg.enc _ _ _ _ rest hr rfl _ _ rfl rfl)) (hset.mday _ _ rfl (by dsimp only [id]; omega))
  · refine scan_first_err cfg hl set t0 hw hf.2 hf.1 hs (c := .decMonth .standard) (by decide) fmt
      (congrArg some (numberOr_digits ht cfg cfg.enc _ _ _ _ rest hr rfl _ _ rfl rfl)) (hset.mon _ _ rfl (by dsimp only [id]; omega))
  · refine scan_first_err cfg hl set t0 hw hf.2 hf.1 hs (c := .dayOfYear) (by decide) fmt
      (congrArg some (number_digits ht cfg.enc rest hr rfl _ _ rfl)) (hset.yday _ _ rfl (by omega))
  · refine scan_first_err cfg hl set t0 hw hf.2 hf.1 hs (c := .dec0Weekday .standard) (by decide) fmt
      (congrArg some (numberOr_digits ht cfg cfg.enc _ _ _ _ rest hr rfl _ _ rfl rfl)) (hset.wday _ _ rfl (by dsimp only [id]; omega))
  · refine scan_first_err cfg hl set t0 hw hf.2 hf.1 hs (c := .hour24 .standard) (by decide) fmt
      (congrArg some (numberOr_digits ht cfg cfg.enc _ _ _ _ rest hr rfl _ _ rfl rfl)) (hset.hour24 _ _ rfl (by dsimp only [id]; omega))
  · refine scan_first_err cfg hl set t0 hw hf.2 hf.1 hs (c := .hour12 .standard) (by decide) fmt
      (congrArg some (numberOr_digits ht cfg cfg.enc _ _ _ _ rest hr rfl _ _ rfl rfl)) (hset.hour12 _ _ rfl (by dsimp only [id]; omega))
  · refine scan_first_err cfg hl set t0 hw hf.2 hf.1 hs (c := .minute .standard) (by decide) fmt
      (congrArg some (numberOr_digits ht cfg cfg.enc _ _ _ _ rest hr rfl _ _ rfl rfl)) (hset.min _ _ rfl (by dsimp only [id]; omega))
  · refine scan_first_err cfg hl set t0 hw hf.2 hf.1 hs (c := .second .standard) (by decide) fmt
      (congrArg some (numberOr_digits ht cfg cfg.enc _ _ _ _ rest hr rfl _ _ rfl rfl)) (hset.sec _ _ rfl (by dsimp only [id]; omega))

/-! ### Too few digits -/

/-- Setters that keep an error. -/
structure KeepsErr (set : TmSetter T) : Prop where
  sec : ∀ r : Rd T, ∀ v e, r.err = some e → (set.sec r v).err = some e
  min : ∀ r : Rd T, ∀ v e, r.err = some e → (set.min r v).err = some e
  hour24 : ∀ r : Rd T, ∀ v e, r.err = some e → (set.hour24 r v).err = some e
  hour12 : ∀ r : Rd T, ∀ v e, r.err = some e → (set.hour12 r v).err = some e
  mday : ∀ r : Rd T, ∀ v e, r.err = some e → (set.mday r v).err = some e
  mon : ∀ r : Rd T, ∀ v e, r.err = some e → (set.mon r v).err = some e
  wday : ∀ r : Rd T, ∀ v e, r.err = some e → (set.wday r v).err = some e
  yday : ∀ r : Rd T, ∀ v e, r.err = some e → (set.yday r v).err = some e
  fullYear : ∀ r : Rd T, ∀ v e, r.err = some e → (set.fullYear r v).err = some e
  century : ∀ r : Rd T, ∀ v e, r.err = some e → (set.century r v).err = some e
  shortYear : ∀ r : Rd T, ∀ v e, r.err = some e → (set.shortYear r v).err = some e

theorem setError_keeps {r : Rd T} {e e' : Err} (h : r.err = some e) : (r.setError e').err = some e := by
  simp [Rd.setError, h]

theorem mark_keeps {r : Rd T} {e : Err} (h : r.err = some e) (f : ChronoField) : (r.mark f).err = some e := by
  unfold Rd.mark
  split
  · exact setError_keeps h
  · exact h

theorem setField_keeps {r : Rd T} {e : Err} (h : r.err = some e) (f : ChronoField) (lo hi v : Int) (upd : T → T) : (r.setField f lo hi v upd).err = some e := by
  unfold Rd.setField
  split
  · exact setError_keeps h
  · exact mark_keeps (r := { r with tm := upd r.tm }) h f

theorem keepsErr_tmOn (gmtoff : Bool) (get : T → Tm) (upd : (Tm → Tm) → T → T) : KeepsErr (tmSetterOn gmtoff get upd) where
  sec _ _ _ h := setField_keeps h ..
  min _ _ _ h := setField_keeps h ..
  hour24 _ _ _ h := setField_keeps h ..
  hour12 _ _ _ h := setField_keeps h ..
  mday _ _ _ h := setField_keeps h ..
  mon _ _ _ h := setField_keeps h ..
  wday _ _ _ h := setField_keeps h ..
  yday _ _ _ h := setField_keeps h ..
  fullYear r v e h := by
    dsimp only [tmSetterOn]
    split
    · exact setError_keeps h
    · apply mark_keeps; exact h
  century r v e h := by apply mark_keeps; exact h
  shortYear r v e h := by
    dsimp only [tmSetterOn]
    split
    · exact setError_keeps h
    · apply mark_keeps; exact h

theorem keepsErr_tmTz (gmtoff : Bool) : KeepsErr (tmTzSetter gmtoff) :=
  let b := keepsErr_tmOn gmtoff (fun t : TmWithTz => t.tm) (fun f t => { t with tm := f t.tm })
  ⟨b.sec, b.min, b.hour24, b.hour12, b.mday, b.mon, b.wday, b.yday, b.fullYear, b.century, b.shortYear⟩

theorem keepsErr_dt : KeepsErr dtSetter where
  sec _ _ _ h := setField_keeps h ..
  min _ _ _ h := setField_keeps h ..
  hour24 _ _ _ h := setField_keeps h ..
  hour12 _ _ _ h := setField_keeps h ..
  mday _ _ _ h := setField_keeps h ..
  mon _ _ _ h := setField_keeps h ..
  wday _ _ _ h := setField_keeps h ..
  yday _ _ _ h := setField_keeps h ..
  fullYear r v e h := by apply mark_keeps; exact h
  century r v e h := by apply mark_keeps; exact h
  shortYear r v e h := by apply mark_keeps; exact h

/-- Fewer digits than needed. -/
theorem readUInt_few {lo hi : Nat} {t rest : List Nat} (ht : ∀ c ∈ t, IsDigit 10 c) (hlo : t.length < lo) (hhi : lo ≤ hi) (hn : NoDigitFirst 10 rest)
    (hs : ∀ c ∈ rest, IsScalar c) (e : Enc) (r : Rd T) (hr : r.pos = encodes e (t ++ rest)) (hne : r.err = none) :
    (r.readUInt lo hi).2.err = some .invalidScannedValue := by
  have hte : encodes e t = t := encodes_asciis e t fun c hc => by have := isDigit10.1 (ht c hc); omega
  have hd := readTmDigits_numeral hi 0 0 t (encodes e rest) ht (by omega) (Or.inr (noDigitFirst_encodes e 10 rest hs hn))
  unfold Rd.readUInt
  rw [hr, encodes_append, hte, hd]
  dsimp only
  rw [if_pos (by omega)]
  simp [Rd.setError, hne]

theorem numberOr_few {lo hi : Nat} {t rest : List Nat} (ht : ∀ c ∈ t, IsDigit 10 c) (hlo : t.length < lo) (hhi : lo ≤ hi) (hn : NoDigitFirst 10 rest)
    (hs : ∀ c ∈ rest, IsScalar c) (cfg : ChronoCfg) (e : Enc) (s : NumSys) (fmt : List Nat) (ft : Tm → Int) (conv : Int → Int)
    {set : Rd T → Int → Rd T} (hset : ∀ r v e, r.err = some e → (set r v).err = some e) (r : Rd T) (hr : r.pos = encodes e (t ++ rest)) (hne : r.err = none)
    (hl : r.st.localized = false) : (r.numberOr cfg s fmt ft conv lo hi set).err = some .invalidScannedValue := by
  unfold Rd.numberOr
  rw [if_neg (by simp [Rd.useLocale, hl])]
  unfold Rd.number
  exact hset _ _ _ (readUInt_few ht hlo hhi hn hs e r hr hne)

theorem scan_few_digits (cfg : ChronoCfg) (hl : GoodLayouts cfg.enc cfg.lay) (set : TmSetter T) (hset : KeepsErr set) (t0 : T)
    {x n : Nat} (hx : (x, n) ∈ numberDigits) {ws t rest : List Nat} (ht : ∀ c ∈ t, IsDigit 10 c) (hlt : t.length < n) (hn : NoDigitFirst 10 rest)
    (hw : Spaces ws) (hne : t ++ rest ≠ []) (hfirst : (t ++ rest).dropWhile isSpace = t ++ rest) (hr : ∀ c ∈ rest, IsScalar c) (fmt : List Nat) :
    chronoScan cfg set (37 :: x :: fmt) t0 (encodes cfg.enc (ws ++ (t ++ rest))) = .err .invalidScannedValue := by
  have hs := scalar_append (a := t) (fun c hc => ascii_scalar (by have := isDigit10.1 (ht c hc); omega)) hr
  simp only [numberDigits, List.mem_cons, Prod.mk.injEq, List.not_mem_nil, or_false] at hx
  have fin : ∀ {x : Nat} {c : ChronoCall}, (x, c) ∈ conversions → ∀ r, (readHandler cfg set).call ⟨encodes cfg.enc (t ++ rest), encodes cfg.enc (t ++ rest), t0, {}, none⟩ c = some r →
      r.err = some .invalidScannedValue → chronoScan cfg set (37 :: x :: fmt) t0 (encodes cfg.enc (ws ++ (t ++ rest))) = .err .invalidScannedValue :=
    fun hx r hc he => scan_first_err cfg hl set t0 hw hne hfirst hs hx fmt hc he
  rcases hx with h | h | h | h | h | h | h | h | h | h | h | h | h <;> obtain ⟨rfl, rfl⟩ := h
  · exact fin (c := .fullYear .standard) (by decide) _ rfl (numberOr_few ht hlt (by decide) hn hr cfg cfg.enc _ _ _ _ hset.fullYear _ rfl rfl rfl)
  · exact fin (c := .shortYear .standard) (by decide) _ rfl (numberOr_few ht hlt (by decide) hn hr cfg cfg.enc _ _ _ _ hset.shortYear _ rfl rfl rfl)
  · exact fin (c := .century .standard) (by decide) _ rfl (numberOr_few ht hlt (by decide) hn hr cfg cfg.enc _ _ _ _ hset.century _ rfl rfl rfl)
  · exact fin (c := .dayOfMonth .standard) (by decide) _ rfl (numberOr_few ht hlt (by decide) hn hr cfg cfg.enc _ _ _ _ hset.mday _ rfl rfl rfl)
  · exact fin (c := .dayOfMonth .standard) (by decide) _ rfl (numberOr_few ht hlt (by decide) hn hr cfg cfg.enc _ _ _ _ hset.mday _ rfl rfl rfl)
  · exact fin (c := .decMonth .standard) (by decide) _ rfl (numberOr_few ht hlt (by decide) hn hr cfg cfg.enc _ _ _ _ hset.mon _ rfl rfl rfl)
  · exact fin (c := .dayOfYear) (by decide) _ rfl (hset.yday _ _ _ (readUInt_few ht hlt (by decide) hn hr cfg.enc _ rfl rfl))
  · exact fin (c := .dec0Weekday .standard) (by decide) _ rfl (numberOr_few ht hlt (by decide) hn hr cfg cfg.enc _ _ _ _ hset.wday _ rfl rfl rfl)
  · exact fin (c := .dec1Weekday .standard) (by decide) _ rfl (numberOr_few ht hlt (by decide) hn hr cfg cfg.enc _ _ _ _ hset.wday _ rfl rfl rfl)
  · exact fin (c := .hour24 .standard) (by decide) _ rfl (numberOr_few ht hlt (by decide) hn hr cfg cfg.enc _ _ _ _ hset.hour24 _ rfl rfl rfl)
  · exact fin (c := .hour12 .standard) (by decide) _ rfl (numberOr_few ht hlt (by decide) hn hr cfg cfg.enc _ _ _ _ hset.hour12 _ rfl rfl rfl)
  · exact fin (c := .minute .standard) (by decide) _ rfl (numberOr_few ht hlt (by decide) hn hr cfg cfg.enc _ _ _ _ hset.min _ rfl rfl rfl)
  · exact fin (c := .second .standard) (by decide) _ rfl (numberOr_few ht hlt (by decide) hn hr cfg cfg.enc _ _ _ _ hset.sec _ rfl rfl rfl)

end Scn
