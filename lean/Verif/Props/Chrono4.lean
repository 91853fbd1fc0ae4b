import Verif.Lemmas.Chrono16
import Verif.Props.Chrono3
/-
C69: scans of dates and times with checked formats are well-defined.
-/
namespace Scn
open Spec

/-! ### C69: no undefined behaviour -/

/-- Whatever the format of a `std::tm` is, localized or not, if it passes the check at `scanner::parse`, the scan is
    well-defined on every source. -/
theorem C69_tm (cfg : ChronoCfg) (hin : Inside cfg) (gmtoff : Bool) (t : Tm) (pos src : List Nat) (hu : UnitsOk cfg.enc src)
    (hp : chronoParse cfg.enc gmtoff .tm pos ≠ .ub) : (chronoCustom cfg gmtoff .tm (tmSetter gmtoff) t pos src).2 ≠ .ub := by
  unfold chronoCustom
  split
  · rename_i h; exact absurd h hp
  · simp
  · rename_i h; exact accepted_tm hin h hu t

/-- `{:%I:%M %p}` and `{:L%c}`, on anything -/
example (src : List Nat) (hu : UnitsOk .utf8 src) :
    (chronoCustom exChrono false .tm (tmSetter false) {} [37, 73, 58, 37, 77, 32, 37, 112, 125] src).2 ≠ .ub ∧
      (chronoCustom exChrono false .tm (tmSetter false) {} [76, 37, 99, 125] src).2 ≠ .ub :=
  have hin : Inside exChrono := ⟨fun _ _ _ _ h => (by cases h), fun _ _ _ _ h => (by cases h)⟩
  ⟨C69_tm exChrono hin false {} _ src hu (by decide), C69_tm exChrono hin false {} _ src hu (by decide)⟩

/-- The same for `tm_with_tz`. Missing: formats with `%Z`, for which it is false. -/
theorem C69_tm_with_tz_partial (cfg : ChronoCfg) (hin : Inside cfg) (gmtoff : Bool) (t : TmWithTz) (pos src : List Nat) (hu : UnitsOk cfg.enc src)
    (hz : ∀ fmt p, chronoParse cfg.enc gmtoff .tmWithTz pos = .ok (fmt, p) → ¬ [37, 90] <:+: fmt)
    (hp : chronoParse cfg.enc gmtoff .tmWithTz pos ≠ .ub) : (chronoCustom cfg gmtoff .tmWithTz (tmTzSetter gmtoff) t pos src).2 ≠ .ub := by
  unfold chronoCustom
  split
  · rename_i h; exact absurd h hp
  · simp
  · rename_i h; exact accepted_tmTz hin h (hz _ _ h) hu t

/-- `{:%Y%z}` -/
example (src : List Nat) (hu : UnitsOk .utf8 src) : (chronoCustom exChrono false .tmWithTz (tmTzSetter false) {} [37, 89, 37, 122, 125] src).2 ≠ .ub := by
  refine C69_tm_with_tz_partial exChrono ⟨fun _ _ _ _ h => (by cases h), fun _ _ _ _ h => (by cases h)⟩ false {} _ src hu (fun fmt p h => ?_) (by decide)
  have : chronoParse exChrono.enc false .tmWithTz [37, 89, 37, 122, 125] = .ok ([37, 89, 37, 122], [125]) := rfl
  rw [this] at h
  cases h
  decide

/-- The same for `datetime_components`. Missing: formats with `%Z`, for which it is false, and with `%.S`, where the
    fraction may be rounded to 1. -/
theorem C69_components_partial (cfg : ChronoCfg) (hin : Inside cfg) (gmtoff : Bool) (t : DateTime) (pos src : List Nat) (hu : UnitsOk cfg.enc src)
    (hz : ∀ fmt p, chronoParse cfg.enc gmtoff .components pos = .ok (fmt, p) → ¬ [37, 90] <:+: fmt ∧ ¬ [37, 46] <:+: fmt)
    (hp : chronoParse cfg.enc gmtoff .components pos ≠ .ub) : (chronoCustom cfg gmtoff .components dtSetter t pos src).2 ≠ .ub := by
  unfold chronoCustom
  split
  · rename_i h; exact absurd h hp
  · simp
  · rename_i h; exact accepted_dt hin h (hz _ _ h).1 (hz _ _ h).2 hu t

/-- `{:%y %I}` -/
example (src : List Nat) (hu : UnitsOk .utf8 src) : (chronoCustom exChrono false .components dtSetter {} [37, 121, 32, 37, 73, 125] src).2 ≠ .ub := by
  refine C69_components_partial exChrono ⟨fun _ _ _ _ h => (by cases h), fun _ _ _ _ h => (by cases h)⟩ false {} _ src hu (fun fmt p h => ?_) (by decide)
  have : chronoParse exChrono.enc false .components [37, 121, 32, 37, 73, 125] = .ok ([37, 121, 32, 37, 73], [125]) := rfl
  rw [this] at h
  cases h
  decide

/-- With a format that is well-formed text ending in a character of one code unit, as `…}` is, nothing is assumed of the
    check. -/
theorem C69_text_tm (cfg : ChronoCfg) (hin : Inside cfg) (gmtoff : Bool) (t : Tm) (cps src : List Nat) (hu : UnitsOk cfg.enc src)
    (hs : ∀ c ∈ cps, IsScalar c) (hlast : ∀ c, cps.getLast? = some c → (encode cfg.enc c).length = 1) :
    (chronoCustom cfg gmtoff .tm (tmSetter gmtoff) t (encodes cfg.enc cps) src).2 ≠ .ub :=
  C69_tm cfg hin gmtoff t _ src hu (C56_check_partial cfg.enc gmtoff .tm cps hs hlast).1

/-- `{:%Y年%m}` -/
example (src : List Nat) (hu : UnitsOk .utf8 src) :
    (chronoCustom exChrono false .tm (tmSetter false) {} (encodes .utf8 [37, 89, 0x5E74, 37, 109, 125]) src).2 ≠ .ub :=
  C69_text_tm exChrono ⟨fun _ _ _ _ h => (by cases h), fun _ _ _ _ h => (by cases h)⟩ false {} _ src hu (by decide) (by decide)

/-- `{:%Z}` passes the check, and is undefined on every text that has no name of a time zone where one is expected: the
    error is recorded, and then the value that is not there is used. -/
theorem C69_violated (cfg : ChronoCfg) (hl : GoodLayouts cfg.enc cfg.lay) (gmtoff : Bool) (t : TmWithTz) (d : DateTime) (ws u r : List Nat) (e : Err) (hw : Spaces ws)
    (hne : u ≠ []) (hfirst : u.dropWhile isSpace = u) (hs : ∀ c ∈ u, IsScalar c)
    (hname : cfg.scanSet ("[a-zA-Z0-9-+_/]".toList.map Char.toNat) (encodes cfg.enc u) = .err e) :
    chronoCustom cfg gmtoff .tmWithTz (tmTzSetter gmtoff) t (37 :: 90 :: 125 :: r) (encodes cfg.enc (ws ++ u)) = (125 :: r, .ub) ∧
      chronoCustom cfg gmtoff .components dtSetter d (37 :: 90 :: 125 :: r) (encodes cfg.enc (ws ++ u)) = (125 :: r, .ub) := by
  have hname' : cfg.scanSet [91, 97, 45, 122, 65, 45, 90, 48, 45, 57, 45, 43, 95, 47, 93] (encodes cfg.enc u) = .err e := hname
  have hz : (90, ChronoCall.tzName) ∈ conversions := by decide
  have hp : ∀ k : TmKind, k.supports gmtoff .tzname = true → chronoParse cfg.enc gmtoff k (37 :: 90 :: 125 :: r) = .ok ([37, 90], 125 :: r) := by
    intro k hk
    have htake : (37 :: 90 :: 125 :: r).take ((37 :: 90 :: 125 :: r).length - (125 :: r).length) = [37, 90] := by
      have : (37 :: 90 :: 125 :: r) = [37, 90] ++ 125 :: r := rfl
      rw [this, List.length_append, Nat.add_sub_cancel, List.take_left]
    have hc : parseChrono cfg.enc (checkHandler gmtoff k) {} (37 :: 90 :: 125 :: r) = some ({ st := { set := [.tzname] } }, 125 :: r) := by
      cases k
      · cases hk
      · rfl
      · rfl
    unfold chronoParse
    dsimp only
    rw [if_neg (by decide), hc]
    dsimp only
    rw [if_neg (by decide), htake]
  have hsc : ∀ {T : Type} (set : TmSetter T) (t0 : T), chronoScan cfg set [37, 90] t0 (encodes cfg.enc (ws ++ u)) = .ub := by
    intro T set t0
    have hcall : (readHandler cfg set).call ⟨encodes cfg.enc u, encodes cfg.enc u, t0, {}, none⟩ .tzName = none := by
      show Rd.onTzName _ _ _ = none
      unfold Rd.onTzName
      rw [hname']
    rw [chronoScan_at cfg hl set [37, 90] t0 hw hne hfirst hs, parse_one _ _ _ hz, hcall]
    rfl
  unfold chronoCustom
  rw [hp _ rfl, hp _ rfl]
  dsimp only
  rw [hsc, hsc]
  exact ⟨rfl, rfl⟩

/-- `{:%Z}` on `!`, with the scan of the name as it is in the code -/
example : chronoCustom { exChrono with scanSet := scanSetStd .utf8 .utf32 ⟨true, true, true⟩ ⟨44, 46, [], [], fun _ _ _ _ => .bad⟩ fun _ => .contiguous } false .tmWithTz (tmTzSetter false) {}
    [37, 90, 125] [33] = ([125], .ub) :=
  (C69_violated _ (goodLayouts_contiguous _) false {} {} [] [33] [] .invalidScannedValue (by intro c hc; cases hc) (by decide) (by decide) (by decide)
    (by decide +kernel)).1

end Scn
