import Verif.Lemmas.Modifiers
import Verif.Props.Chrono
/-
C89: without `L` the modifiers `E` and `O` make no difference: a conversion with a modifier reads what it reads without it.
-/
namespace Scn
open Spec

/-- For any format, any source, and all three types: whether the format is accepted and what is read, or the error, is the
    same without the modifiers; that of `%Ez` and `%Oz`, which has a meaning of its own, is left in place. Missing: `%OW`
    (`C89_violated_week`), and the conversions that no type supports without a modifier either. -/
theorem C89_modifiers_partial (cfg : ChronoCfg) (gmtoff : Bool) (is : List FmtItem) (hok : FormatOk cfg.enc is) (r src : List Nat) (t0 : Tm) (t1 : TmWithTz) (t2 : DateTime) :
    (chronoCustom cfg gmtoff .tm (tmSetter gmtoff) t0 (formatText is ++ 125 :: r) src).2 =
        (chronoCustom cfg gmtoff .tm (tmSetter gmtoff) t0 (formatText (is.map unmodified) ++ 125 :: r) src).2 ∧
      (chronoCustom cfg gmtoff .tmWithTz (tmTzSetter gmtoff) t1 (formatText is ++ 125 :: r) src).2 =
        (chronoCustom cfg gmtoff .tmWithTz (tmTzSetter gmtoff) t1 (formatText (is.map unmodified) ++ 125 :: r) src).2 ∧
      (chronoCustom cfg gmtoff .components dtSetter t2 (formatText is ++ 125 :: r) src).2 =
        (chronoCustom cfg gmtoff .components dtSetter t2 (formatText (is.map unmodified) ++ 125 :: r) src).2 :=
  ⟨custom_unmodified cfg gmtoff .tm (classic_tm cfg gmtoff) hok t0 r src, custom_unmodified cfg gmtoff .tmWithTz (classic_tmTz cfg gmtoff) hok t1 r src,
    custom_unmodified cfg gmtoff .components (classic_dt cfg) hok t2 r src⟩

/-- `{:%H:%OM}` and `{:%H:%M}` on `19:08!`. -/
example : formatText (exFormat.map unmodified) = [37, 72, 58, 37, 77] ∧
    (chronoCustom exChrono false .tm (tmSetter false) {} [37, 72, 58, 37, 79, 77, 125] [49, 57, 58, 48, 56, 33]).2 =
      (chronoCustom exChrono false .tm (tmSetter false) {} [37, 72, 58, 37, 77, 125] [49, 57, 58, 48, 56, 33]).2 :=
  ⟨rfl, (C89_modifiers_partial exChrono false exFormat exFormat_ok [] [49, 57, 58, 48, 56, 33] {} {} {}).1⟩

/-- `%OW` should be the number of the week, which is not supported: `%W` is rejected. It is accepted as the day of the week,
    and read as `%u` is; and `%Ou`, the day of the week, is rejected. -/
theorem C89_violated_week (cfg : ChronoCfg) (hl : GoodLayouts cfg.enc cfg.lay) (gmtoff : Bool) (d : Nat) (h7 : d ≤ 7) (ws rest : List Nat) (hw : Spaces ws)
    (hr : ∀ c ∈ rest, IsScalar c) (t0 : Tm) (t1 : DateTime) (src r : List Nat) :
    (chronoCustom cfg gmtoff .tm (tmSetter gmtoff) t0 (37 :: 87 :: 125 :: r) src).2 = .err .invalidFormatString ∧
      (chronoCustom cfg gmtoff .tm (tmSetter gmtoff) t0 (37 :: 79 :: 117 :: 125 :: r) src).2 = .err .invalidFormatString ∧
      chronoCustom cfg gmtoff .tm (tmSetter gmtoff) t0 (37 :: 79 :: 87 :: 125 :: r) (encodes cfg.enc (ws ++ ([48 + d] ++ rest))) =
        (125 :: r, .ok ({ t0 with wday := if d = 0 then 6 else (d : Int) - 1 }, encodes cfg.enc rest)) ∧
      chronoCustom cfg gmtoff .components dtSetter t1 (37 :: 79 :: 87 :: 125 :: r) (encodes cfg.enc (ws ++ ([48 + d] ++ rest))) =
        (125 :: r, .ok ({ t1 with wday := some (if d = 0 then 6 else (d : Int) - 1) }, encodes cfg.enc rest)) := by
  have hn : ¬ ((if d = 0 then 6 else (d : Int) - 1) < 0 ∨ (if d = 0 then 6 else (d : Int) - 1) > 6) := by split <;> omega
  have hp : ∀ k, chronoParse cfg.enc gmtoff k (37 :: 79 :: 87 :: 125 :: r) = .ok ([37, 79, 87], 125 :: r) := by
    intro k
    have h1 : parseChrono cfg.enc (checkHandler gmtoff k) {} (37 :: 79 :: 87 :: 125 :: r) = some ({ st := { set := [.wday] } }, 125 :: r) := by
      cases k <;> rfl
    unfold chronoParse
    dsimp only
    rw [if_neg (by decide), h1]
    dsimp only
    rw [if_neg (by decide), show (37 :: 79 :: 87 :: 125 :: r).length - (125 :: r).length = 3 by simp]
    rfl
  have hrej : ∀ fmt p c, parseChrono cfg.enc (checkHandler gmtoff .tm) {} (37 :: fmt) = some (c, p) → c.failed = true →
      (chronoCustom cfg gmtoff .tm (tmSetter gmtoff) t0 (37 :: fmt) src).2 = .err .invalidFormatString := by
    intro fmt p c h hc
    unfold chronoCustom chronoParse
    dsimp only
    rw [if_neg (by decide), h]
    dsimp only
    rw [if_pos hc]
  refine ⟨hrej _ (125 :: r) { failed := true } rfl rfl, hrej _ (125 :: r) { failed := true } rfl rfl, ?_, ?_⟩
  · unfold chronoCustom
    rw [hp]
    refine congrArg (Prod.mk (125 :: r)) ?_
    refine Eq.trans (scan_weekO cfg hl (tmSetter gmtoff) t0 hw (by omega) hr) ?_
    dsimp only [tmSetter, tmSetterOn, Rd.setField]
    simp only [if_neg hn]
    rfl
  · unfold chronoCustom
    rw [hp]
    refine congrArg (Prod.mk (125 :: r)) ?_
    refine Eq.trans (scan_weekO cfg hl dtSetter t1 hw (by omega) hr) ?_
    dsimp only [dtSetter, Rd.setField]
    simp only [if_neg hn]
    rfl

/-- `{:%OW}` on `46`, a week in November: Wednesday (3) is stored and the `6` is left. -/
example : chronoCustom exChrono false .tm (tmSetter false) {} [37, 79, 87, 125] [52, 54] = ([125], .ok ({ wday := 3 }, [54])) :=
  (C89_violated_week exChrono exChrono_good false 4 (by decide) [] [54] (fun _ h => by cases h) (by decide) {} {} [] []).2.2.1

end Scn
