import Verif.Lemmas.Calendar2
import Verif.Props.Calendar2
/-
C72: a `std::tm` read directly, and one made of a `datetime_components`.
-/
namespace Scn
open Spec

/-! ### C72: two ways to a `std::tm` -/

/-- With a format that has no short year, century, day of the year or name of a time zone: on every source, well-formed or
    not, reading a `std::tm` succeeds if and only if reading a `datetime_components` and `to_tm` does, and the results are
    the same, and so is the rest of the source. Missing: short years, centuries and days of the year, for which it is false
    (`C72_violated`). -/
theorem C72_tm_partial (cfg : ChronoCfg) (gmtoff : Bool) (is : List FmtItem) (hfmt : FormatOk cfg.enc is) (hnd : (fieldsOf (callsOf is)).Nodup)
    (hF : Compatible (fieldsOf (callsOf is)))
    (hno : ∀ f ∈ fieldsOf (callsOf is), f ≠ .shortYear ∧ f ≠ .century ∧ f ≠ .yday ∧ f ≠ .tzname) (htz : .tzoff ∈ fieldsOf (callsOf is) → gmtoff = true)
    (r src p rest : List Nat) (t : Tm) :
    chronoCustom cfg gmtoff .tm (tmSetter gmtoff) {} (formatText is ++ 125 :: r) src = (p, .ok (t, rest)) ↔
      ∃ d, chronoCustom cfg gmtoff .components dtSetter {} (formatText is ++ 125 :: r) src = (p, .ok (d, rest)) ∧ t = d.toTm gmtoff := by
  have hname : .tzname ∉ fieldsOf (callsOf is) := fun h => (hno _ h).2.2.2 rfl
  have hstart : ({} : Tm) = ({} : DateTime).toTm gmtoff := by cases gmtoff <;> rfl
  unfold chronoCustom
  rw [chronoParse_ok cfg.enc gmtoff .tm is hfmt hnd hF (fun h => htz h) hname, chronoParse_ok cfg.enc gmtoff .components is hfmt hnd hF (fun _ => rfl) hname]
  dsimp only
  have hs := scan_step cfg gmtoff is hfmt hnd hno htz {} src t rest
  rw [← hstart] at hs
  constructor
  · intro h
    obtain ⟨rfl, h'⟩ := Prod.mk.inj h
    obtain ⟨d, hd, rfl⟩ := hs.1 h'
    exact ⟨d, by rw [hd], rfl⟩
  · rintro ⟨d, h, rfl⟩
    obtain ⟨rfl, h'⟩ := Prod.mk.inj h
    rw [hs.2 ⟨d, h', rfl⟩]

/-- `{:%d/%m/%Y}` -/
example (r src p rest : List Nat) (t : Tm) :
    chronoCustom exChrono false .tm (tmSetter false) {} (formatText exDate ++ 125 :: r) src = (p, .ok (t, rest)) ↔
      ∃ d, chronoCustom exChrono false .components dtSetter {} (formatText exDate ++ 125 :: r) src = (p, .ok (d, rest)) ∧ t = d.toTm false :=
  C72_tm_partial exChrono false exDate exDate_ok (by decide) (by constructor <;> decide) (by decide) (by decide) r src p rest t

/-- `{:%d/%m/%Y}` on `05/03/2024!` -/
example : ∃ d, chronoCustom exChrono false .components dtSetter {} (formatText exDate ++ [125]) [48, 53, 47, 48, 51, 47, 50, 48, 50, 52, 33] = ([125], .ok (d, [33])) ∧
    { mday := 5, mon := 2, year := 124 } = d.toTm false :=
  (C72_tm_partial exChrono false exDate exDate_ok (by decide) (by constructor <;> decide) (by decide) (by decide) [] _ _ _ _).1
    (chronoCustom_tm exChrono exChrono_good false exCivil exCivil_valid exDate exDate_ok (by decide) (by constructor <;> decide) (by decide) exDate_shown
      (ws := []) (by intro c hc; cases hc) (by decide) (by decide) (by decide) {} [])

/-- With `%y` the results differ for every short year but 00. -/
theorem C72_violated (cfg : ChronoCfg) (hl : GoodLayouts cfg.enc cfg.lay) (gmtoff : Bool) (n : Nat) (h1 : 1 ≤ n) (hn : n ≤ 99)
    (ws rest : List Nat) (hw : Spaces ws) (hr : ∀ c ∈ rest, IsScalar c) (r : List Nat) :
    ∃ t d, chronoCustom cfg gmtoff .tm (tmSetter gmtoff) {} (37 :: 121 :: 125 :: r) (encodes cfg.enc (ws ++ (pad2 n ++ rest))) =
        (125 :: r, .ok (t, encodes cfg.enc rest)) ∧
      chronoCustom cfg gmtoff .components dtSetter {} (37 :: 121 :: 125 :: r) (encodes cfg.enc (ws ++ (pad2 n ++ rest))) =
        (125 :: r, .ok (d, encodes cfg.enc rest)) ∧ t.year ≠ (d.toTm gmtoff).year := by
  refine ⟨_, _, C44_y cfg hl gmtoff n hn ws rest hw hr {} r, (C44_violated_components cfg hl gmtoff 0 n (by decide) hn ws rest hw hr {} r).1, ?_⟩
  show ((if n < 69 then 2000 + n else 1900 + n : Nat) : Int) - 1900 ≠ 2000 - 1900
  split <;> omega

/-- `{:%y}` on `24!` -/
example : ∃ t d, chronoCustom exChrono false .tm (tmSetter false) {} [37, 121, 125] [50, 52, 33] = ([125], .ok (t, [33])) ∧
    chronoCustom exChrono false .components dtSetter {} [37, 121, 125] [50, 52, 33] = ([125], .ok (d, [33])) ∧ t.year ≠ (d.toTm false).year :=
  C72_violated exChrono exChrono_good false 24 (by decide) (by decide) [] [33] (fun _ h => by cases h) (by intro c hc; simp at hc; subst hc; decide) []

end Scn
