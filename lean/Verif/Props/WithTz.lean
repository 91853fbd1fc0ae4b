import Verif.Lemmas.WithTz
import Verif.Props.Chrono
/-
C90: a `tm_with_tz` holds what a `std::tm` would hold, and the time zone.
-/
namespace Scn
open Spec

/-- A format that is accepted for a `std::tm` is accepted for a `tm_with_tz`, and one that is accepted for a `tm_with_tz`
    is accepted for `datetime_components`, on all platforms and with the same text. -/
theorem C90_accepted (e : Enc) (gmtoff gmtoff' : Bool) (pos : List Nat) (v : List Nat × List Nat) :
    (chronoParse e gmtoff .tm pos = .ok v → chronoParse e gmtoff' .tmWithTz pos = .ok v) ∧
      (chronoParse e gmtoff .tmWithTz pos = .ok v → chronoParse e gmtoff' .components pos = .ok v) :=
  ⟨fun h => accepted_along (fun f hf => by cases f <;> first | rfl | cases hf) h, fun h => accepted_along (fun f hf => by cases f <;> first | rfl | cases hf) h⟩

example : chronoParse .utf8 false .components [37, 72, 37, 122, 125] = .ok ([37, 72, 37, 122], [125]) :=
  (C90_accepted .utf8 true false _ _).2 ((C90_accepted .utf8 true true _ _).1 rfl)

/-- With a format that is accepted for a `std::tm`, a `tm_with_tz` is read from any source exactly as a `std::tm` is: the
    same outcome, the same fields, the same position; in every locale. -/
theorem C90_same (cfg : ChronoCfg) (gmtoff : Bool) (pos : List Nat) (v : List Nat × List Nat) (hacc : chronoParse cfg.enc gmtoff .tm pos = .ok v)
    (t : TmWithTz) (src : List Nat) :
    chronoCustom cfg gmtoff .tm (tmSetter gmtoff) t.tm pos src =
      ((chronoCustom cfg gmtoff .tmWithTz (tmTzSetter gmtoff) t pos src).1,
        (chronoCustom cfg gmtoff .tmWithTz (tmTzSetter gmtoff) t pos src).2.map fun w => (w.1.tm, w.2)) := by
  obtain ⟨fmt, p⟩ := v
  obtain ⟨xs, hx, hn, hz⟩ := accepted_zone hacc
  unfold chronoCustom
  rw [hacc, (C90_accepted cfg.enc gmtoff gmtoff pos _).1 hacc]
  refine Prod.ext rfl ?_
  dsimp only
  refine part_scan (along_base gmtoff) cfg hx (fun x hm => ⟨fun h => absurd (h ▸ hm) (hn rfl), fun s h r w => ?_⟩) t src
  cases gmtoff with
  | true => rfl
  | false => exact absurd (h ▸ hm) (hz rfl s)

example : chronoCustom exChrono true .tm (tmSetter true) {} [37, 122, 125] [43, 48, 53, 51, 48] = ([125], .ok ({ gmtoff := 19800 }, [])) :=
  (C90_same exChrono true [37, 122, 125] _ rfl {} _).trans (by decide +kernel)

/-- With such a format the name of the time zone is left alone; the offset too, where a `std::tm` has none. -/
theorem C90_zone_kept (cfg : ChronoCfg) (gmtoff : Bool) (pos : List Nat) (v : List Nat × List Nat) (hacc : chronoParse cfg.enc gmtoff .tm pos = .ok v)
    (t t' : TmWithTz) (src rest : List Nat) (p : List Nat)
    (h : chronoCustom cfg gmtoff .tmWithTz (tmTzSetter gmtoff) t pos src = (p, .ok (t', rest))) :
    t'.tzName = t.tzName ∧ (gmtoff = false → t'.tzOffset = t.tzOffset ∧ t'.tm.gmtoff = t.tm.gmtoff) := by
  obtain ⟨fmt, q⟩ := v
  obtain ⟨xs, hx, hn, hz⟩ := accepted_zone hacc
  unfold chronoCustom at h
  rw [(C90_accepted cfg.enc gmtoff gmtoff pos _).1 hacc] at h
  have h := (Prod.mk.inj h).2
  have key : ∀ z : Int × Option Int × Option (List Nat) → Int × Option Int × Option (List Nat), TmWithTz.rezone z t = t →
      (gmtoff = true → SetAlong (TmWithTz.rezone z) (tmTzSetter gmtoff).tzOffset (tmTzSetter gmtoff).tzOffset) → TmWithTz.rezone z t' = t' := by
    intro z ht hs
    have := part_scan (along_rezone gmtoff gmtoff z) cfg hx (fun x hm => ⟨fun h => absurd (h ▸ hm) (hn rfl), fun s hxs => by
      cases hg : gmtoff with
      | true => subst hg; exact hs rfl
      | false => exact absurd (hxs ▸ hm) (hz hg s)⟩) t src
    rw [ht, h] at this
    injection this with this
    exact (Prod.mk.inj this).1.symm
  refine ⟨?_, ?_⟩
  · have := key (fun z => (z.1, z.2.1, t.tzName)) rfl fun hg => by subst hg; intro r w; rfl
    rw [← this]
    rfl
  · intro hg
    have := key (fun z => (t.tm.gmtoff, t.tzOffset, z.2.2)) rfl fun h => by rw [hg] at h; cases h
    rw [← this]
    exact ⟨rfl, rfl⟩

example : ((chronoCustom exChrono true .tmWithTz (tmTzSetter true) { tzName := some [66] } [37, 72, 125] [55]).2).map (fun w => w.1.tzName) = .ok (some [66]) := by
  decide +kernel

/-- Where there is a `tm_gmtoff`, it always agrees with the offset: whatever the format and the source, after a successful
    scan into a `tm_with_tz` in which the two agreed they agree. -/
theorem C90_offsets_agree (cfg : ChronoCfg) (pos : List Nat) (t t' : TmWithTz) (src rest p : List Nat)
    (ht : ∀ o, t.tzOffset = some o → t.tm.gmtoff = o * 60)
    (h : chronoCustom cfg true .tmWithTz (tmTzSetter true) t pos src = (p, .ok (t', rest))) :
    ∀ o, t'.tzOffset = some o → t'.tm.gmtoff = o * 60 := by
  unfold chronoCustom at h
  cases hacc : chronoParse cfg.enc true .tmWithTz pos with
  | ub => rw [hacc] at h; cases h
  | err e => rw [hacc] at h; cases h
  | ok v =>
    rw [hacc] at h
    have h := (Prod.mk.inj h).2
    obtain ⟨xs, hx, _, _⟩ := accepted_zone hacc
    let z : Int × Option Int × Option (List Nat) → Int × Option Int × Option (List Nat) := fun z => ((z.2.1.map (· * 60)).getD z.1, z.2)
    have fixed : ∀ t : TmWithTz, (∀ o, t.tzOffset = some o → t.tm.gmtoff = o * 60) → TmWithTz.rezone z t = t := by
      intro t ht
      obtain ⟨tm, o, n⟩ := t
      cases o with
      | none => rfl
      | some o =>
        have := ht o rfl
        dsimp only at this
        unfold TmWithTz.rezone
        dsimp only [z, Option.map_some, Option.getD_some]
        rw [← this]
    have := part_scan (along_rezone true true z) cfg hx (fun x _ => ⟨fun _ r w => part_mark _ _ _, fun _ _ r w => rfl⟩) t src
    rw [fixed t ht, h] at this
    injection this with this
    have this := (Prod.mk.inj this).1
    intro o ho
    rw [this]
    show ((t'.tzOffset.map (· * 60)).getD t'.tm.gmtoff) = o * 60
    rw [ho]
    rfl

example : ((chronoCustom exChrono true .tmWithTz (tmTzSetter true) {} [37, 122, 37, 72, 125] [45, 48, 51, 51, 48, 55]).2).map (fun w => (w.1.tm.gmtoff, w.1.tzOffset)) =
    .ok (-12600, some (-210)) := by decide +kernel

/-- A date and time written with a format is read back with that format into a `tm_with_tz`: exactly the fields of the
    format are set, to the values that were written, and exactly the text is consumed. The offset is set on all platforms,
    and `tm_gmtoff` where there is one. -/
theorem C90_roundtrip (cfg : ChronoCfg) (hl : GoodLayouts cfg.enc cfg.lay) (gmtoff : Bool) (c : Civil) (hv : c.Valid) (is : List FmtItem)
    (hfmt : FormatOk cfg.enc is) (hnd : (fieldsOf (callsOf is)).Nodup) (hF : Compatible (fieldsOf (callsOf is)))
    {ws t rest : List Nat} (h : ShownSeq cfg.enc c (callsOf is) t rest) (hw : Spaces ws) (hne : t ++ rest ≠ [])
    (hfirst : (t ++ rest).dropWhile isSpace = t ++ rest) (hs : ∀ c ∈ rest, IsScalar c) (t0 : TmWithTz) (r : List Nat) :
    chronoCustom cfg gmtoff .tmWithTz (tmTzSetter gmtoff) t0 (formatText is ++ 125 :: r) (encodes cfg.enc (ws ++ (t ++ rest))) =
      (125 :: r, .ok (setTmTz gmtoff (fieldsOf (callsOf is)) c t0, encodes cfg.enc rest)) :=
  chronoCustom_tmTz cfg hl gmtoff c hv is hfmt hnd hF h hw hne hfirst hs t0 r

example : chronoCustom exChrono false .tmWithTz (tmTzSetter false) {} (formatText exFormat ++ [125]) (encodes .utf8 ([32] ++ ([49, 57, 58, 48, 56] ++ [33]))) =
    ([125], .ok ({ tm := { hour := 19, min := 8 } }, [33])) :=
  C90_roundtrip exChrono exChrono_good false exCivil exCivil_valid exFormat exFormat_ok (by decide) (by constructor <;> decide)
    exFormat_shown (by intro c hc; simp at hc; subst hc; decide) (by decide) (by decide) (by intro c hc; simp at hc; subst hc; decide) {} []

end Scn
