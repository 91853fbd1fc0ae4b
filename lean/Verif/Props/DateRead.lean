import Verif.Lemmas.DateRead
import Verif.Props.WithTz
/-
C94: a date and time is read exactly if it is written: the converse of C46 and C90. The general statements are about the
same formats, without `%u` and `%Z`.
-/
namespace Scn
open Spec

/-- A scan into a `std::tm` succeeds exactly if the source, after whitespace, shows a date and time in the format, and then
    the fields of the format are set to the values of this date and the text behind it is left. Missing: formats with `%u`
    and `%Z`; and if there is `%p` then the character 14 must not occur in the source (`C94_violated_am`). -/
theorem C94_tm_partial (cfg : ChronoCfg) (hl : GoodLayouts cfg.enc cfg.lay) (gmtoff : Bool) (is : List FmtItem) (hfmt : FormatOk cfg.enc is)
    (hnd : (fieldsOf (callsOf is)).Nodup) (hF : Compatible (fieldsOf (callsOf is))) (htz : .tzoff ∈ fieldsOf (callsOf is) → gmtoff = true)
    (hz : .tzName ∉ callsOf is) (hu : ∀ s, .dec1Weekday s ∉ callsOf is) (src : List Nat) (hs : ∀ c ∈ src, IsScalar c) (h14 : .amPm ∈ callsOf is → 14 ∉ src)
    (t0 t : Tm) (r out : List Nat) :
    chronoCustom cfg gmtoff .tm (tmSetter gmtoff) t0 (formatText is ++ 125 :: r) (encodes cfg.enc src) = (125 :: r, .ok (t, out)) ↔
      ∃ c rest, c.Valid ∧ DateWritten cfg.enc is c src rest ∧ t = setTm (fieldsOf (callsOf is)) c t0 ∧ out = encodes cfg.enc rest := by
  have fwd : ∀ c rest, c.Valid → DateWritten cfg.enc is c src rest →
      chronoCustom cfg gmtoff .tm (tmSetter gmtoff) t0 (formatText is ++ 125 :: r) (encodes cfg.enc src) =
        (125 :: r, .ok (setTm (fieldsOf (callsOf is)) c t0, encodes cfg.enc rest)) := by
    rintro c rest hc ⟨ws, text, rfl, h1, h2, h3, h4⟩
    exact chronoCustom_tm cfg hl gmtoff c hc is hfmt hnd hF htz h4 h1 h2 h3 (fun x hx => hs x (by simp [hx])) t0 r
  constructor
  · intro h
    obtain ⟨fmt, hp, hscan⟩ := custom_parts h
    obtain ⟨rfl, _⟩ := chronoParse_text hfmt hp
    obtain ⟨c, rest, hc, hw, _⟩ := scan_shown hl (setterOk_tm cfg gmtoff) (inRange_tmOn gmtoff id fun f => f) (by decide) hfmt hz hu hnd hF hs h14 hscan
    have := h.symm.trans (fwd c rest hc.1 hw)
    simp only [Prod.mk.injEq, Res.ok.injEq, true_and] at this
    exact ⟨c, rest, hc.1, hw, this.1, this.2⟩
  · rintro ⟨c, rest, hc, hw, rfl, rfl⟩
    exact fwd c rest hc hw

/-- ` 7:08!` is read with `%H:%OM`, so it shows a time. -/
example : ∃ c rest, c.Valid ∧ DateWritten .utf8 exFormat c [32, 55, 58, 48, 56, 33] rest ∧ ({ hour := 7, min := 8 } : Tm) = setTm (fieldsOf (callsOf exFormat)) c {} ∧ [33] = encodes .utf8 rest :=
  (C94_tm_partial exChrono exChrono_good false exFormat exFormat_ok (by decide) (by constructor <;> decide) (fun h => absurd h (by decide)) (by decide)
    (fun s => by cases s <;> decide) [32, 55, 58, 48, 56, 33] (by decide) (by decide) {} _ [] [33]).1 (by decide +kernel)

/-- The same for `tm_with_tz`. -/
theorem C94_tm_with_tz_partial (cfg : ChronoCfg) (hl : GoodLayouts cfg.enc cfg.lay) (gmtoff : Bool) (is : List FmtItem) (hfmt : FormatOk cfg.enc is)
    (hnd : (fieldsOf (callsOf is)).Nodup) (hF : Compatible (fieldsOf (callsOf is)))
    (hz : .tzName ∉ callsOf is) (hu : ∀ s, .dec1Weekday s ∉ callsOf is) (src : List Nat) (hs : ∀ c ∈ src, IsScalar c) (h14 : .amPm ∈ callsOf is → 14 ∉ src)
    (t0 t : TmWithTz) (r out : List Nat) :
    chronoCustom cfg gmtoff .tmWithTz (tmTzSetter gmtoff) t0 (formatText is ++ 125 :: r) (encodes cfg.enc src) = (125 :: r, .ok (t, out)) ↔
      ∃ c rest, c.Valid ∧ DateWritten cfg.enc is c src rest ∧ t = setTmTz gmtoff (fieldsOf (callsOf is)) c t0 ∧ out = encodes cfg.enc rest := by
  have fwd : ∀ c rest, c.Valid → DateWritten cfg.enc is c src rest →
      chronoCustom cfg gmtoff .tmWithTz (tmTzSetter gmtoff) t0 (formatText is ++ 125 :: r) (encodes cfg.enc src) =
        (125 :: r, .ok (setTmTz gmtoff (fieldsOf (callsOf is)) c t0, encodes cfg.enc rest)) := by
    rintro c rest hc ⟨ws, text, rfl, h1, h2, h3, h4⟩
    exact chronoCustom_tmTz cfg hl gmtoff c hc is hfmt hnd hF h4 h1 h2 h3 (fun x hx => hs x (by simp [hx])) t0 r
  constructor
  · intro h
    obtain ⟨fmt, hp, hscan⟩ := custom_parts h
    obtain ⟨rfl, _⟩ := chronoParse_text hfmt hp
    obtain ⟨c, rest, hc, hw, _⟩ := scan_shown hl (setterOk_tmTz cfg gmtoff) (inRange_tmTz gmtoff) (by decide) hfmt hz hu hnd hF hs h14 hscan
    have := h.symm.trans (fwd c rest hc.1 hw)
    simp only [Prod.mk.injEq, Res.ok.injEq, true_and] at this
    exact ⟨c, rest, hc.1, hw, this.1, this.2⟩
  · rintro ⟨c, rest, hc, hw, rfl, rfl⟩
    exact fwd c rest hc hw

example : ∃ c rest, c.Valid ∧ DateWritten .utf8 exFormat c [32, 55, 58, 48, 56, 33] rest ∧
    ({ tm := { hour := 7, min := 8 } } : TmWithTz) = setTmTz false (fieldsOf (callsOf exFormat)) c {} ∧ [33] = encodes .utf8 rest :=
  (C94_tm_with_tz_partial exChrono exChrono_good false exFormat exFormat_ok (by decide) (by constructor <;> decide) (by decide)
    (fun s => by cases s <;> decide) [32, 55, 58, 48, 56, 33] (by decide) (by decide) {} _ [] [33]).1 (by decide +kernel)

/-- The same for `datetime_components`. Missing also: `%y` and `%C` (`C44_violated_components`); only the first seven days of the
    year can be read (`C45_violated_components`). -/
theorem C94_components_partial (cfg : ChronoCfg) (hl : GoodLayouts cfg.enc cfg.lay) (gmtoff : Bool) (is : List FmtItem) (hfmt : FormatOk cfg.enc is)
    (hnd : (fieldsOf (callsOf is)).Nodup) (hF : Compatible (fieldsOf (callsOf is))) (hy : .shortYear ∉ fieldsOf (callsOf is) ∧ .century ∉ fieldsOf (callsOf is))
    (hz : .tzName ∉ callsOf is) (hu : ∀ s, .dec1Weekday s ∉ callsOf is) (src : List Nat) (hs : ∀ c ∈ src, IsScalar c) (h14 : .amPm ∈ callsOf is → 14 ∉ src)
    (t0 t : DateTime) (r out : List Nat) :
    chronoCustom cfg gmtoff .components dtSetter t0 (formatText is ++ 125 :: r) (encodes cfg.enc src) = (125 :: r, .ok (t, out)) ↔
      ∃ c rest, c.Valid ∧ c.yday ≤ 7 ∧ DateWritten cfg.enc is c src rest ∧ t = setDateTime (fieldsOf (callsOf is)) c t0 ∧ out = encodes cfg.enc rest := by
  have fwd : ∀ c rest, c.Valid → c.yday ≤ 7 → DateWritten cfg.enc is c src rest →
      chronoCustom cfg gmtoff .components dtSetter t0 (formatText is ++ 125 :: r) (encodes cfg.enc src) =
        (125 :: r, .ok (setDateTime (fieldsOf (callsOf is)) c t0, encodes cfg.enc rest)) := by
    rintro c rest hc h7 ⟨ws, text, rfl, h1, h2, h3, h4⟩
    exact chronoCustom_dt cfg hl gmtoff c hc is hfmt hnd hF (fun f hf => ⟨fun h => hy.1 (h ▸ hf), fun h => hy.2 (h ▸ hf), fun _ => h7⟩) h4 h1 h2 h3 (fun x hx => hs x (by simp [hx])) t0 r
  constructor
  · intro h
    obtain ⟨fmt, hp, hscan⟩ := custom_parts h
    obtain ⟨rfl, _⟩ := chronoParse_text hfmt hp
    obtain ⟨c, rest, hc, hw, _⟩ := scan_shown hl (setterOk_dt cfg gmtoff) inRange_dt (by decide) hfmt hz hu hnd hF hs h14 hscan
    have := h.symm.trans (fwd c rest hc.1 hc.2 hw)
    simp only [Prod.mk.injEq, Res.ok.injEq, true_and] at this
    exact ⟨c, rest, hc.1, hc.2, hw, this.1, this.2⟩
  · rintro ⟨c, rest, hc, h7, hw, rfl, rfl⟩
    exact fwd c rest hc h7 hw

example : ∃ c rest, c.Valid ∧ c.yday ≤ 7 ∧ DateWritten .utf8 exFormat c [32, 55, 58, 48, 56, 33] rest ∧
    ({ hour := some 7, min := some 8 } : DateTime) = setDateTime (fieldsOf (callsOf exFormat)) c {} ∧ [33] = encodes .utf8 rest :=
  (C94_components_partial exChrono exChrono_good false exFormat exFormat_ok (by decide) (by constructor <;> decide) (by decide) (by decide)
    (fun s => by cases s <;> decide) [32, 55, 58, 48, 56, 33] (by decide) (by decide) {} _ [] [33]).1 (by decide +kernel)

/-- The code takes the character 14 for a period in `a.m.` and `p.m.`: `1a`, 14, `m`, 14 is read with `%I%p` as one o'clock, though
    it shows no date. (`/repo/src/scn/impl.cpp` compares characters by exclusive or with 32, whatever they are.) -/
theorem C94_violated_am :
    chronoCustom exChrono false .tm (tmSetter false) {} (formatText [.conv [73] (.hour12 .standard), .conv [112] .amPm] ++ [125]) (encodes .utf8 [49, 97, 14, 109, 14]) =
        ([125], .ok ({ hour := 1 }, [])) ∧
      ¬ ∃ c rest, DateWritten .utf8 [.conv [73] (.hour12 .standard), .conv [112] .amPm] c [49, 97, 14, 109, 14] rest := by
  refine ⟨by decide +kernel, ?_⟩
  rintro ⟨c, rest, ws, text, hsrc, hws, _, _, hseq⟩
  have hno : ∀ (n0 n1 : Nat) (ns t k u : List Nat), EqUpToCase (n0 :: n1 :: ns) t → [49, 97, 14, 109, 14] = k ++ (t ++ u) → (n0 = 97 ∨ n0 = 112) → (n1 = 109 ∨ n1 = 46) → False := by
    intro n0 n1 ns t k u h hk h0 h1
    match t, h with
    | x :: y :: t, h =>
      obtain ⟨hx, hy, _⟩ := h
      match k, hk with
      | [], hk => simp at hk; obtain ⟨rfl, rfl, _⟩ := hk; rcases h0 with rfl | rfl <;> exact absurd hx (by decide)
      | [_], hk => simp at hk; obtain ⟨_, rfl, rfl, _⟩ := hk; rcases h1 with rfl | rfl <;> exact absurd hy (by decide)
      | [_, _], hk => simp at hk; obtain ⟨_, _, rfl, rfl, _⟩ := hk; rcases h0 with rfl | rfl <;> exact absurd hx (by decide)
      | [_, _, _], hk => simp at hk; obtain ⟨_, _, _, rfl, rfl, _⟩ := hk; rcases h0 with rfl | rfl <;> exact absurd hx (by decide)
      | _ :: _ :: _ :: _ :: k, hk =>
        have := congrArg List.length hk
        simp at this
        omega
  have hseq : ShownSeq .utf8 c [.hour12 .standard, .amPm] text rest := hseq
  cases hseq with
  | cons _ _ t1 u1 _ _ _ _ hs =>
    cases hs with
    | cons _ _ t2 u2 _ _ h2 _ hs =>
      cases hs
      have hk : [49, 97, 14, 109, 14] = (ws ++ t1) ++ (t2 ++ rest) := by rw [hsrc]; simp
      cases h2 with
      | am _ _ h => rcases h with h | h <;> exact hno _ _ _ _ _ _ h hk (by decide) (by decide)
      | pm _ _ h => rcases h with h | h <;> exact hno _ _ _ _ _ _ h hk (by decide) (by decide)

/-- Hours and minutes of an offset are not checked: `+9999` is accepted by `%z`. -/
theorem C94_violated_offset :
    chronoCustom exChrono true .tm (tmSetter true) {} [37, 122, 125] [43, 57, 57, 57, 57] = ([125], .ok ({ gmtoff := (99 * 60 + 99) * 60 }, [])) ∧
      (24 * 60 * 60 : Int) < (99 * 60 + 99) * 60 := by
  decide +kernel

end Scn
