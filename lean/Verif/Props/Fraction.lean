import Verif.Lemmas.Fraction
import Verif.Props.Chrono5
import Verif.Props.Defined
/-
C87, C74: more formats that are accepted and called invalid later, and more input that is undefined behaviour.
-/
namespace Scn
open Spec

/-- The check accepts `{:%S%.S}`, as it does not record that a fraction of a second comes with the seconds; then no source at all is read,
    and the format is reported as invalid for two numbers of seconds of which the second one has a fraction. -/
theorem C87_violated_fraction :
    (∀ (cfg : ChronoCfg) (gmtoff : Bool) (r : List Nat), chronoParse cfg.enc gmtoff .components (37 :: 83 :: 37 :: 46 :: 83 :: 125 :: r) = .ok ([37, 83, 37, 46, 83], 125 :: r) ∧
      ∀ t0 src x, (chronoCustom cfg gmtoff .components dtSetter t0 (37 :: 83 :: 37 :: 46 :: 83 :: 125 :: r) src).2 ≠ .ok x) ∧
    ∃ cfg src, cfg.enc = .utf8 ∧ (chronoCustom cfg true .components dtSetter {} [37, 83, 37, 46, 83, 125] src).2 = .err .invalidFormatString := by
  refine ⟨fun cfg gmtoff r => ?_, { exChrono with scanSet := fun _ q => .ok (q, []) }, [48, 49, 48, 49, 46, 53], rfl, by decide +kernel⟩
  have hp : chronoParse cfg.enc gmtoff .components (37 :: 83 :: 37 :: 46 :: 83 :: 125 :: r) = .ok ([37, 83, 37, 46, 83], 125 :: r) := by
    have htake : (37 :: 83 :: 37 :: 46 :: 83 :: 125 :: r).take ((37 :: 83 :: 37 :: 46 :: 83 :: 125 :: r).length - (125 :: r).length) = [37, 83, 37, 46, 83] := by
      have : (37 :: 83 :: 37 :: 46 :: 83 :: 125 :: r) = [37, 83, 37, 46, 83] ++ 125 :: r := rfl
      rw [this, List.length_append, Nat.add_sub_cancel, List.take_left]
    have hc : parseChrono cfg.enc (checkHandler gmtoff .components) {} (37 :: 83 :: 37 :: 46 :: 83 :: 125 :: r) = some ({ st := { set := [.subsec, .sec] } }, 125 :: r) := rfl
    unfold chronoParse
    dsimp only
    rw [if_neg (by decide), hc]
    dsimp only
    rw [if_neg (by decide), htake]
  refine ⟨hp, fun t0 src x h => ?_⟩
  unfold chronoCustom at h
  rw [hp] at h
  dsimp only at h
  unfold chronoScan at h
  cases hk : skipSpace cfg.enc (cfg.lay src) false src with
  | ub => rw [hk] at h; cases h
  | err => rw [hk] at h; cases h
  | ok p =>
    rw [hk] at h
    dsimp only [Res.bind] at h
    rw [parse_fraction] at h
    generalize hr0 : (⟨p, p, t0, {}, none⟩ : Rd DateTime) = r0 at h
    have h1 : (readHandler cfg dtSetter).call r0 (.second .standard) = some (r0.number 1 2 fun r v => dtSetter.sec r (id v)) := by subst hr0; rfl
    rw [h1, Option.bind_some] at h
    generalize hr1 : (r0.number 1 2 fun r v => dtSetter.sec r (id v)) = r1 at h
    by_cases ho : (readHandler cfg dtSetter).ok r1 = true
    · rw [if_pos ho] at h
      have hn : r1.err = none := by simpa [readHandler] using ho
      have hs : r1.st.has .sec = true := by
        subst hr1
        exact (sec_none (r := (r0.readUInt 1 2).2) hn).2.2
      have hc : (readHandler cfg dtSetter).call r1 (.subsecond .standard) = r1.onSubsecond cfg dtSetter .standard := rfl
      rw [hc] at h
      cases h2 : r1.onSubsecond cfg dtSetter .standard with
      | none => rw [h2] at h; cases h
      | some r2 =>
        rw [h2, Option.bind_some] at h
        have hn2 := subsecond_again hs h2
        have ho2 : ¬ (readHandler cfg dtSetter).ok r2 = true := by simpa [readHandler, Option.isNone_iff_eq_none] using hn2
        rw [if_neg ho2] at h
        dsimp only at h
        split at h
        · cases h
        · rename_i he; exact hn2 he
    · rw [if_neg ho] at h
      dsimp only at h
      split at h
      · cases h
      · rename_i he
        exact ho (by simp [readHandler, he])

/-- `{:%S%.S}` on `0101.5`, with seconds and then seconds with a fraction. -/
example : (chronoCustom { exChrono with scanSet := fun _ q => .ok (q, []) } true .components dtSetter {} [37, 83, 37, 46, 83, 125] [48, 49, 48, 49, 46, 53]).2 ≠
    .ok ({ sec := some 1, subsec := some [53] }, []) :=
  (C87_violated_fraction.1 _ true []).2 _ _ _

/-- C74 is violated on well-formed text too: a `char32_t` or a `wchar_t` (4 bytes) that is to be read with a precision of 1 from a source that
    begins with a character of width 2 is read from an empty range; and a code point above U+10FFFF in a narrow source cannot be turned into a
    `wchar_t` of 2 bytes. -/
theorem C74_violated_chars :
    (∃ c s, IsScalar c ∧ (vscan (stdEnv .utf8 .utf32 ⟨false, false, false⟩ ⟨44, 46, [], [], fun _ _ _ _ => .bad⟩ 0 [.codePoint]) [123, 58, 46, 49, 125]
        (encodes .utf8 (c :: s))).isNone = true ∧
      (vscan (stdEnv .utf8 .utf32 ⟨false, false, false⟩ ⟨44, 46, [], [], fun _ _ _ _ => .bad⟩ 0 [.wchar]) [123, 58, 46, 49, 125] (encodes .utf8 (c :: s))).isNone = true) ∧
    (vscan (stdEnv .utf8 .utf16 ⟨false, false, false⟩ ⟨44, 46, [], [], fun _ _ _ _ => .bad⟩ 0 [.wchar]) [123, 125] [0xF4, 0x90, 0x80, 0x80]).isNone = true := by
  refine ⟨⟨0x4E2D, [0x6587], by unfold IsScalar; decide, ?_, ?_⟩, ?_⟩ <;> decide +kernel

end Scn
