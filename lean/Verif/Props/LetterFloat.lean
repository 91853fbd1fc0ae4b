import Verif.Props.Float
import Verif.Lemmas.LetterFloat
/-
C115 for floating-point numbers.
The vocabulary is in `Verif/Spec/LetterCase.lean` and `Verif/Spec/Float.lean`.
-/
namespace Scn
open Spec

/-! ### C115: floating-point numbers -/

/-- C115 for floating-point numbers, in any presentation, on any source of any encoding: if the conversions are those of texts that mean the same in
    upper and lower case, then two texts that differ in the case of letters only - in that of exponents, hexadecimal digits and prefixes,
    infinities and NaNs - give the same value and rests that differ in the case of letters only, or the same error. Missing from the full
    claim: sources with a number the library does not read as documented (C39), and `L`. -/
theorem C115_float_partial {V : Type} {cv : FloatConv V} {round : List Nat → Rounded V} (hcv : ConvOk cv round) (hround : ∀ p p', SameButCase p p' → round p = round p')
    (e : Enc) (k : Src) (seg : Bool) {ty : Pres} (hty : FloatPres ty) {s s' : List Nat} (hb : e = .utf8 → ∀ u ∈ s, u < 256) (hb' : e = .utf8 → ∀ u ∈ s', u < 256)
    (hq : CommonFloat k.contiguous ty s) (h : SameButCase s s') :
    SameReading (readFloatAs cv e k seg .classic ty s) (readFloatAs cv e k seg .classic ty s') := by
  by_cases hne : s = []
  · subst hne
    rw [sameCase_nil h]
    cases readFloatAs cv e k seg .classic ty [] with
    | ok p => exact ⟨rfl, rfl⟩
    | err x => exact rfl
    | ub => trivial
  by_cases hno : ∀ sg t rest, SignText sg → FloatText ty t → s ≠ sg ++ t ++ rest
  · rw [C39_rejects_other_text hcv e k seg ty hty s hne hb hno, C39_rejects_other_text hcv e k seg ty hty s' (sameCase_ne h hne) hb' ?_]
    · exact rfl
    · rintro sg t rest hsg ht rfl
      obtain ⟨a, r, rfl, ha, hr⟩ := sameCase_append (sameCase_symm h)
      obtain ⟨g, p, rfl, hg, hp⟩ := sameCase_append ha
      exact hno g p r ((sameCase_sign hg hsg).symm ▸ hsg) (sameCase_float hp ht) rfl
  · obtain ⟨sg, t0, rest0, hsg, ht0, rfl⟩ : ∃ sg t rest, SignText sg ∧ FloatText ty t ∧ s = sg ++ t ++ rest := by
      apply Classical.byContradiction
      intro hx
      exact hno fun sg t rest h1 h2 h3 => hx ⟨sg, t, rest, h1, h2, h3⟩
    obtain ⟨t, hL⟩ := exists_longest (s := t0 ++ rest0) ht0 ⟨rest0, rfl⟩
    obtain ⟨rest, hrest⟩ := hL.2.1
    have hs : sg ++ t0 ++ rest0 = sg ++ t ++ rest := by rw [List.append_assoc, ← hrest, List.append_assoc]
    rw [hs] at h hb hq ⊢
    rw [← hrest] at hL
    obtain ⟨a, rest', rfl, ha, hr⟩ := sameCase_append h
    obtain ⟨g, t', rfl, hg, ht⟩ := sameCase_append ha
    have hge := sameCase_sign hg hsg
    subst hge
    obtain ⟨h1, h2⟩ := hq _ t rest rfl hsg hL
    obtain ⟨r, hm⟩ := floatText_means cv round hL.1
    rw [C39_roundtrip_partial hcv e k seg ty hty _ t rest hsg (fun he u hu => hb he u (by simp [hu])) hL r hm h1 h2,
      C39_roundtrip_partial hcv e k seg ty hty _ t' rest' hsg (fun he u hu => hb' he u (by simp [hu])) (sameCase_longest sameCase_float ht hr hL) r
        (sameCase_means hround ht hm) ?_ ?_]
    · cases r with
      | finite v => exact ⟨rfl, hr⟩
      | tooLarge => exact rfl
      | tooSmall => exact rfl
    · rcases h1 with ⟨c, cs, rfl, hc⟩ | h1 | ⟨h1, h3⟩
      · obtain ⟨d, ds, rfl, hd, _⟩ := sameCase_cons ht
        exact Or.inl ⟨d, ds, rfl, by rw [← isDigit_lower, ← hd, isDigit_lower]; exact hc⟩
      · exact Or.inr (Or.inl (sameCase_inf ht h1))
      · refine Or.inr (Or.inr ⟨sameCase_nan ht h1, fun hl cs hx => ?_⟩)
        rw [hx] at hr
        obtain ⟨d, ds, hd1, hd2, _⟩ := sameCase_cons (sameCase_symm hr)
        exact h3 (by rw [sameCase_length ht]; exact hl) ds (by rw [hd1, sameCase_other hd2 (by decide) (by decide)])
    · refine h2.imp_right fun h2 => h2.imp_right fun h2 hx => h2 ?_
      obtain ⟨x, r, hx1, hx2, hx3⟩ := hx
      have hall : SameButCase (t' ++ rest') (t ++ rest) := by
        show (t' ++ rest').map lower = (t ++ rest).map lower
        rw [List.map_append, List.map_append, show t.map lower = t'.map lower from ht, show rest.map lower = rest'.map lower from hr]
      rw [hx1] at hall
      obtain ⟨d, u, hu, hd, hall⟩ := sameCase_cons hall
      obtain ⟨y, w, rfl, hy, hw⟩ := sameCase_cons hall
      refine ⟨y, w, by rw [hu, sameCase_other hd (by decide) (by decide)], ?_, fun z zs hz hz' => ?_⟩
      · unfold lower at hy
        split at hy <;> split at hy <;> omega
      · subst hz
        obtain ⟨z', zs', hz1, hz2, _⟩ := sameCase_cons (sameCase_symm hw)
        exact hx3 z' zs' hz1 (by rw [← isDigit_lower, ← hz2, isDigit_lower]; exact hz')

/-- "1e999" and "1E999" are both too large. -/
example : ConvOk caseConv caseRound ∧ (∀ p p', SameButCase p p' → caseRound p = caseRound p') ∧ FloatPres .none ∧ CommonFloat true .none [49, 101, 57, 57, 57] ∧
    SameButCase [49, 101, 57, 57, 57] [49, 69, 57, 57, 57] ∧ caseRound [49, 69, 57, 57, 57] = .tooLarge := by
  refine ⟨caseConv_ok, caseRound_case, Or.inl rfl, fun sg t rest h1 h2 h3 => ⟨Or.inl ?_, Or.inl rfl⟩, by unfold SameButCase; decide, rfl⟩
  obtain ⟨c, cs, rfl, _⟩ := floatText_head h3.1
  rcases h2 with rfl | rfl | rfl
  · have : 49 = c := (List.cons.inj h1).1
    subst this
    exact ⟨_, _, rfl, by decide⟩
  · cases (List.cons.inj h1).1
  · cases (List.cons.inj h1).1

end Scn
