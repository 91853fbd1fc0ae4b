import Verif.Lemmas.Ranges2
import Verif.Lemmas.Format
/-
The scanners of ranges and tuples on arbitrary sources.
-/
namespace Scn
open Spec
variable {V C : Type}

theorem readWhileSpace_all (e : Enc) (l : Layout) (s : List Nat) (h : UnitsOk e s) :
    ∃ p, readWhileSpace e l s = some p ∧ p <:+ s := by
  have main : ∃ p, readWhileSpace e l s = some p := by
    cases e with
    | utf16 => obtain ⟨p, hp, _⟩ := readUntilCp_total .utf16 (fun cp => ! isCpSpace cp) s; exact ⟨p, by cases l <;> exact hp⟩
    | utf32 => obtain ⟨p, hp, _⟩ := readUntilCp_total .utf32 (fun cp => ! isCpSpace cp) s; exact ⟨p, by cases l <;> exact hp⟩
    | utf8 =>
      cases l with
      | contiguous => obtain ⟨p, hp, _⟩ := readWhileSpace_total .utf8 s h; exact ⟨p, hp⟩
      | segmented k =>
        obtain ⟨p, hp, _⟩ := readWhileSpace_total .utf8 (s.take k) (fun he c hc => h he c (List.mem_of_mem_take hc))
        have hp' : findNonspace (s.take k) = some p := hp
        obtain ⟨q, hq, _⟩ := readUntilCp_total .utf8 (fun cp => ! isCpSpace cp) s
        simp only [readWhileSpace]
        split
        · rename_i heq; rw [hp'] at heq; cases heq
        · split
          · exact ⟨_, rfl⟩
          · exact ⟨q, hq⟩
  obtain ⟨p, hp⟩ := main
  exact ⟨p, hp, readWhileSpace_suffix _ _ _ _ hp⟩

theorem skipSpace_all (e : Enc) (l : Layout) (b : Bool) (s : List Nat) (h : UnitsOk e s) :
    (∃ p, skipSpace e l b s = .ok p ∧ p <:+ s ∧ (b = false → p ≠ [])) ∨ skipSpace e l b s = .err .endOfInput := by
  obtain ⟨p, hp, hs⟩ := readWhileSpace_all e l s h
  unfold skipSpace
  rw [hp]
  dsimp only
  split
  · exact Or.inr rfl
  · rename_i hn
    refine Or.inl ⟨p, rfl, hs, fun hb he => hn ⟨by simp [hb], he⟩⟩

theorem matchUnits_suffix {t s r : List Nat} (h : matchUnits t s = .ok r) : s = t ++ r := by
  induction t generalizing s with
  | nil => cases h; rfl
  | cons c t ih =>
    cases s with
    | nil => cases h
    | cons d s =>
      simp only [matchUnits] at h
      split at h
      · cases h
      · rename_i hcd
        have : c = d := by simpa using hcd
        rw [ih h, this]; rfl

theorem unitsOk_suffix {e : Enc} {s r : List Nat} (h : UnitsOk e s) (hr : r <:+ s) : UnitsOk e r :=
  fun he c hc => h he c (hr.subset hc)

/-- `scan_str` with at most one unit to match: no read past the end. -/
theorem scanStr_short (e : Enc) (lay : List Nat → Layout) (s t : List Nat) (h : UnitsOk e s) (ht : t.length ≤ 1) :
    scanStr e lay s t ≠ .ub ∧ ∀ r, scanStr e lay s t = .ok r → ∃ p, s = p ++ (t ++ r) := by
  unfold scanStr
  rcases skipSpace_all e (lay s) false s h with ⟨p, hp, ⟨q, hq⟩, hne⟩ | hp
  · rw [hp, Res.bind_ok]
    refine ⟨?_, fun r hr => ⟨q, by rw [← hq, matchUnits_suffix hr]⟩⟩
    match t, ht with
    | [], _ => simp [matchUnits]
    | [c], _ =>
      cases p with
      | nil => exact absurd rfl (hne rfl)
      | cons d p => simp only [matchUnits]; split <;> simp
  · rw [hp]
    exact ⟨by simp, fun r hr => by simp at hr⟩

/-- A reader that has no undefined behaviour and goes forward. -/
def Safe (e : Enc) (rd : List Nat → Res (V × List Nat)) : Prop :=
  ∀ s, UnitsOk e s → rd s ≠ .ub ∧ ∀ v r, rd s = .ok (v, r) → r <:+ s

theorem innerLoop_safe {e : Enc} {lay : List Nat → Layout} {b : Brackets} (hs : b.separator.length ≤ 1)
    {rd : List Nat → Res (V × List Nat)} (hrd : Safe e rd) (first : Bool) : Safe e (innerLoop e lay b rd first) := by
  intro s h
  unfold innerLoop
  cases first with
  | true => simpa using hrd s h
  | false =>
    simp only [Bool.false_eq_true, if_false]
    obtain ⟨h1, h2⟩ := scanStr_short e lay s b.separator h hs
    cases hsc : scanStr e lay s b.separator with
    | ub => exact absurd hsc h1
    | err x => exact ⟨by simp, fun v r hr => by simp at hr⟩
    | ok p =>
      obtain ⟨q, hq⟩ := h2 p hsc
      have hps : p <:+ s := ⟨q ++ b.separator, by rw [hq]; simp⟩
      obtain ⟨h3, h4⟩ := hrd p (unitsOk_suffix h hps)
      exact ⟨h3, fun v r hr => (h4 v r hr).trans hps⟩

theorem rangeLoop_safe {e : Enc} {lay : List Nat → Layout} {b : Brackets} (hs : b.separator.length ≤ 1) (hc : b.closing.length ≤ 1)
    {rd : List Nat → Res (V × List Nat)} (hrd : Safe e rd) (add : C → V → C) (left : Nat) :
    ∀ first range, Safe e (rangeLoop e lay b rd add left first range) := by
  induction left with
  | zero =>
    intro first range s _
    refine ⟨by simp [rangeLoop], fun v r hr => ?_⟩
    simp only [rangeLoop, Res.ok.injEq, Prod.mk.injEq] at hr
    rw [← hr.2]; exact List.suffix_refl _
  | succ left ih =>
    intro first range s h
    obtain ⟨h1, _⟩ := scanStr_short e lay s b.closing h hc
    rw [rangeLoop]
    cases hsc : scanStr e lay s b.closing with
    | ub => exact absurd hsc h1
    | ok p =>
      refine ⟨by simp, fun v r hr => ?_⟩
      simp only [Res.ok.injEq, Prod.mk.injEq] at hr
      rw [← hr.2]; exact List.suffix_refl _
    | err x =>
      dsimp only
      obtain ⟨h2, h3⟩ := innerLoop_safe (lay := lay) hs hrd first s h
      cases hin : innerLoop e lay b rd first s with
      | ub => exact absurd hin h2
      | err y => exact ⟨by simp, fun v r hr => by simp at hr⟩
      | ok a =>
        have ha := h3 a.1 a.2 hin
        obtain ⟨h4, h5⟩ := ih false (add range a.1) a.2 (unitsOk_suffix h ha)
        exact ⟨h4, fun v r hr => (h5 v r hr).trans ha⟩

theorem tupleLoop_safe {e : Enc} {lay : List Nat → Layout} {b : Brackets} (hs : b.separator.length ≤ 1)
    (rds : List (List Nat → Res (V × List Nat))) (hrd : ∀ rd ∈ rds, Safe e rd) :
    ∀ first, Safe e (tupleLoop e lay b rds first) := by
  induction rds with
  | nil =>
    intro first s _
    refine ⟨by simp [tupleLoop], fun v r hr => ?_⟩
    simp only [tupleLoop, Res.ok.injEq, Prod.mk.injEq] at hr
    rw [← hr.2]; exact List.suffix_refl _
  | cons rd rds ih =>
    intro first s h
    obtain ⟨h2, h3⟩ := innerLoop_safe (lay := lay) hs (hrd rd (by simp)) first s h
    rw [tupleLoop]
    cases hin : innerLoop e lay b rd first s with
    | ub => exact absurd hin h2
    | err y => exact ⟨by simp, fun v r hr => by simp at hr⟩
    | ok a =>
      have ha := h3 a.1 a.2 hin
      obtain ⟨h4, h5⟩ := ih (fun x hx => hrd x (by simp [hx])) false a.2 (unitsOk_suffix h ha)
      rw [Res.bind_ok]
      cases ht : tupleLoop e lay b rds false a.2 with
      | ub => exact absurd ht h4
      | err y => exact ⟨by simp, fun v r hr => by simp at hr⟩
      | ok c =>
        refine ⟨by simp, fun v r hr => ?_⟩
        simp only [Res.map_ok, Res.ok.injEq, Prod.mk.injEq] at hr
        rw [← hr.2]
        exact (h5 c.1 c.2 ht).trans ha

/-- Between the brackets: any loop that is safe. -/
theorem between_brackets {e : Enc} {lay : List Nat → Layout} {b : Brackets} (ho : b.opening.length ≤ 1) (hc : b.closing.length ≤ 1)
    {W : Type} (loop : List Nat → Res (W × List Nat)) (hloop : Safe e loop) (s : List Nat) (h : UnitsOk e s) :
    ((scanStr e lay s b.opening).bind fun s1 => (loop s1).bind fun r =>
      (scanStr e lay r.2 b.closing).map fun s2 => (r.1, s2)) ≠ .ub ∧
    ∀ v r, ((scanStr e lay s b.opening).bind fun s1 => (loop s1).bind fun r =>
      (scanStr e lay r.2 b.closing).map fun s2 => (r.1, s2)) = .ok (v, r) → ∃ p, s = p ++ (b.closing ++ r) := by
  obtain ⟨h1, h2⟩ := scanStr_short e lay s b.opening h ho
  cases hs : scanStr e lay s b.opening with
  | ub => exact absurd hs h1
  | err x => exact ⟨by simp, fun v r hr => by simp at hr⟩
  | ok s1 =>
    obtain ⟨p1, hp1⟩ := h2 s1 hs
    have hsuf : s1 <:+ s := ⟨p1 ++ b.opening, by rw [hp1]; simp⟩
    obtain ⟨h3, h4⟩ := hloop s1 (unitsOk_suffix h hsuf)
    rw [Res.bind_ok]
    cases hl : loop s1 with
    | ub => exact absurd hl h3
    | err x => exact ⟨by simp, fun v r hr => by simp at hr⟩
    | ok a =>
      rw [Res.bind_ok]
      have ha := (h4 a.1 a.2 hl).trans hsuf
      obtain ⟨h5, h6⟩ := scanStr_short e lay a.2 b.closing (unitsOk_suffix h ha) hc
      cases hc2 : scanStr e lay a.2 b.closing with
      | ub => exact absurd hc2 h5
      | err x => exact ⟨by simp, fun v r hr => by simp at hr⟩
      | ok s2 =>
        obtain ⟨p2, hp2⟩ := h6 s2 hc2
        obtain ⟨p3, hp3⟩ := ha
        refine ⟨by simp, fun v r hr => ?_⟩
        simp only [Res.map_ok, Res.ok.injEq, Prod.mk.injEq] at hr
        obtain ⟨_, rfl⟩ := hr
        exact ⟨p3 ++ p2, by rw [← hp3, hp2]; simp⟩

end Scn
