import Verif.Lemmas.Defined
/-
Widths of arbitrary sources, and `arg_reader` on arbitrary sources: no undefined behaviour.
-/
namespace Scn
open Spec

/-! ### Widths -/

theorem textWidth_le (cp : Nat) : textWidth cp ≤ 2 := by unfold textWidth; split <;> omega

theorem widthAt_le (e : Enc) (s : List Nat) : widthAt e s ≤ 2 := by
  cases s with
  | nil => exact Nat.zero_le _
  | cons c cs =>
    simp only [widthAt]
    split
    · omega
    · rename_i h0
      split
      · exact textWidth_le c
      · split
        · omega
        · rename_i h1 hl
          have hpos : 0 < cpLength e c := Nat.pos_of_ne_zero h0
          obtain ⟨m, hm⟩ : ∃ m, cpLength e c = m + 1 := ⟨cpLength e c - 1, by omega⟩
          have hlen : ((c :: cs).take (cpLength e c)).length = cpLength e c := by rw [List.length_take]; omega
          obtain ⟨cp, hcp⟩ := decodeCp_total e c ((c :: cs).take (cpLength e c)) h0 hlen
          have hn : getNext e ((c :: cs).take (cpLength e c)) = some ([], cp) := by
            rw [hm, List.take_succ_cons] at hlen hcp ⊢
            unfold getNext
            dsimp only
            rw [if_neg h0, if_neg (by omega), hm, ← hlen, List.take_length, List.drop_length, hcp]
            rfl
          have hf : forEachCp e ((c :: cs).take (cpLength e c)) = some [cp] := by
            rw [forEachCp_step e _ _ _ hn]
            rfl
          unfold textWidthOf
          rw [hf]
          simpa using textWidth_le cp

theorem takeWidthAux_prefix (e : Enc) (s : List Nat) : ∀ n left : Int, takeWidthAux e n left s <+: s := by
  induction s with
  | nil => intro n left; exact List.prefix_refl _
  | cons c cs ih =>
    intro n left
    unfold takeWidthAux
    split
    · exact List.nil_prefix
    · split
      · exact (List.prefix_cons_inj c).2 (ih _ _)
      · exact (List.prefix_cons_inj c).2 (ih _ _)

theorem takeWidth_prefix (e : Enc) (n : Int) (s : List Nat) : takeWidth e n s <+: s := takeWidthAux_prefix e s n 0

theorem countAfter_nonneg (e : Enc) (s : List Nat) : ∀ (k : Nat) (n left : Int), 0 ≤ n →
    k ≤ (takeWidthAux e n left s).length → 0 ≤ countAfter e k n left s := by
  induction s with
  | nil =>
    intro k n left hn _
    cases k <;> exact hn
  | cons c cs ih =>
    intro k n left hn hk
    cases k with
    | zero => exact hn
    | succ k =>
      unfold takeWidthAux at hk
      split at hk
      · simp at hk
      · rename_i hstop
        have hw := widthAt_le e (c :: cs)
        simp only [countAfter]
        split at hk
        · rename_i hl
          rw [if_pos hl]
          refine ih k _ _ ?_ (by simpa using hk)
          have h1 : ¬ (n = 0) := fun h => hstop (Or.inl ⟨h, hl⟩)
          have h2 : ¬ (n = 1 ∧ widthAt e (c :: cs) = 2) := fun h => hstop (Or.inr ⟨h.1, hl, h.2⟩)
          omega
        · rename_i hl
          rw [if_neg hl]
          exact ih k _ _ hn (by simpa using hk)

theorem consumedWidth_le (e : Enc) (n : Int) (hn : 0 ≤ n) (s : List Nat) (k : Nat) (hk : k ≤ (takeWidth e n s).length) :
    consumedWidth e n s k ≤ n := by
  have := countAfter_nonneg e s k n 0 hn hk
  unfold consumedWidth
  omega

/-! ### Fill characters -/

/-- What the format string parser guarantees about specifications. -/
structure SpecsOk (e : Enc) (sp : Specs) : Prop where
  fill : sp.fill.units e ≠ []
  set : handleNonascii e sp ≠ .ub

theorem readWhileFill_total {us : List Nat} (h : us ≠ []) (s : List Nat) : ∃ p, readWhileFill us s = some p ∧ p <:+ s := by
  unfold readWhileFill
  split
  · exact ⟨_, rfl, List.dropWhile_suffix _⟩
  · exact readWhileUnits_total _ h s

/-- Skipping fill characters: a position in the source, and within a positive limit a width that
    does not exceed it. -/
theorem skipFill_total {e : Enc} {fill : Fill} (hf : fill.units e ≠ []) (s : List Nat) (n : Int) (want : Bool) :
    ∃ p w, skipFill e s n fill want = some (p, w) ∧ p <:+ s ∧ (0 < n → w ≤ n) := by
  unfold skipFill
  dsimp only
  split
  · rename_i h0
    obtain ⟨p, hp, hps⟩ := readWhileFill_total hf s
    rw [hp]
    exact ⟨_, _, rfl, hps, fun h => by omega⟩
  · obtain ⟨p, hp, hps⟩ := readWhileFill_total hf (takeWidth e n s)
    rw [hp]
    refine ⟨_, _, rfl, List.drop_suffix _ _, fun h => ?_⟩
    split
    · exact consumedWidth_le e n (by omega) s _ (by omega)
    · omega

/-! ### `arg_reader` -/

/-- A position and a width: no undefined behaviour, inside the source, and the width does not exceed
    the limit `n` when there is one. -/
def Within (r : Res (List Nat × Int)) (s : List Nat) (lim : Prop) (n : Int) : Prop :=
  r ≠ .ub ∧ ∀ p w, r = .ok (p, w) → p <:+ s ∧ (lim → w ≤ n)

theorem Within.err (x : Err) (s : List Nat) (lim : Prop) (n : Int) : Within (.err x) s lim n := ⟨by simp, by simp⟩

theorem Within.ok {p s : List Nat} {w : Int} {lim : Prop} {n : Int} (h : p <:+ s) (hw : lim → w ≤ n) :
    Within (.ok (p, w)) s lim n := ⟨by simp, fun _ _ hx => by cases hx; exact ⟨h, hw⟩⟩

theorem UnitsOk.take {e : Enc} {s : List Nat} (h : UnitsOk e s) (n : Int) : UnitsOk e (takeWidth e n s) :=
  h.sub fun _ hb => (takeWidth_prefix e n s).subset hb

theorem skipSpace_within (e : Enc) (l : Layout) (b : Bool) (s : List Nat) (h : UnitsOk e s) {lim : Prop} {n : Int}
    (f : List Nat → List Nat × Int) (hf : ∀ p, p <:+ s → (f p).1 <:+ s ∧ (lim → (f p).2 ≤ n)) :
    Within ((skipSpace e l b s).map f) s lim n := by
  rcases skipSpace_cases e l b s h with ⟨x, hx⟩ | ⟨p, hp, hps⟩
  · rw [hx]; exact Within.err _ _ _ _
  · rw [hp]; exact Within.ok (hf p hps).1 (hf p hps).2

theorem skipSpace_view (e : Enc) (b : Bool) (s : List Nat) (h : UnitsOk e s) (n : Int) (hn : 0 ≤ n) (lim : Prop) :
    Within ((skipSpace e (.segmented 0) b (takeWidth e n s)).map fun it =>
      (s.drop ((takeWidth e n s).length - it.length), consumedWidth e n s ((takeWidth e n s).length - it.length))) s lim n := by
  rcases skipSpace_cases e (.segmented 0) b _ (h.take n) with ⟨x, hx⟩ | ⟨p, hp, hps⟩
  · rw [hx]; exact Within.err _ _ _ _
  · rw [hp]; exact Within.ok (List.drop_suffix _ _) (fun _ => consumedWidth_le e n hn s _ (by omega))

theorem argPrefix_within {e : Enc} {sp : Specs} (hs : sp.fill.units e ≠ []) (skipWs : Bool) (l : Layout) (s : List Nat)
    (hu : UnitsOk e s) : Within (argPrefix e sp skipWs l s) s (sp.precision ≠ 0) sp.precision := by
  unfold argPrefix
  dsimp only
  split
  · obtain ⟨p, w, h, hps, hw⟩ := skipFill_total hs s sp.precision (decide (sp.width ≠ 0 ∨ sp.precision ≠ 0))
    rw [h]
    exact Within.ok hps (fun h0 => hw (by omega))
  · split
    · split
      · exact skipSpace_view e false s hu _ (by omega) _
      · rename_i h0
        exact skipSpace_within e l false s hu _ fun p hp => ⟨hp, fun h => absurd h h0⟩
    · exact Within.ok (List.suffix_refl _) (fun _ => by omega)

theorem argBefore_within {e : Enc} {sp : Specs} (hs : sp.fill.units e ≠ []) (skipWs : Bool) (l : Layout) (s : List Nat)
    (hu : UnitsOk e s) : Within (argBefore e sp skipWs l s) s (sp.precision ≠ 0) sp.precision := by
  unfold argBefore
  split
  · dsimp only
    have h := argPrefix_within hs skipWs (.segmented 0) _ (hu.take sp.precision)
    cases hr : argPrefix e sp skipWs (.segmented 0) (takeWidth e sp.precision s) with
    | ub => exact absurd hr h.1
    | err x => exact Within.err _ _ _ _
    | ok a => exact Within.ok (List.drop_suffix _ _) (h.2 a.1 a.2 hr).2
  · exact argPrefix_within hs skipWs l s hu

theorem argPostfix_within {e : Enc} {sp : Specs} (hs : sp.fill.units e ≠ []) (skipWs : Bool) (l : Layout) (p v : Int) (s : List Nat)
    (hu : UnitsOk e s) (hpv : sp.precision ≠ 0 → p + v ≤ sp.precision) :
    Within (argPostfix e sp skipWs l p v s) s (sp.precision ≠ 0) (sp.precision - p - v) := by
  unfold argPostfix
  dsimp only
  split
  · split
    · exact Within.ok (List.suffix_refl _) (fun h => by have := hpv h; omega)
    · rename_i hne
      obtain ⟨q, w, h, hps, hw⟩ := skipFill_total hs s ((sp.precision : Int) - v - p) (decide (sp.width ≠ 0 ∨ sp.precision ≠ 0))
      rw [h]
      refine Within.ok hps (fun h0 => ?_)
      have h1 := hpv h0
      have h2 : ¬ ((sp.precision : Int) - v - p = 0) := fun h => hne ⟨h0, h⟩
      have := hw (by omega)
      omega
  · split
    · split
      · rename_i h0
        exact skipSpace_view e true s hu _ (by have := hpv h0; omega) _
      · rename_i h0
        exact skipSpace_within e l true s hu _ fun p hp => ⟨hp, fun h => absurd h h0⟩
    · exact Within.ok (List.suffix_refl _) (fun h => by have := hpv h; omega)

theorem argAfter_within {e : Enc} {sp : Specs} (hs : sp.fill.units e ≠ []) (skipWs : Bool) (l : Layout) (p v : Int) (s : List Nat)
    (hu : UnitsOk e s) (hpv : sp.precision ≠ 0 → p + v ≤ sp.precision) :
    Within (argAfter e sp skipWs l p v s) s (sp.precision ≠ 0) (sp.precision - p - v) := by
  unfold argAfter
  split
  · exact Within.ok (List.suffix_refl _) (fun h => by have := hpv h; omega)
  · exact argPostfix_within hs skipWs l p v s hu hpv

/-- A reader without undefined behaviour makes `arg_reader` one, with any fill, alignment, width and
    precision, on any source. -/
theorem argRead_sound {V : Type} {e : Enc} {sp : Specs} (hs : sp.fill.units e ≠ []) (rd : Reader V)
    (hrd : ∀ l s, UnitsOk e s → Sound (rd.read l s) s) (lay : List Nat → Layout) (s : List Nat) (hu : UnitsOk e s) :
    Sound (argRead e sp rd lay s) s := by
  unfold argRead
  have hb := argBefore_within hs rd.skipWs (lay s) s hu
  cases h1 : argBefore e sp rd.skipWs (lay s) s with
  | ub => exact absurd h1 hb.1
  | err x => exact Sound.err _ _
  | ok b =>
    obtain ⟨b, pw⟩ := b
    obtain ⟨hbs, hbw⟩ := hb.2 b pw h1
    simp only [Res.bind_ok]
    have hub : UnitsOk e b := hu.sub fun _ h => hbs.subset h
    have hv : argValue e sp rd (lay b) pw b ≠ .ub ∧ ∀ v q w, argValue e sp rd (lay b) pw b = .ok (v, q, w) →
        q <:+ b ∧ (sp.precision ≠ 0 → pw + w ≤ sp.precision) := by
      unfold argValue
      split
      · split
        · exact ⟨by simp, by simp⟩
        · rename_i hlt
          dsimp only
          have hr := hrd (.segmented 0) _ (hub.take ((sp.precision : Int) - pw))
          cases h2 : rd.read (.segmented 0) (takeWidth e ((sp.precision : Int) - pw) b) with
          | ub => exact absurd h2 hr.1
          | err x => exact ⟨by simp [Res.map], by simp [Res.map]⟩
          | ok a =>
            refine ⟨by simp [Res.map], fun v q w hq => ?_⟩
            simp only [Res.map, Res.ok.injEq, Prod.mk.injEq] at hq
            obtain ⟨_, rfl, rfl⟩ := hq
            refine ⟨List.drop_suffix _ _, fun _ => ?_⟩
            have := consumedWidth_le e ((sp.precision : Int) - pw) (by omega) b
              ((takeWidth e ((sp.precision : Int) - pw) b).length - a.2.length) (by omega)
            omega
      · rename_i h0
        have hr := hrd (lay b) b hub
        cases h2 : rd.read (lay b) b with
        | ub => exact absurd h2 hr.1
        | err x => exact ⟨by simp [Res.map], by simp [Res.map]⟩
        | ok a =>
          refine ⟨by simp [Res.map], fun v q w hq => ?_⟩
          simp only [Res.map, Res.ok.injEq, Prod.mk.injEq] at hq
          obtain ⟨_, rfl, rfl⟩ := hq
          exact ⟨hr.2 a.1 a.2 h2, fun h => absurd h h0⟩
    cases h2 : argValue e sp rd (lay b) pw b with
    | ub => exact absurd h2 hv.1
    | err x => exact Sound.err _ _
    | ok r =>
      obtain ⟨v, q, w⟩ := r
      obtain ⟨hqs, hqw⟩ := hv.2 v q w h2
      simp only [Res.bind_ok]
      have ha := argAfter_within hs rd.skipWs (lay q) pw w q (hub.sub fun _ h => hqs.subset h) hqw
      cases h3 : argAfter e sp rd.skipWs (lay q) pw w q with
      | ub => exact absurd h3 ha.1
      | err x => exact Sound.err _ _
      | ok a =>
        obtain ⟨a, aw⟩ := a
        obtain ⟨has, haw⟩ := ha.2 a aw h3
        simp only [Res.bind_ok]
        unfold checkWidths
        split
        · exact Sound.err _ _
        · split
          · rename_i h4
            exact absurd (by have := haw h4.1; omega) h4.2
          · exact Sound.ok _ (has.trans (hqs.trans hbs))

end Scn
