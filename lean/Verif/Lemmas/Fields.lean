import Verif.Lemmas.Width
/-
`arg_reader` on well-formed text does what `Spec.PaddedField.read` says.
-/
namespace Scn
open Spec

variable {V : Type}

/-- The alignment of the format specs, as a side. -/
def Align.side : Align → Side
  | .none => .unspecified
  | .left => .after
  | .right => .before
  | .center => .both

/-- The specs describe this field. (The fill condition fails for wide fill characters above 255,
    see `C28_violated_wide_fill`.) -/
structure Describes (e : Enc) (sp : Specs) (F : PaddedField) : Prop where
  width : sp.width = F.width
  precision : sp.precision = F.precision
  side : sp.align.side = F.side
  fill : sp.fill.units e = encode e F.fill
  scalar : IsScalar F.fill

/-- A reader that reads whole characters, and the same reader on code points (on texts of characters
    with property `P`). -/
structure Whole (e : Enc) (P : Nat → Prop) (rd : Layout → List Nat → Res (V × List Nat)) (rds : List Nat → Res (V × List Nat)) : Prop where
  read : ∀ l cps, (∀ cp ∈ cps, P cp) → GoodLayout e l cps →
    rd l (encodes e cps) = (rds cps).map fun r => (r.1, encodes e r.2)
  scalar : ∀ cp, P cp → IsScalar cp
  suffix : ∀ cps v r, rds cps = .ok (v, r) → r <:+ cps

theorem goodLayout_zero (e : Enc) (cps : List Nat) : GoodLayout e (.segmented 0) cps := by
  cases e <;> simp only [GoodLayout]
  exact ⟨[], cps, rfl, by simp [utf8s]⟩

theorem Res.map_map {α β γ : Type} (r : Res α) (f : α → β) (g : β → γ) : (r.map f).map g = r.map fun x => g (f x) := by
  cases r <;> rfl

theorem view_zero (F : PaddedField) (cps : List Nat) : F.view 0 cps <+: cps := by
  unfold PaddedField.view; split
  · exact List.prefix_refl _
  · exact fit_prefix _ _

theorem view_prefix (F : PaddedField) (u : Nat) (cps : List Nat) : F.view u cps <+: cps := by
  unfold PaddedField.view; split
  · exact List.prefix_refl _
  · exact fit_prefix _ _

theorem dropWhile_nil_iff {α : Type} (p : α → Bool) (l : List α) : l.dropWhile p = [] ↔ l.takeWhile p = l := by
  have := List.takeWhile_append_dropWhile (p := p) (l := l)
  constructor
  · intro h; rw [h, List.append_nil] at this; exact this
  · intro h
    have hl := congrArg List.length this
    rw [h, List.length_append] at hl
    exact List.length_eq_zero_iff.mp (by omega)

theorem between_encodes (e : Enc) (p : Nat → Bool) (cps : List Nat) :
    between (encodes e cps) (encodes e (cps.dropWhile p)) = encodes e (cps.takeWhile p) := by
  conv => lhs; lhs; rw [← List.takeWhile_append_dropWhile (p := p) (l := cps)]
  rw [encodes_append, between_append]

theorem skipSpace_encodes (e : Enc) (l : Layout) (cps : List Nat) (h : ∀ cp ∈ cps, IsScalar cp) (hl : GoodLayout e l cps)
    (b : Bool) :
    skipSpace e l b (encodes e cps) =
      if b = false ∧ cps.takeWhile isSpace = cps then .err .endOfInput else .ok (encodes e (cps.dropWhile isSpace)) := by
  unfold skipSpace
  rw [readWhileSpace_encodes e l cps h hl]
  dsimp only
  have : (¬ b = true ∧ encodes e (cps.dropWhile isSpace) = []) ↔ (b = false ∧ cps.takeWhile isSpace = cps) := by
    rw [encodes_eq_nil, dropWhile_nil_iff, Bool.not_eq_true]
  by_cases hc : b = false ∧ cps.takeWhile isSpace = cps
  · rw [if_pos hc, if_pos (this.mpr hc)]
  · rw [if_neg hc, if_neg (fun h => hc (this.mp h))]

/-- The width counted for some text. -/
def counted (F : PaddedField) (cps : List Nat) : Int := if F.width ≠ 0 ∨ F.precision ≠ 0 then (cols cps : Int) else 0

theorem argBefore_spec (e : Enc) (sp : Specs) (F : PaddedField) (hF : Describes e sp F) (skipWs : Bool) (l : Layout)
    (cps : List Nat) (h : ∀ cp ∈ cps, IsScalar cp) (hl : GoodLayout e l cps) :
    argBefore e sp skipWs l (encodes e cps) =
      if F.side = .unspecified ∧ skipWs = true ∧ F.before skipWs cps = F.view 0 cps then .err .endOfInput
      else .ok (encodes e (cps.drop (F.before skipWs cps).length), counted F (F.before skipWs cps)) := by
  obtain ⟨hw, hp, hs, hfl, hsc⟩ := hF
  unfold argBefore
  rw [hp]
  by_cases hp0 : F.precision = 0
  · -- no limit
    rw [if_neg (by simp [hp0])]
    have hv : F.view 0 cps = cps := by unfold PaddedField.view; rw [if_pos hp0]
    unfold argPrefix
    rw [hp, hw]
    cases ha : sp.align with
    | right =>
      rw [ha] at hs
      have hb : F.before skipWs cps = cps.takeWhile (· == F.fill) := by
        unfold PaddedField.before; rw [← hs]; simp only [Align.side]; rw [hv]
      rw [if_pos (by simp), if_neg (by rw [← hs]; simp [Align.side]), hb, takeWhile_drop]
      have := skipFill_unlimited e sp.fill F.fill hsc hfl cps h F.precision (by omega) (decide (F.width ≠ 0 ∨ F.precision ≠ 0))
      rw [this]
      unfold counted
      by_cases hn : F.width ≠ 0 ∨ F.precision ≠ 0
      · simp [hn]
      · simp [hn]
    | center =>
      rw [ha] at hs
      have hb : F.before skipWs cps = cps.takeWhile (· == F.fill) := by
        unfold PaddedField.before; rw [← hs]; simp only [Align.side]; rw [hv]
      rw [if_pos (by simp), if_neg (by rw [← hs]; simp [Align.side]), hb, takeWhile_drop]
      have := skipFill_unlimited e sp.fill F.fill hsc hfl cps h F.precision (by omega) (decide (F.width ≠ 0 ∨ F.precision ≠ 0))
      rw [this]
      unfold counted
      by_cases hn : F.width ≠ 0 ∨ F.precision ≠ 0
      · simp [hn]
      · simp [hn]
    | left =>
      rw [ha] at hs
      have hb : F.before skipWs cps = [] := by
        unfold PaddedField.before; rw [← hs]; rfl
      rw [if_neg (by simp), if_neg (by simp), if_neg (by rw [← hs]; simp [Align.side]), hb]
      simp [counted, cols_nil]
    | none =>
      rw [ha] at hs
      cases skipWs with
      | false =>
        have hb : F.before false cps = [] := by
          unfold PaddedField.before; rw [← hs]; rfl
        rw [if_neg (by simp), if_neg (by simp), if_neg (by simp), hb]
        simp [counted, cols_nil]
      | true =>
        have hb : F.before true cps = cps.takeWhile isSpace := by
          unfold PaddedField.before; rw [← hs]; simp only [Align.side, if_true]; rw [hv]
        rw [if_neg (by simp), if_pos (by simp), if_neg (by simp [hp0]), skipSpace_encodes e l cps h hl, hb, hv, ← hs]
        simp only [Align.side, true_and]
        by_cases hx : cps.takeWhile isSpace = cps
        · rw [if_pos hx, if_pos hx]; rfl
        · rw [if_neg hx, if_neg hx, Res.map_ok, takeWhile_drop, between_encodes,
            textWidthOf_encodes e _ (fun x hx => h x (mem_takeWhile hx).1)]
          unfold counted
          by_cases hn : F.width ≠ 0 ∨ F.precision ≠ 0
          · simp [hn]
          · simp [hn]
  · -- within the precision
    have hv : F.view 0 cps = fit F.precision cps := by unfold PaddedField.view; rw [if_neg hp0, Nat.sub_zero]
    have hfs : ∀ cp ∈ fit F.precision cps, IsScalar cp := fun x hx => h x ((fit_prefix _ _).subset hx)
    have hcnt : ∀ t, counted F t = cols t := fun t => by unfold counted; rw [if_pos (Or.inr hp0)]
    rw [if_pos hp0]
    dsimp only
    rw [takeWidth_encodes e _ cps h]
    -- positions in the view and in the source
    have hback : ∀ p : Nat → Bool, (encodes e cps).drop ((encodes e (fit F.precision cps)).length -
        (encodes e ((fit F.precision cps).drop ((fit F.precision cps).takeWhile p).length)).length) =
        encodes e (cps.drop ((fit F.precision cps).takeWhile p).length) := by
      intro p
      rw [takeWhile_drop]
      exact (skip_in_view e p cps h F.precision 0).1
    unfold argPrefix
    rw [hp, hw]
    have hneed : decide (F.width ≠ 0 ∨ F.precision ≠ 0) = true := by simp [hp0]
    have hfill := skipFill_limited e sp.fill F.fill hsc hfl (fit F.precision cps) hfs F.precision hp0
    rw [fit_fit] at hfill
    cases ha : sp.align with
    | right =>
      rw [ha] at hs
      have hb : F.before skipWs cps = (fit F.precision cps).takeWhile (· == F.fill) := by
        unfold PaddedField.before; rw [← hs]; simp only [Align.side]; rw [hv]
      rw [if_pos (by simp), if_neg (by rw [← hs]; simp [Align.side]), hb, hneed, hfill, Res.map_ok, hback, hcnt]
    | center =>
      rw [ha] at hs
      have hb : F.before skipWs cps = (fit F.precision cps).takeWhile (· == F.fill) := by
        unfold PaddedField.before; rw [← hs]; simp only [Align.side]; rw [hv]
      rw [if_pos (by simp), if_neg (by rw [← hs]; simp [Align.side]), hb, hneed, hfill, Res.map_ok, hback, hcnt]
    | left =>
      rw [ha] at hs
      have hb : F.before skipWs cps = [] := by
        unfold PaddedField.before; rw [← hs]; rfl
      rw [if_neg (by simp), if_neg (by simp), if_neg (by rw [← hs]; simp [Align.side]), hb, hcnt]
      simp [cols_nil]
    | none =>
      rw [ha] at hs
      cases skipWs with
      | false =>
        have hb : F.before false cps = [] := by
          unfold PaddedField.before; rw [← hs]; rfl
        rw [if_neg (by simp), if_neg (by simp), if_neg (by simp), hb, hcnt]
        simp [cols_nil]
      | true =>
        have hb : F.before true cps = (fit F.precision cps).takeWhile isSpace := by
          unfold PaddedField.before; rw [← hs]; simp only [Align.side, if_true]; rw [hv]
        rw [if_neg (by simp), if_pos (by simp), if_pos hp0]
        dsimp only
        rw [takeWidth_encodes e _ _ hfs, fit_fit, skipSpace_encodes e _ _ hfs (goodLayout_zero e _), hb, hv, ← hs]
        simp only [Align.side, true_and]
        by_cases hx : (fit F.precision cps).takeWhile isSpace = fit F.precision cps
        · rw [if_pos hx, if_pos hx]; rfl
        · rw [if_neg hx, if_neg hx, Res.map_ok, Res.map_ok]
          dsimp only
          have h1 := skip_in_view e isSpace (fit F.precision cps) hfs F.precision F.precision
          rw [fit_fit] at h1
          rw [h1.1, h1.2, hback, hcnt]

theorem suffix_take {α : Type} {r v : List α} (h : r <:+ v) : v = v.take (v.length - r.length) ++ r := by
  obtain ⟨t, rfl⟩ := h
  rw [List.length_append, Nat.add_sub_cancel, List.take_left]

/-- The value is read by a reader that gives `res` on what the field may look at. -/
theorem argValue_at (e : Enc) (sp : Specs) (F : PaddedField) (hF : Describes e sp F) (rd : Reader V) (l : Layout)
    (cps : List Nat) (h : ∀ cp ∈ cps, IsScalar cp) (used : List Nat) (res : Res (V × List Nat))
    (hread : rd.read (if F.precision = 0 then l else .segmented 0) (encodes e (F.view (cols used) cps)) = res.map fun r => (r.1, encodes e r.2))
    (hsuf : ∀ v r, res = .ok (v, r) → r <:+ F.view (cols used) cps) :
    argValue e sp rd l (counted F used) (encodes e cps) =
      if F.precision ≠ 0 ∧ F.precision ≤ cols used then .err .invalidFill
      else res.map fun r =>
        let val := (F.view (cols used) cps).take ((F.view (cols used) cps).length - r.2.length)
        (r.1, encodes e (cps.drop val.length), counted F val) := by
  obtain ⟨hw, hp, hs, hfl, hsc⟩ := hF
  unfold argValue
  rw [hp]
  by_cases hp0 : F.precision = 0
  · have hv : F.view (cols used) cps = cps := by unfold PaddedField.view; rw [if_pos hp0]
    rw [hv] at hread hsuf
    rw [if_pos hp0] at hread
    rw [if_neg (by simp [hp0]), if_neg (by simp [hp0]), hread, hv, Res.map_map]
    cases hr : res with
    | ub => rfl
    | err x => rfl
    | ok r =>
      obtain ⟨v, r⟩ := r
      have hsuf := hsuf v r hr
      have hsplit := suffix_take hsuf
      simp only [Res.map_ok]
      have hd : cps.drop (cps.take (cps.length - r.length)).length = r := by
        conv => lhs; rhs; rw [hsplit]
        rw [List.drop_left]
      rw [hd]
      have hb : between (encodes e cps) (encodes e r) = encodes e (cps.take (cps.length - r.length)) := by
        conv => lhs; lhs; rw [hsplit]
        rw [encodes_append, between_append]
      rw [hb, textWidthOf_encodes e _ (fun x hx => h x (List.mem_of_mem_take hx)), hw]
      unfold counted
      simp [hp0]
  · have hc : counted F used = cols used := by unfold counted; rw [if_pos (Or.inr hp0)]
    rw [if_pos hp0, hc]
    by_cases hle : F.precision ≤ cols used
    · rw [if_pos (by omega), if_pos ⟨hp0, hle⟩]
    · rw [if_neg (by omega), if_neg (by omega)]
      dsimp only
      have hv : F.view (cols used) cps = fit (F.precision - cols used) cps := by unfold PaddedField.view; rw [if_neg hp0]
      rw [hv, show (F.precision : Int) - cols used = ((F.precision - cols used : Nat) : Int) by omega,
        takeWidth_encodes e _ cps h]
      generalize hn : F.precision - cols used = n
      rw [hv, hn] at hread hsuf
      rw [if_neg hp0] at hread
      rw [hread, Res.map_map]
      cases hr : res with
      | ub => rfl
      | err x => rfl
      | ok r =>
        obtain ⟨v, r⟩ := r
        have hsuf := hsuf v r hr
        have hsplit := suffix_take hsuf
        simp only [Res.map_ok]
        generalize hval : (fit n cps).take ((fit n cps).length - r.length) = val at hsplit ⊢
        obtain ⟨t, ht⟩ := fit_prefix n cps
        have hcps : cps = val ++ (r ++ t) := by rw [← List.append_assoc, ← hsplit, ht]
        have hk : (encodes e (fit n cps)).length - (encodes e r).length = (encodes e val).length := by
          rw [hsplit, encodes_append, List.length_append]; omega
        have hvs : ∀ x ∈ val, IsScalar x := fun x hx => h x (by rw [hcps]; simp [hx])
        rw [hk]
        have h1 : (encodes e cps).drop (encodes e val).length = encodes e (cps.drop val.length) := by
          conv => lhs; rw [hcps]
          conv => rhs; rw [hcps]
          rw [List.drop_left, encodes_append, List.drop_left]
        have h2 : consumedWidth e (n : Int) (encodes e cps) (encodes e val).length = cols val := by
          conv => lhs; rw [hcps]
          exact consumedWidth_encodes e n val _ hvs
        have h3 : counted F val = cols val := by unfold counted; rw [if_pos (Or.inr hp0)]
        rw [h1, h2, h3]

theorem argAfter_spec (e : Enc) (sp : Specs) (F : PaddedField) (hF : Describes e sp F) (skipWs : Bool) (l : Layout)
    (cps : List Nat) (h : ∀ cp ∈ cps, IsScalar cp) (hl : GoodLayout e l cps) (pre val : List Nat)
    (hle : F.precision ≠ 0 → cols pre + cols val ≤ F.precision) :
    argAfter e sp skipWs l (counted F pre) (counted F val) (encodes e cps) =
      .ok (encodes e (cps.drop (F.after skipWs (cols pre + cols val) cps).length),
        counted F (F.after skipWs (cols pre + cols val) cps)) := by
  obtain ⟨hw, hp, hs, hfl, hsc⟩ := hF
  unfold argAfter
  by_cases hnil : cps = []
  · subst hnil
    have hv : ∀ u, F.view u [] = [] := by intro u; unfold PaddedField.view; split <;> simp [fit]
    have : F.after skipWs (cols pre + cols val) [] = [] := by
      unfold PaddedField.after
      split
      · rw [hv]; rfl
      · rw [hv]; rfl
      · rfl
      · split
        · rw [hv]; rfl
        · rfl
    rw [this, encodes_nil, if_pos rfl]
    simp [counted, cols_nil, encodes_nil]
  rw [if_neg (by rw [encodes_eq_nil]; exact hnil)]
  unfold argPostfix
  rw [hp, hw]
  by_cases hp0 : F.precision = 0
  · have hv : ∀ u, F.view u cps = cps := by intro u; unfold PaddedField.view; rw [if_pos hp0]
    have hneg : (F.precision : Int) - counted F val - counted F pre ≤ 0 := by
      unfold counted; split <;> omega
    have hfill := skipFill_unlimited e sp.fill F.fill hsc hfl cps h ((F.precision : Int) - counted F val - counted F pre) hneg
      (decide (F.width ≠ 0 ∨ F.precision ≠ 0))
    have hcnt : ∀ t, (if decide (F.width ≠ 0 ∨ F.precision ≠ 0) = true then (cols t : Int) else 0) = counted F t := by
      intro t; unfold counted
      by_cases hn : F.width ≠ 0 ∨ F.precision ≠ 0
      · simp [hn]
      · simp [hn]
    cases ha : sp.align with
    | right =>
      rw [ha] at hs
      have hb : F.after skipWs (cols pre + cols val) cps = [] := by unfold PaddedField.after; rw [← hs]; rfl
      rw [if_neg (by simp), if_neg (by simp), hb]
      simp [counted, cols_nil]
    | left =>
      rw [ha] at hs
      have hb : F.after skipWs (cols pre + cols val) cps = cps.takeWhile (· == F.fill) := by
        unfold PaddedField.after; rw [← hs]; simp only [Align.side]; rw [hv]
      rw [if_pos (by simp), if_neg (by simp [hp0]), hfill, hb, takeWhile_drop]
      dsimp only
      rw [hcnt]
    | center =>
      rw [ha] at hs
      have hb : F.after skipWs (cols pre + cols val) cps = cps.takeWhile (· == F.fill) := by
        unfold PaddedField.after; rw [← hs]; simp only [Align.side]; rw [hv]
      rw [if_pos (by simp), if_neg (by simp [hp0]), hfill, hb, takeWhile_drop]
      dsimp only
      rw [hcnt]
    | none =>
      rw [ha] at hs
      rw [if_neg (by simp)]
      have hun : (F.unfinished (cols pre + cols val)) ↔
          ((F.width ≠ 0 ∧ counted F pre + counted F val < F.width) ∨ (F.precision ≠ 0 ∧ counted F pre + counted F val < F.precision)) := by
        unfold PaddedField.unfinished counted
        by_cases hn : F.width ≠ 0 ∨ F.precision ≠ 0
        · rw [if_pos hn, if_pos hn]; omega
        · rw [if_neg hn, if_neg hn]; omega
      have hb : F.after skipWs (cols pre + cols val) cps =
          if (! skipWs) = true ∧ F.unfinished (cols pre + cols val) then cps.takeWhile isSpace else [] := by
        unfold PaddedField.after; rw [← hs]; simp only [Align.side]; rw [hv]
      rw [hb]
      by_cases hc : (! skipWs) = true ∧ F.unfinished (cols pre + cols val)
      · rw [if_pos hc, if_pos ⟨rfl, hc.1, hun.mp hc.2⟩, if_neg (by simp [hp0]), skipSpace_encodes e l cps h hl,
          if_neg (by simp), Res.map_ok, takeWhile_drop, between_encodes, textWidthOf_encodes e _ (fun x hx => h x (mem_takeWhile hx).1),
          hcnt]
      · rw [if_neg hc, if_neg (fun hh => hc ⟨hh.2.1, hun.mpr hh.2.2⟩)]
        simp [counted, cols_nil]
  · have hcnt : ∀ t, counted F t = cols t := fun t => by unfold counted; rw [if_pos (Or.inr hp0)]
    have hle := hle hp0
    have hv : F.view (cols pre + cols val) cps = fit (F.precision - (cols pre + cols val)) cps := by
      unfold PaddedField.view; rw [if_neg hp0]
    rw [hcnt, hcnt, hcnt]
    generalize hn : F.precision - (cols pre + cols val) = n at hv
    have hni : (F.precision : Int) - cols val - cols pre = (n : Int) := by omega
    have hni' : (F.precision : Int) - cols pre - cols val = (n : Int) := by omega
    have hneed : decide (F.width ≠ 0 ∨ F.precision ≠ 0) = true := by simp [hp0]
    have hfs : ∀ cp ∈ fit n cps, IsScalar cp := fun x hx => h x ((fit_prefix _ _).subset hx)
    have hfit0 : n = 0 → fit n cps = [] := by
      intro h0; cases cps with
      | nil => rfl
      | cons c cs =>
        have := columns_pos c
        rw [fit, if_neg (by omega)]
    cases ha : sp.align with
    | right =>
      rw [ha] at hs
      have hb : F.after skipWs (cols pre + cols val) cps = [] := by unfold PaddedField.after; rw [← hs]; rfl
      rw [if_neg (by simp), if_neg (by simp), hb]
      simp [cols_nil]
    | left =>
      rw [ha] at hs
      have hb : F.after skipWs (cols pre + cols val) cps = (fit n cps).takeWhile (· == F.fill) := by
        unfold PaddedField.after; rw [← hs]; simp only [Align.side]; rw [hv]
      rw [if_pos (by simp), hni, hb]
      by_cases h0 : n = 0
      · rw [if_pos ⟨hp0, by omega⟩, hfit0 h0]; simp [cols_nil]
      · rw [if_neg (by omega), hneed, skipFill_limited e sp.fill F.fill hsc hfl cps h n h0]
    | center =>
      rw [ha] at hs
      have hb : F.after skipWs (cols pre + cols val) cps = (fit n cps).takeWhile (· == F.fill) := by
        unfold PaddedField.after; rw [← hs]; simp only [Align.side]; rw [hv]
      rw [if_pos (by simp), hni, hb]
      by_cases h0 : n = 0
      · rw [if_pos ⟨hp0, by omega⟩, hfit0 h0]; simp [cols_nil]
      · rw [if_neg (by omega), hneed, skipFill_limited e sp.fill F.fill hsc hfl cps h n h0]
    | none =>
      rw [ha] at hs
      rw [if_neg (by simp)]
      have hun : (F.unfinished (cols pre + cols val)) ↔
          ((F.width ≠ 0 ∧ (cols pre : Int) + cols val < F.width) ∨ (F.precision ≠ 0 ∧ (cols pre : Int) + cols val < F.precision)) := by
        unfold PaddedField.unfinished; omega
      have hb : F.after skipWs (cols pre + cols val) cps =
          if (! skipWs) = true ∧ F.unfinished (cols pre + cols val) then (fit n cps).takeWhile isSpace else [] := by
        unfold PaddedField.after; rw [← hs]; simp only [Align.side]; rw [hv]
      rw [hb]
      by_cases hc : (! skipWs) = true ∧ F.unfinished (cols pre + cols val)
      · rw [if_pos hc, if_pos ⟨rfl, hc.1, hun.mp hc.2⟩, if_pos hp0]
        dsimp only
        rw [hni', takeWidth_encodes e _ cps h, skipSpace_encodes e _ _ hfs (goodLayout_zero e _), if_neg (by simp), Res.map_ok]
        obtain ⟨h1, h2⟩ := skip_in_view e isSpace cps h n n
        rw [h1, h2]
      · rw [if_neg hc, if_neg (fun hh => hc ⟨hh.2.1, hun.mpr hh.2.2⟩)]
        simp [cols_nil]

theorem cols_take_prefix {a b : List Nat} (h : a <+: b) : cols a ≤ cols b := by
  obtain ⟨t, rfl⟩ := h; rw [cols_append]; omega

theorem take_prefix_view (F : PaddedField) (u : Nat) (cps : List Nat) (hp : F.precision ≠ 0) (k : Nat) :
    cols ((F.view u cps).take k) ≤ F.precision - u := by
  unfold PaddedField.view
  rw [if_neg hp]
  exact Nat.le_trans (cols_take_prefix (List.take_prefix _ _)) (fit_cols _ _)

theorem after_cols (F : PaddedField) (skipWs : Bool) (u : Nat) (cps : List Nat) (hp : F.precision ≠ 0) :
    cols (F.after skipWs u cps) ≤ F.precision - u := by
  have hv : ∀ p : Nat → Bool, cols ((F.view u cps).takeWhile p) ≤ F.precision - u := by
    intro p
    refine Nat.le_trans (cols_take_prefix (List.takeWhile_prefix _)) ?_
    unfold PaddedField.view; rw [if_neg hp]; exact fit_cols _ _
  unfold PaddedField.after
  split
  · exact hv _
  · exact hv _
  · simp [cols_nil]
  · split
    · exact hv _
    · simp [cols_nil]

theorem before_cols (F : PaddedField) (skipWs : Bool) (cps : List Nat) (hp : F.precision ≠ 0) :
    cols (F.before skipWs cps) ≤ F.precision := by
  have hv : ∀ p : Nat → Bool, cols ((F.view 0 cps).takeWhile p) ≤ F.precision := by
    intro p
    refine Nat.le_trans (cols_take_prefix (List.takeWhile_prefix _)) ?_
    unfold PaddedField.view; rw [if_neg hp]; exact fit_cols _ _
  unfold PaddedField.before
  split
  · exact hv _
  · exact hv _
  · simp [cols_nil]
  · split
    · exact hv _
    · simp [cols_nil]

/-- `arg_reader` reads a field as specified, if the reader gives `res` on what the field may look at after what is
    skipped. -/
theorem argRead_at (e : Enc) (sp : Specs) (F : PaddedField) (hF : Describes e sp F) (rd : Reader V)
    (lay : List Nat → Layout) (cps : List Nat) (h : ∀ cp ∈ cps, IsScalar cp)
    (hlay : ∀ t, t <:+ cps → GoodLayout e (lay (encodes e t)) t) (rds : List Nat → Res (V × List Nat)) (pre : List Nat)
    (hpre : F.before rd.skipWs cps = pre)
    (hread : rd.read (if F.precision = 0 then lay (encodes e (cps.drop pre.length)) else .segmented 0)
        (encodes e (F.view (cols pre) (cps.drop pre.length))) =
      (rds (F.view (cols pre) (cps.drop pre.length))).map fun r => (r.1, encodes e r.2))
    (hsuf : ∀ v r, rds (F.view (cols pre) (cps.drop pre.length)) = .ok (v, r) → r <:+ F.view (cols pre) (cps.drop pre.length)) :
    argRead e sp rd lay (encodes e cps) = (F.read rd.skipWs rds cps).map fun r => (r.1, encodes e r.2) := by
  unfold argRead PaddedField.read
  rw [argBefore_spec e sp F hF rd.skipWs _ cps h (hlay cps (List.suffix_refl _))]
  dsimp only
  by_cases h1 : F.side = .unspecified ∧ rd.skipWs = true ∧ F.before rd.skipWs cps = F.view 0 cps
  · rw [if_pos h1, if_pos h1]; rfl
  rw [if_neg h1, if_neg h1, Res.bind_ok]
  rw [hpre]
  have hpc : F.precision ≠ 0 → cols pre ≤ F.precision := fun hp => by rw [← hpre]; exact before_cols F _ _ hp
  dsimp only
  have hd1 : cps.drop pre.length <:+ cps := List.drop_suffix _ _
  have hs1 : ∀ cp ∈ cps.drop pre.length, IsScalar cp := fun x hx => h x (hd1.subset hx)
  rw [argValue_at e sp F hF rd _ _ hs1 pre _ hread hsuf]
  by_cases h2 : F.precision ≠ 0 ∧ F.precision ≤ cols pre
  · rw [if_pos h2, if_pos h2]; rfl
  rw [if_neg h2, if_neg h2]
  cases hr : rds (F.view (cols pre) (cps.drop pre.length)) with
  | ub => rfl
  | err x => rfl
  | ok r =>
    obtain ⟨v, r⟩ := r
    simp only [Res.map_ok, Res.bind_ok]
    generalize hval : (F.view (cols pre) (cps.drop pre.length)).take ((F.view (cols pre) (cps.drop pre.length)).length - r.length) = val
    have hvc : F.precision ≠ 0 → cols val ≤ F.precision - cols pre := fun hp => by
      rw [← hval]; exact take_prefix_view F _ _ hp _
    have hd2 : (cps.drop pre.length).drop val.length <:+ cps := (List.drop_suffix _ _).trans hd1
    have hs2 : ∀ cp ∈ (cps.drop pre.length).drop val.length, IsScalar cp := fun x hx => h x (hd2.subset hx)
    rw [argAfter_spec e sp F hF rd.skipWs _ _ hs2 (hlay _ hd2) pre val (fun hp => by have := hvc hp; have := hpc hp; omega), Res.bind_ok]
    dsimp only
    generalize hpost : F.after rd.skipWs (cols pre + cols val) ((cps.drop pre.length).drop val.length) = post
    have hoc : F.precision ≠ 0 → cols post ≤ F.precision - (cols pre + cols val) := fun hp => by
      rw [← hpost]; exact after_cols F _ _ _ hp
    unfold checkWidths
    rw [hF.width, hF.precision]
    have hsum : F.width ≠ 0 ∨ F.precision ≠ 0 → counted F pre + counted F val + counted F post = ((cols pre + cols val + cols post : Nat) : Int) := by
      intro hn; unfold counted; simp only [if_pos hn]; omega
    by_cases hshort : cols pre + cols val + cols post < F.width
    · rw [if_pos hshort, if_pos]
      · rfl
      · refine ⟨by omega, ?_⟩
        rw [hsum (Or.inl (by omega))]; omega
    · rw [if_neg hshort, if_neg, if_neg]
      · rfl
      · rintro ⟨hp, hx⟩
        rw [hsum (Or.inr hp)] at hx
        have := hvc hp; have := hoc hp; have := hpc hp
        omega
      · rintro ⟨hw, hx⟩
        rw [hsum (Or.inl hw)] at hx; omega

/-- `arg_reader` reads fields as specified. -/
theorem argRead_spec (e : Enc) (sp : Specs) (F : PaddedField) (hF : Describes e sp F) (rd : Reader V)
    (rds : List Nat → Res (V × List Nat)) {P : Nat → Prop} (hrd : Whole e P rd.read rds) (lay : List Nat → Layout) (cps : List Nat)
    (hP : ∀ cp ∈ cps, P cp) (hlay : ∀ t, t <:+ cps → GoodLayout e (lay (encodes e t)) t) :
    argRead e sp rd lay (encodes e cps) = (F.read rd.skipWs rds cps).map fun r => (r.1, encodes e r.2) := by
  have h : ∀ cp ∈ cps, IsScalar cp := fun x hx => hrd.scalar x (hP x hx)
  have hd : cps.drop (F.before rd.skipWs cps).length <:+ cps := List.drop_suffix _ _
  refine argRead_at e sp F hF rd lay cps h hlay rds _ rfl (hrd.read _ _ ?_ ?_) (fun v r hr => hrd.suffix _ v r hr)
  · exact fun x hx => hP x (hd.subset ((view_prefix F _ _).subset hx))
  · split
    · rename_i hp0
      rw [show F.view (cols (F.before rd.skipWs cps)) (cps.drop (F.before rd.skipWs cps).length) = cps.drop (F.before rd.skipWs cps).length by
        unfold PaddedField.view; rw [if_pos hp0]]
      exact hlay _ hd
    · exact goodLayout_zero e _

end Scn
