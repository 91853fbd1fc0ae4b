import Verif.Spec.Padded
import Verif.Lemmas.Fields2
import Verif.Lemmas.Calls2
import Verif.Props.Integers
/-
Reading back values printed with padding.
-/
namespace Scn
open Spec

variable {V : Type}

theorem view_append (F : PaddedField) (u : Nat) (a b : List Nat) (h : F.precision = 0 ∨ u + cols a ≤ F.precision) :
    F.view u (a ++ b) = a ++ F.view (u + cols a) b := by
  unfold PaddedField.view
  by_cases hp : F.precision = 0
  · rw [if_pos hp, if_pos hp]
  · have := h.resolve_left hp
    rw [if_neg hp, if_neg hp, fit_append _ a b (by omega), Nat.sub_sub]

theorem takeWhile_replicate_stop (p : Nat → Bool) (n f : Nat) (r : List Nat) (hf : p f = true) (hr : ∀ c, r.head? = some c → p c = false) :
    (List.replicate n f ++ r).takeWhile p = List.replicate n f := by
  induction n with
  | zero =>
    cases r with
    | nil => rfl
    | cons c r => simp [hr c rfl]
  | succ n ih => rw [List.replicate_succ, List.cons_append, List.takeWhile_cons, if_pos hf, ih]

theorem takeWhile_none (p : Nat → Bool) (r : List Nat) (hr : ∀ c, r.head? = some c → p c = false) : r.takeWhile p = [] := by
  cases r with
  | nil => rfl
  | cons c r => simp [hr c rfl]

theorem cols_replicate (n f : Nat) : n ≤ cols (List.replicate n f) := by
  induction n with
  | zero => exact Nat.zero_le _
  | succ n ih => rw [List.replicate_succ, cols_cons]; have := columns_pos f; omega

/-- The field is as wide as it should be. -/
theorem pad_wide (F : PaddedField) (right : Bool) (text : List Nat) : F.width ≤ cols (F.pad right text) := by
  unfold PaddedField.pad PaddedField.fills
  rw [cols_append, cols_append]
  dsimp only
  cases F.side with
  | before => have := cols_replicate (F.width - cols text) F.fill; dsimp only; omega
  | after => have := cols_replicate (F.width - cols text) F.fill; dsimp only; omega
  | both =>
    have := cols_replicate ((F.width - cols text) / 2) F.fill
    have := cols_replicate (F.width - cols text - (F.width - cols text) / 2) F.fill
    dsimp only; omega
  | unspecified =>
    have := cols_replicate (F.width - cols text) 32
    dsimp only
    split <;> dsimp only <;> omega

theorem head_append_ne_nil {text r : List Nat} (h : text ≠ []) : (text ++ r).head? = text.head? := by
  cases text with
  | nil => exact absurd rfl h
  | cons c t => rfl

/-- What is skipped before a printed value is the padding before it. -/
theorem before_pad (F : PaddedField) (right keeps : Bool) (text : List Nat) (follow : List Nat → Prop) (tail : List Nat)
    (hc : F.Clear right keeps text follow tail) (hne : text ≠ []) (hk : keeps = true → right = false)
    (hsp : keeps = false → ∀ c, text.head? = some c → isSpace c = false) :
    F.before (! keeps) (F.pad right text ++ tail) = (F.fills right text).1 := by
  have hview : F.view 0 (F.pad right text ++ tail) = F.pad right text ++ F.beyond right text tail := by
    rw [view_append F 0 _ _ (by have := hc.fits; omega), Nat.zero_add]; rfl
  unfold PaddedField.before
  rw [hview]
  unfold PaddedField.pad
  rw [List.append_assoc, List.append_assoc]
  cases hs : F.side with
  | before =>
    have e1 : F.fills right text = (List.replicate (F.width - cols text) F.fill, []) := by unfold PaddedField.fills; rw [hs]
    dsimp only
    rw [e1]
    refine takeWhile_replicate_stop _ _ _ _ (by simp) fun c hh => ?_
    rw [head_append_ne_nil hne] at hh
    have := hc.first (Or.inl hs)
    simp only [beq_eq_false_iff_ne]
    rintro rfl; exact this hh
  | both =>
    have e1 : (F.fills right text).1 = List.replicate ((F.width - cols text) / 2) F.fill := by unfold PaddedField.fills; rw [hs]
    dsimp only
    rw [e1]
    refine takeWhile_replicate_stop _ _ _ _ (by simp) fun c hh => ?_
    rw [head_append_ne_nil hne] at hh
    have := hc.first (Or.inr hs)
    simp only [beq_eq_false_iff_ne]
    rintro rfl; exact this hh
  | after =>
    have e1 : (F.fills right text).1 = [] := by unfold PaddedField.fills; rw [hs]
    rw [e1]
  | unspecified =>
    dsimp only
    cases keeps with
    | true =>
      have e1 : (F.fills right text).1 = [] := by unfold PaddedField.fills; rw [hs, hk rfl]; rfl
      rw [e1]; rfl
    | false =>
      have e1 : ∃ n, (F.fills right text).1 = List.replicate n 32 := by
        unfold PaddedField.fills; rw [hs]
        cases right
        · exact ⟨0, rfl⟩
        · exact ⟨_, rfl⟩
      obtain ⟨n, e1⟩ := e1
      rw [e1]
      refine takeWhile_replicate_stop _ _ _ _ (by decide) fun c hh => ?_
      rw [head_append_ne_nil hne] at hh
      exact hsp rfl c hh

/-- What is skipped after a printed value is the padding after it. -/
theorem after_pad (F : PaddedField) (right keeps : Bool) (text : List Nat) (follow : List Nat → Prop) (tail : List Nat)
    (hc : F.Clear right keeps text follow tail) (hk : keeps = true → right = false) :
    F.after (! keeps) (cols (F.fills right text).1 + cols text) ((F.fills right text).2 ++ tail) = (F.fills right text).2 := by
  have hcols : cols (F.pad right text) = cols (F.fills right text).1 + cols text + cols (F.fills right text).2 := by
    unfold PaddedField.pad; rw [cols_append, cols_append]; omega
  have hview : F.view (cols (F.fills right text).1 + cols text) ((F.fills right text).2 ++ tail) =
      (F.fills right text).2 ++ F.beyond right text tail := by
    rw [view_append F _ _ _ (by have := hc.fits; omega), ← hcols]; rfl
  unfold PaddedField.after
  rw [hview]
  cases hs : F.side with
  | before =>
    have e1 : (F.fills right text).2 = [] := by unfold PaddedField.fills; rw [hs]
    rw [e1]
  | both =>
    have e1 : (F.fills right text).2 = List.replicate (F.width - cols text - (F.width - cols text) / 2) F.fill := by unfold PaddedField.fills; rw [hs]
    dsimp only
    rw [e1]
    refine takeWhile_replicate_stop _ _ _ _ (by simp) fun c hh => ?_
    have := hc.beyond (Or.inr hs)
    simp only [beq_eq_false_iff_ne]
    rintro rfl; exact this hh
  | after =>
    have e1 : (F.fills right text).2 = List.replicate (F.width - cols text) F.fill := by unfold PaddedField.fills; rw [hs]
    dsimp only
    rw [e1]
    refine takeWhile_replicate_stop _ _ _ _ (by simp) fun c hh => ?_
    have := hc.beyond (Or.inl hs)
    simp only [beq_eq_false_iff_ne]
    rintro rfl; exact this hh
  | unspecified =>
    dsimp only
    cases keeps with
    | true =>
      have e1 : F.fills right text = ([], List.replicate (F.width - cols text) 32) := by unfold PaddedField.fills; rw [hs, hk rfl]; rfl
      rw [e1]
      dsimp only
      rw [cols_nil, Nat.zero_add]
      by_cases hu : F.unfinished (cols text)
      · rw [if_pos ⟨by rfl, hu⟩]
        exact takeWhile_replicate_stop _ _ _ _ (by decide) (hc.still hs rfl hu)
      · rw [if_neg (fun h => hu h.2)]
        unfold PaddedField.unfinished at hu
        rw [show F.width - cols text = 0 by omega]; rfl
    | false =>
      rw [if_neg (by simp)]
      cases hr : right with
      | true => unfold PaddedField.fills; rw [hs]; rfl
      | false =>
        have := hc.wide hs hr rfl
        unfold PaddedField.fills; rw [hs]
        dsimp only
        rw [show F.width - cols text = 0 by omega]; rfl

/-- A printed value is read back, if the reader reads it from its text. -/
theorem read_pad (F : PaddedField) (right keeps : Bool) (text : List Nat) (follow : List Nat → Prop) (tail : List Nat)
    (hc : F.Clear right keeps text follow tail) (hne : text ≠ []) (hk : keeps = true → right = false)
    (hsp : keeps = false → ∀ c, text.head? = some c → isSpace c = false) (v : V) (rds : List Nat → Res (V × List Nat))
    (hrd : rds (text ++ ((F.fills right text).2 ++ F.beyond right text tail)) = .ok (v, (F.fills right text).2 ++ F.beyond right text tail)) :
    F.read (! keeps) rds (F.pad right text ++ tail) = .ok (v, tail) := by
  have hcols : cols (F.pad right text) = cols (F.fills right text).1 + cols text + cols (F.fills right text).2 := by
    unfold PaddedField.pad; rw [cols_append, cols_append]; omega
  have hb := before_pad F right keeps text follow tail hc hne hk hsp
  have ha := after_pad F right keeps text follow tail hc hk
  have hw := pad_wide F right text
  have hct : 1 ≤ cols text := by
    rcases Nat.eq_zero_or_pos (cols text) with h | h
    · exact absurd (cols_eq_zero.1 h) hne
    · exact h
  have hdrop : (F.pad right text ++ tail).drop (F.fills right text).1.length = text ++ ((F.fills right text).2 ++ tail) := by
    unfold PaddedField.pad
    rw [List.append_assoc, List.drop_left, List.append_assoc]
  have hview0 : F.view 0 (F.pad right text ++ tail) = F.pad right text ++ F.beyond right text tail := by
    rw [view_append F 0 _ _ (by have := hc.fits; omega), Nat.zero_add]; rfl
  have hview : F.view (cols (F.fills right text).1) (text ++ ((F.fills right text).2 ++ tail)) =
      text ++ ((F.fills right text).2 ++ F.beyond right text tail) := by
    have h1 := view_append F (cols (F.fills right text).1) text ((F.fills right text).2 ++ tail) (by have := hc.fits; omega)
    have h2 := view_append F (cols (F.fills right text).1 + cols text) (F.fills right text).2 tail (by have := hc.fits; omega)
    rw [h1, h2, ← hcols]; rfl
  unfold PaddedField.read
  dsimp only
  rw [hb, hdrop, hview, hrd, Res.bind_ok]
  dsimp only
  rw [if_neg, if_neg]
  · have hval : (text ++ ((F.fills right text).2 ++ F.beyond right text tail)).take
        ((text ++ ((F.fills right text).2 ++ F.beyond right text tail)).length - ((F.fills right text).2 ++ F.beyond right text tail).length) = text := by
      rw [List.length_append, Nat.add_sub_cancel, List.take_left]
    rw [hval, List.drop_left, ha, if_neg (by omega), List.drop_left]
  · have := hc.fits
    omega
  · rintro ⟨_, _, h⟩
    rw [hview0] at h
    have hl := congrArg List.length h
    unfold PaddedField.pad at hl
    simp only [List.length_append] at hl
    have : 0 < text.length := List.length_pos_iff.2 hne
    omega

/-- The same for `arg_reader`. -/
theorem argRead_pad {e : Enc} {sp : Specs} {F : PaddedField} (hF : Describes e sp F) (right keeps : Bool) {text : List Nat}
    {follow : List Nat → Prop} {tail : List Nat} (hc : F.Clear right keeps text follow tail) (hne : text ≠ []) (hk : keeps = true → right = false)
    (hsp : keeps = false → ∀ c, text.head? = some c → isSpace c = false) (ht : ∀ c ∈ text, IsScalar c) (htail : ∀ c ∈ tail, IsScalar c)
    (lay : List Nat → Layout) (hlay : ∀ t, t <:+ F.pad right text ++ tail → GoodLayout e (lay (encodes e t)) t)
    (rd : Reader V) (hws : rd.skipWs = ! keeps) (v : V)
    (hrd : ∀ l rest, (∀ c ∈ rest, IsScalar c) → GoodLayout e l (text ++ rest) → follow rest →
      rd.read l (encodes e (text ++ rest)) = .ok (v, encodes e rest)) :
    argRead e sp rd lay (encodes e (F.pad right text ++ tail)) = .ok (v, encodes e tail) := by
  have hfsc : IsScalar F.fill := hF.scalar
  have h32 : IsScalar 32 := ⟨by omega, by omega⟩
  have hfills : (∀ c ∈ (F.fills right text).1, IsScalar c) ∧ ∀ c ∈ (F.fills right text).2, IsScalar c := by
    have hr : ∀ n f, IsScalar f → ∀ c ∈ List.replicate n f, IsScalar c := fun n f hf c hc => by rw [List.eq_of_mem_replicate hc]; exact hf
    unfold PaddedField.fills
    cases F.side with
    | before => exact ⟨hr _ _ hfsc, by simp⟩
    | after => exact ⟨by simp, hr _ _ hfsc⟩
    | both => exact ⟨hr _ _ hfsc, hr _ _ hfsc⟩
    | unspecified =>
      cases right
      · exact ⟨by simp, hr _ _ h32⟩
      · exact ⟨hr _ _ h32, by simp⟩
  have hall : ∀ c ∈ F.pad right text ++ tail, IsScalar c := by
    intro c hc
    unfold PaddedField.pad at hc
    rcases List.mem_append.1 hc with h | h
    · rcases List.mem_append.1 h with h | h
      · exact hfills.1 c h
      · rcases List.mem_append.1 h with h | h
        · exact ht c h
        · exact hfills.2 c h
    · exact htail c h
  have hcols : cols (F.pad right text) = cols (F.fills right text).1 + cols text + cols (F.fills right text).2 := by
    unfold PaddedField.pad; rw [cols_append, cols_append]; omega
  have hdrop : (F.pad right text ++ tail).drop (F.fills right text).1.length = text ++ ((F.fills right text).2 ++ tail) := by
    unfold PaddedField.pad
    rw [List.append_assoc, List.drop_left, List.append_assoc]
  have hview : F.view (cols (F.fills right text).1) (text ++ ((F.fills right text).2 ++ tail)) =
      text ++ ((F.fills right text).2 ++ F.beyond right text tail) := by
    have h1 := view_append F (cols (F.fills right text).1) text ((F.fills right text).2 ++ tail) (by have := hc.fits; omega)
    have h2 := view_append F (cols (F.fills right text).1 + cols text) (F.fills right text).2 tail (by have := hc.fits; omega)
    rw [h1, h2, ← hcols]; rfl
  have hrest : ∀ c ∈ (F.fills right text).2 ++ F.beyond right text tail, IsScalar c := by
    intro c hc
    rcases List.mem_append.1 hc with h | h
    · exact hfills.2 c h
    · exact htail c ((view_prefix F _ _).subset h)
  have hgood : GoodLayout e (if F.precision = 0 then lay (encodes e ((F.pad right text ++ tail).drop (F.fills right text).1.length)) else .segmented 0)
      (text ++ ((F.fills right text).2 ++ F.beyond right text tail)) := by
    split
    · rename_i hp
      have hbt : F.beyond right text tail = tail := by unfold PaddedField.beyond PaddedField.view; rw [if_pos hp]
      rw [hbt, ← hdrop]
      exact hlay _ (List.drop_suffix _ _)
    · exact goodLayout_zero e _
  rw [argRead_at e sp F hF rd lay _ hall hlay (fun _ => .ok (v, (F.fills right text).2 ++ F.beyond right text tail)) (F.fills right text).1
    (by rw [hws]; exact before_pad F right keeps text follow tail hc hne hk hsp)
    (by rw [hdrop, hview, ← hdrop]; exact hrd _ _ hrest hgood hc.follow)
    (by rw [hdrop, hview]; intro v' r h; cases h; exact List.suffix_append _ _),
    hws, read_pad F right keeps text follow tail hc hne hk hsp v _ rfl]
  rfl

end Scn
