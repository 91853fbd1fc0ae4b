import Verif.Lemmas.LetterFloat
import Verif.Spec.LeadingZeros
/-
Helper lemmas: signs, leading zeros and prefixes of integers.
-/
namespace Scn
open Spec

theorem digit_not_sign {b c : Nat} (h : IsDigit b c) : c ≠ 43 ∧ c ≠ 45 ∧ c ≠ 16 := by
  obtain ⟨d, h, _⟩ := h
  unfold digit? at h
  refine ⟨?_, ?_, ?_⟩ <;> (rintro rfl; simp at h)

theorem scanIntW_sign (T : IntTy) (base : Nat) (uo : Bool) {sg : List Nat} (hsg : SignText sg) {c : Nat} {cs : List Nat} (hc : c ≠ 43 ∧ c ≠ 45) :
    scanIntW T base uo (sg ++ c :: cs) = if sg = [45] ∧ (T.signed = false ∨ uo = true) then .err .invalidScannedValue
      else scanDigitsW T (decide (sg = [45])) (chooseBase base (c :: cs)).1 (chooseBase base (c :: cs)).2 := by
  rcases hsg with rfl | rfl | rfl
  · have hx : (c == 45) = false := beq_false_of_ne hc.2
    simp [scanIntW, hc.1, hc.2, hx]
  · simp [scanIntW]
  · simp [scanIntW]

/-- The digits that are letters of prefixes are none of the base of the prefix. -/
theorem digit_not_letter {b d : Nat} (h : IsDigit b d) : (b = 16 → d ≠ 120 ∧ d ≠ 88) ∧ (b = 2 → d ≠ 98 ∧ d ≠ 66) ∧ (b = 8 → d ≠ 111 ∧ d ≠ 79) := by
  refine ⟨?_, ?_, ?_⟩ <;>
  · rintro rfl
    constructor <;> (rintro rfl; revert h; decide)

theorem chooseBase_plain {b : Nat} (hb : b ≠ 0) {t : List Nat} (h16 : b = 16 → ¬ HasPrefix 120 88 16 t) (h2 : b = 2 → ¬ HasPrefix 98 66 2 t)
    (h8 : b = 8 → ¬ HasPrefix 111 79 8 t) : chooseBase b t = (b, t) := by
  unfold chooseBase
  by_cases x16 : b = 16
  · rw [if_pos x16, if_neg (h16 x16), x16]
  · rw [if_neg x16]
    by_cases x2 : b = 2
    · rw [if_pos x2, if_neg (h2 x2), x2]
    · rw [if_neg x2]
      by_cases x8 : b = 8
      · rw [if_pos x8, if_neg (h8 x8), x8]
      · rw [if_neg x8, if_neg hb]

theorem zeros_head {b n : Nat} (hn : n ≠ 0) {d : Nat} {r : List Nat} (lo up : Nat) (hlu : lo ≠ 48 ∧ up ≠ 48 ∧ d ≠ lo ∧ d ≠ up) :
    ¬ HasPrefix lo up b (List.replicate n 48 ++ d :: r) := by
  match n, hn with
  | 1, _ =>
    show ¬ HasPrefix lo up b (48 :: d :: r)
    cases r with
    | nil => exact id
    | cons x xs =>
      rintro ⟨_, h, _⟩
      rcases h with h | h
      · exact hlu.2.2.1 h
      · exact hlu.2.2.2 h
  | n + 2, _ =>
    show ¬ HasPrefix lo up b (48 :: 48 :: (List.replicate n 48 ++ d :: r))
    cases hx : List.replicate n 48 ++ d :: r with
    | nil => exact id
    | cons x xs =>
      rintro ⟨_, h, _⟩
      rcases h with h | h
      · exact hlu.1 h.symm
      · exact hlu.2.1 h.symm

theorem scanDigitsW_zeros (T : IntTy) (neg : Bool) {b : Nat} (hb : 2 ≤ b) {d : Nat} {r : List Nat} (hd : IsDigit b d) (n : Nat) :
    scanDigitsW T neg b (List.replicate n 48 ++ d :: r) = scanDigitsW T neg b (d :: r) := by
  have hz : IsDigit b 48 := ⟨0, rfl, by omega⟩
  have hrun : ∀ n, digitRun b (List.replicate n 48 ++ d :: r) = List.replicate n 48 ++ digitRun b (d :: r) ∧ afterRun b (List.replicate n 48 ++ d :: r) = afterRun b (d :: r) := by
    intro n
    induction n with
    | zero => exact ⟨rfl, rfl⟩
    | succ n ih =>
      show digitRun b (48 :: (List.replicate n 48 ++ d :: r)) = 48 :: (List.replicate n 48 ++ digitRun b (d :: r)) ∧ afterRun b (48 :: (List.replicate n 48 ++ d :: r)) = _
      have h1 : digitRun b (48 :: (List.replicate n 48 ++ d :: r)) = 48 :: digitRun b (List.replicate n 48 ++ d :: r) :=
        List.takeWhile_cons_of_pos (decide_eq_true hz)
      have h2 : afterRun b (48 :: (List.replicate n 48 ++ d :: r)) = afterRun b (List.replicate n 48 ++ d :: r) :=
        List.dropWhile_cons_of_pos (decide_eq_true hz)
      rw [h1, h2, ih.1, ih.2]
      exact ⟨rfl, rfl⟩
  have hval : ∀ n u, value b (List.replicate n 48 ++ u) = value b u := by
    intro n u
    induction n with
    | zero => rfl
    | succ n ih =>
      show value b (48 :: (List.replicate n 48 ++ u)) = _
      rw [value_zero_cons, ih]
  have hne : digitRun b (d :: r) ≠ [] := by
    have : digitRun b (d :: r) = d :: digitRun b r := List.takeWhile_cons_of_pos (decide_eq_true hd)
    rw [this]; exact fun h => by cases h
  unfold scanDigitsW
  rw [(hrun n).1, (hrun n).2, hval, if_neg hne, if_neg fun h => hne (List.append_eq_nil_iff.1 h).2]

theorem unprefixed_hasPrefix {b : Nat} {t : List Nat} (h : Unprefixed b t) :
    (b = 16 → ¬ HasPrefix 120 88 16 t) ∧ (b = 2 → ¬ HasPrefix 98 66 2 t) ∧ (b = 8 → ¬ HasPrefix 111 79 8 t) := by
  refine ⟨?_, ?_, ?_⟩ <;>
  · rintro rfl hx
    match t, hx with
    | c :: l :: d :: r, ⟨h1, h2, h3⟩ =>
      subst h1
      exact h [48, l] d r (h2.imp (fun h => by rw [h]) fun h => by rw [h]) h3 rfl

end Scn
