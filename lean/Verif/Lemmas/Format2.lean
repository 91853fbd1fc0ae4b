import Verif.Lemmas.Format
import Verif.Lemmas.IntParse
import Verif.Spec.Format
/-
Numbers in format specifications.
-/
namespace Scn
open Spec

theorem isDec_iff (c : Nat) : isDec c = true ↔ IsDigit 10 c := by
  unfold isDec IsDigit digit?
  simp only [Bool.and_eq_true, decide_eq_true_eq]
  constructor
  · intro h; rw [if_pos h]; exact ⟨_, rfl, by omega⟩
  · rintro ⟨d, h1, h2⟩
    split at h1
    · assumption
    · split at h1
      · simp at h1; omega
      · split at h1
        · simp at h1; omega
        · simp at h1

theorem isDec_digit {c : Nat} (h : isDec c = true) : (digit? c).getD 0 = c - 48 := by
  unfold isDec at h
  simp only [Bool.and_eq_true, decide_eq_true_eq] at h
  unfold digit?
  rw [if_pos h]; rfl

/-- The loop reads the digits of a numeral; the accumulated value only grows. -/
theorem foldl_digits_ge (ds : List Nat) : ∀ v : Nat,
    v ≤ ds.foldl (fun a c => a * 10 + (digit? c).getD 0) v := by
  induction ds with
  | nil => intro v; exact Nat.le_refl _
  | cons c ds ih =>
    intro v
    rw [List.foldl_cons]
    refine Nat.le_trans ?_ (ih _)
    omega

theorem simpleIntLoop_value (ds rest : List Nat) (hr : NoDigitFirst 10 rest) : ∀ v : Nat, v ≤ intMax →
    (∀ c ∈ ds, IsDigit 10 c) →
    (ds.foldl (fun a c => a * 10 + (digit? c).getD 0) v ≤ intMax →
      simpleIntLoop v (ds ++ rest) = (((ds.foldl (fun a c => a * 10 + (digit? c).getD 0) v : Nat) : Int), rest)) ∧
    (ds.foldl (fun a c => a * 10 + (digit? c).getD 0) v > intMax →
      ∃ c p, simpleIntLoop v (ds ++ rest) = (-1, c :: p) ∧ isDec c = true) := by
  induction ds with
  | nil =>
    intro v hv _
    refine ⟨fun _ => ?_, fun h => by simp at h; omega⟩
    cases rest with
    | nil => simp [simpleIntLoop]
    | cons c cs =>
      have : isDec c = false := by
        cases h : isDec c
        · rfl
        · exact absurd ((isDec_iff c).1 h) (hr c rfl)
      simp [simpleIntLoop, this]
  | cons c ds ih =>
    intro v hv hd
    have hc := (isDec_iff c).2 (hd c (by simp))
    have hdv := isDec_digit hc
    rw [List.foldl_cons, hdv, List.cons_append]
    simp only [simpleIntLoop, hc, if_true]
    by_cases hb : v * 10 + (c - 48) > intMax
    · rw [if_pos hb]
      refine ⟨fun h => ?_, fun _ => ⟨c, _, rfl, hc⟩⟩
      have := foldl_digits_ge ds (v * 10 + (c - 48))
      omega
    · rw [if_neg hb]
      exact ih _ (by omega) (fun x hx => hd x (by simp [hx]))

theorem parseSimpleInt_value (ds rest : List Nat) (hn : IsNumeral 10 ds) (hr : NoDigitFirst 10 rest) :
    (value 10 ds ≤ intMax → parseSimpleInt (ds ++ rest) = some (((value 10 ds : Nat) : Int), rest)) ∧
    (value 10 ds > intMax → ∃ c p, parseSimpleInt (ds ++ rest) = some (-1, c :: p) ∧ isDec c = true) := by
  obtain ⟨hne, hd⟩ := hn
  cases ds with
  | nil => exact absurd rfl hne
  | cons c cs =>
    have hc := (isDec_iff c).2 (hd c (by simp))
    have := simpleIntLoop_value (c :: cs) rest hr 0 (Nat.zero_le _) hd
    unfold value
    rw [List.cons_append] at this ⊢
    simp only [parseSimpleInt, hc, if_true]
    refine ⟨fun h => by rw [this.1 h], fun h => ?_⟩
    obtain ⟨x, p, h1, h2⟩ := this.2 h
    exact ⟨x, p, by rw [h1], h2⟩


variable {σ : Type}

/-- An argument id as written: the numeral followed by `}` or `:`. -/
theorem parseArgId_numeral (H : Handler σ) (st : σ) (n d : Nat) (rest : List Nat) (hd : d = 125 ∨ d = 58) :
    (n ≤ intMax → parseArgId H st (numeral 10 n ++ d :: rest) =
      some ((H.onManualId st n).1, (H.onManualId st n).2, d :: rest)) ∧
    (n > intMax → ∃ p, parseArgId H st (numeral 10 n ++ d :: rest) = some (H.onError st, 0, p)) := by
  have hnum := numeral_isNumeral 10 n (by omega) (by omega)
  have hval := numeral_value 10 n (by omega) (by omega)
  have hnd : ¬ (d ≠ 125 ∧ d ≠ 58) := by omega
  have hr : NoDigitFirst 10 (d :: rest) := by
    intro c hc hdig
    simp at hc
    have := (isDec_iff c).2 hdig
    simp [isDec] at this
    omega
  by_cases h0 : n = 0
  · subst h0
    refine ⟨fun _ => ?_, fun h => absurd h (by simp [intMax])⟩
    rw [numeral_small 10 0 (by omega)]
    simp only [digitChar, List.cons_append, List.nil_append]
    simp only [parseArgId, isDec]
    simp [hnd]
  · obtain ⟨c, cs, hc⟩ : ∃ c cs, numeral 10 n = c :: cs := by
      cases hx : numeral 10 n with
      | nil => exact absurd hx (numeral_ne_nil 10 n)
      | cons c cs => exact ⟨c, cs, rfl⟩
    have hdec : isDec c = true := (isDec_iff c).2 (hnum.2 c (by rw [hc]; simp))
    have hc48 : c ≠ 48 := by
      have := numeral_head 10 n (by omega) (by omega) (by omega)
      rw [hc] at this
      simpa using this
    have hb := hdec
    simp only [isDec, Bool.and_eq_true, decide_eq_true_eq] at hb
    have hloop := simpleIntLoop_value (numeral 10 n) (d :: rest) hr 0 (Nat.zero_le _) hnum.2
    have hv : (numeral 10 n).foldl (fun a c => a * 10 + (digit? c).getD 0) 0 = n := hval
    rw [hv] at hloop
    have hstep : parseArgId H st (numeral 10 n ++ d :: rest) =
        match (simpleIntLoop 0 (numeral 10 n ++ d :: rest)).2 with
        | [] => some (H.onError st, 0, [])
        | x :: _ =>
          if x ≠ 125 ∧ x ≠ 58 then some (H.onError st, 0, (simpleIntLoop 0 (numeral 10 n ++ d :: rest)).2)
          else some ((H.onManualId st (simpleIntLoop 0 (numeral 10 n ++ d :: rest)).1.toNat).1,
            (H.onManualId st (simpleIntLoop 0 (numeral 10 n ++ d :: rest)).1.toNat).2,
            (simpleIntLoop 0 (numeral 10 n ++ d :: rest)).2) := by
      rw [hc, List.cons_append]
      simp only [parseArgId]
      rw [if_neg (by omega), if_neg (by simp [hdec]), if_pos hc48]
      rfl
    rw [hstep]
    constructor
    · intro hn
      rw [hloop.1 hn]
      simp only
      rw [if_neg hnd]
      rfl
    · intro hn
      obtain ⟨x, p, h1, h2⟩ := hloop.2 hn
      rw [h1]
      simp only
      simp only [isDec, Bool.and_eq_true, decide_eq_true_eq] at h2
      rw [if_pos (by omega)]
      exact ⟨_, rfl⟩

/-- An argument id with a superfluous leading zero is rejected. -/
theorem parseArgId_leading_zero (H : Handler σ) (st : σ) (c : Nat) (rest : List Nat) (hc : IsDigit 10 c) :
    parseArgId H st (48 :: c :: rest) = some (H.onError st, 0, c :: rest) := by
  have h := (isDec_iff c).2 hc
  simp only [isDec, Bool.and_eq_true, decide_eq_true_eq] at h
  simp only [parseArgId, isDec]
  simp
  omega

/-- A one-letter specification is consumed whatever the letter. -/
theorem parseSpecs_letter (cfg : RegexCfg) (e : Enc) (ty : ArgTy) (st : Setter) (c : Nat) (rest : List Nat)
    (hc : isAsciiLetter c = true) (hL : c ≠ 76) :
    ∃ st', parseSpecs cfg e ty st (c :: 125 :: rest) = some (st', 125 :: rest) := by
  have hr : c ≠ 91 ∧ c ≠ 47 := by
    simp only [isAsciiLetter, Bool.or_eq_true, Bool.and_eq_true, decide_eq_true_eq] at hc
    omega
  have hp : parseSpecs cfg e ty st (c :: 125 :: rest) = parsePresentation cfg e st (c :: 125 :: rest) :=
    if_pos ⟨hc, hL⟩
  rw [hp]
  unfold parsePresentation
  dsimp only
  rw [if_neg hr.1, if_neg hr.2]
  obtain ⟨t, ht⟩ := parsePresType_some c hr.1 hr.2
  rw [ht]
  cases t <;> exact ⟨_, rfl⟩

end Scn
