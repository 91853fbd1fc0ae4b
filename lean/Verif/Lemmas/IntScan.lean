import Verif.Lemmas.IntParse
import Verif.Spec.IntScan
/-
Helper lemmas connecting the integer parser to its specification.
-/
namespace Scn
open Spec

theorem run_append (b : Nat) (s : List Nat) : digitRun b s ++ afterRun b s = s :=
  List.takeWhile_append_dropWhile

theorem mem_digitRun {b : Nat} {s : List Nat} {c : Nat} (h : c ∈ digitRun b s) : IsDigit b c := by
  unfold digitRun at h
  induction s with
  | nil => simp at h
  | cons x xs ih =>
    by_cases hx : IsDigit b x
    · rw [List.takeWhile_cons_of_pos (by simpa using hx)] at h
      rcases List.mem_cons.1 h with rfl | h
      · exact hx
      · exact ih h
    · rw [List.takeWhile_cons_of_neg (by simpa using hx)] at h
      simp at h

theorem afterRun_noDigit (b : Nat) (s : List Nat) : NoDigitFirst b (afterRun b s) := by
  intro c hc
  unfold afterRun at hc
  cases h : s.dropWhile (fun c => decide (IsDigit b c)) with
  | nil => rw [h] at hc; simp at hc
  | cons x xs =>
    rw [h] at hc
    simp only [List.head?_cons, Option.some.injEq] at hc
    subst hc
    have := dropWhile_head h
    simpa using this

theorem digitRun_numeral (b : Nat) (ds rest : List Nat) (hds : ∀ c ∈ ds, IsDigit b c)
    (hr : NoDigitFirst b rest) : digitRun b (ds ++ rest) = ds ∧ afterRun b (ds ++ rest) = rest := by
  unfold digitRun afterRun
  induction ds with
  | nil =>
    cases rest with
    | nil => simp
    | cons c cs =>
      have := hr c rfl
      rw [List.nil_append, List.takeWhile_cons_of_neg (by simpa using this),
        List.dropWhile_cons_of_neg (by simpa using this)]
      exact ⟨rfl, rfl⟩
  | cons c cs ih =>
    have hc := hds c (by simp)
    obtain ⟨h1, h2⟩ := ih (fun x hx => hds x (by simp [hx]))
    rw [List.cons_append, List.takeWhile_cons_of_pos (by simpa using hc),
      List.dropWhile_cons_of_pos (by simpa using hc), h1, h2]
    exact ⟨rfl, rfl⟩

theorem inRange_iff (T : IntTy) (hT : T.Std) (V : Nat) (neg : Bool)
    (hs : neg = true → T.signed = true) :
    InRange T (signed neg V) ↔ V ≤ T.max + (if neg then 1 else 0) := by
  obtain ⟨bits, sg⟩ := T
  unfold InRange IntTy.max Spec.signed
  rcases hT with h | h | h | h <;> dsimp only at h <;> subst h <;> cases sg <;> cases neg <;>
    simp at * <;> omega

/-- A base/type combination for which the overflow check is complete. -/
def GoodBase (T : IntTy) (b : Nat) (neg : Bool) : Prop :=
  b ^ maxdigits b ≤ 2 ^ 64 ∨ T.max + (if neg then 1 else 0) < minSafe b

theorem fullDigits_eq (b : Nat) (h2 : 2 ≤ b) (h36 : b ≤ 36) : fullDigits b = maxdigits b := by
  have : ∀ k : Fin 37, 2 ≤ k.val → fullDigits k.val = maxdigits k.val := by decide +kernel
  exact this ⟨b, by omega⟩ h2

theorem max_neg_lt (T : IntTy) (hT : T.Std) (neg : Bool) (hs : neg = true → T.signed = true) :
    T.max + (if neg then 1 else 0) < 2 ^ 64 := by
  have hmax := T.max_lt hT
  cases neg with
  | false => simpa using hmax
  | true =>
    have hs := hs rfl
    obtain ⟨bits, sg⟩ := T
    dsimp only at hs
    subst hs
    rcases hT with h | h | h | h <;> dsimp only at h <;> subst h <;> decide

theorem wraps_iff (T : IntTy) (hT : T.Std) (b : Nat) (neg : Bool) (V : Nat)
    (hs : neg = true → T.signed = true) (h2 : 2 ≤ b) (h36 : b ≤ 36) :
    Wraps T neg b V ↔ V < b ^ maxdigits b ∧ minSafe b ≤ V % 2 ^ 64 ∧
      V % 2 ^ 64 ≤ T.max + (if neg then 1 else 0) := by
  unfold Wraps
  rw [fullDigits_eq b h2 h36, inRange_iff T hT _ neg hs, (table_facts b h2 h36).2.1]

/-- The overflow test on a value that does not fit. -/
theorem checkOverflow_exact (T : IntTy) (hT : T.Std) (b n V : Nat) (neg : Bool)
    (hs : neg = true → T.signed = true)
    (h2 : 2 ≤ b) (h36 : b ≤ 36) (hlo : b ^ (n - 1) ≤ V) (hhi : V < b ^ n)
    (hfit : T.max + (if neg then 1 else 0) < V) :
    checkOverflow T (V % 2 ^ 64) n b neg = false ↔ Wraps T neg b V := by
  rw [wraps_iff T hT b neg V hs h2 h36]
  obtain ⟨hm1, hms, hlt, hge, _⟩ := table_facts b h2 h36
  have hmax' := max_neg_lt T hT neg hs
  have hu : T.bits = 64 ∧ T.signed = false → T.max + (if neg then 1 else 0) = 2 ^ 64 - 1 := by
    rintro ⟨hb, hsg⟩
    have : T.max = 2 ^ 64 - 1 := by unfold IntTy.max; rw [hsg, hb]; rfl
    cases neg with
    | false => simpa using this
    | true => rw [hs rfl] at hsg; cases hsg
  have hml := Nat.mod_lt V (show 0 < 2 ^ 64 by decide)
  unfold checkOverflow
  rw [Nat.mod_eq_of_lt hmax']
  generalize T.max + (if neg then 1 else 0) = M at *
  by_cases h1 : n > maxdigits b
  · rw [if_pos h1]
    constructor
    · intro h; cases h
    · rintro ⟨h, _⟩
      have : b ^ maxdigits b ≤ b ^ (n - 1) := Nat.pow_le_pow_right (by omega) (by omega)
      omega
  rw [if_neg h1]
  have hVM : V < b ^ maxdigits b :=
    Nat.lt_of_lt_of_le hhi (Nat.pow_le_pow_right (by omega) (by omega))
  by_cases h3 : n = maxdigits b ∧ V % 2 ^ 64 < minSafe b
  · rw [if_pos h3]
    constructor
    · intro h; cases h
    · rintro ⟨_, h, _⟩; omega
  rw [if_neg h3]
  by_cases h4 : V % 2 ^ 64 > M
  · rw [if_pos ⟨fun h => by have := hu h; omega, h4⟩]
    constructor
    · intro h; cases h
    · rintro ⟨_, _, h⟩; omega
  · rw [if_neg (fun h => h4 h.2)]
    constructor
    · intro _
      refine ⟨hVM, ?_, by omega⟩
      by_cases hV : V < 2 ^ 64
      · rw [Nat.mod_eq_of_lt hV] at h4; omega
      · have hnm : n = maxdigits b := by
          apply Nat.le_antisymm (by omega)
          apply Nat.le_of_not_lt
          intro h
          have : b ^ n ≤ b ^ (maxdigits b - 1) := Nat.pow_le_pow_right (by omega) (by omega)
          omega
        exact Nat.le_of_not_lt fun h => h3 ⟨hnm, h⟩
    · intro _; rfl

theorem scanDigitsW_eq (narrow : Bool) (T : IntTy) (hT : T.Std) (sign : Sign) (b : Nat)
    (h2 : 2 ≤ b) (h36 : b ≤ 36) (hsign : T.signed = false → sign = .plus)
    (s : List Nat) (hne : s ≠ []) (hbytes : narrow = true → ∀ c ∈ s, c < 256) :
    parseIntegerValue narrow T sign b s = scanDigitsW T (sign = .minus) b s := by
  have hsg : (decide (sign = .minus)) = true → T.signed = true := by
    intro h
    have hm : sign = .minus := by simpa using h
    cases hT' : T.signed with
    | true => rfl
    | false => rw [hsign hT'] at hm; cases hm
  by_cases hrun : digitRun b s = []
  · unfold scanDigitsW
    rw [if_pos hrun]
    have hs := run_append b s
    rw [hrun, List.nil_append] at hs
    have hnd := afterRun_noDigit b s
    rw [hs] at hnd
    cases s with
    | nil => exact absurd rfl hne
    | cons c cs =>
      have := hnd c rfl
      rw [← charToInt_lt_iff b c (by omega)] at this
      unfold parseIntegerValue
      dsimp only
      rw [if_neg (by rintro ⟨h, h'⟩; rw [hsign h] at h'; cases h'), if_neg (by omega),
        if_pos (by omega)]
  · have hnum : IsNumeral b (digitRun b s) := ⟨hrun, fun c hc => mem_digitRun hc⟩
    have hkey := parseIntegerValue_numeral narrow T sign b h2 h36 hsign (digitRun b s)
      (afterRun b s) hnum (afterRun_noDigit b s) (by rw [run_append]; exact hbytes)
    rw [run_append] at hkey
    rw [hkey]
    unfold scanDigitsW
    rw [if_neg hrun]
    generalize hds : digitRun b s = ds at *
    generalize afterRun b s = rest at *
    generalize hneg : decide (sign = Sign.minus) = neg at *
    have hv := dropWhile_zero_value b ds
    cases hz : ds.dropWhile (fun x => decide (x = 48)) with
    | nil =>
      rw [hz] at hv
      have hv0 : value b ds = 0 := by rw [← hv]; rfl
      rw [if_pos rfl, hv0]
      have h0 : signed neg 0 = 0 := by cases neg <;> rfl
      rw [h0, if_pos]
      have := (inRange_iff T hT 0 neg hsg).2 (by omega)
      rw [h0] at this; exact this
    | cons c cs =>
      rw [hz] at hv
      have hdig : ∀ x ∈ c :: cs, IsDigit b x := fun x hx => hnum.2 x (dropWhile_mem (by rw [hz]; exact hx))
      have hc0 : c ≠ 48 := by have := dropWhile_head hz; simpa using this
      have hlo := value_ge b c cs (hdig c (by simp)) hc0
      have hhi := value_lt b (c :: cs) hdig
      rw [← value_eq, hv] at hhi
      rw [hv] at hlo
      rw [if_neg (by simp)]
      by_cases hfit : value b ds ≤ T.max + (if neg then 1 else 0)
      · obtain ⟨hlt, hchk⟩ := checkOverflow_fits T hT b (c :: cs).length (value b ds) neg hsg h2 h36
          (by simp) (by simpa using hlo) hfit
        rw [hchk, if_neg (by simp), if_pos ((inRange_iff T hT _ neg hsg).2 hfit),
          Nat.mod_eq_of_lt hlt, storeResult_correct T hT _ neg hsg hfit]
      · have hchk := checkOverflow_exact T hT b (c :: cs).length (value b ds) neg hsg h2 h36
          (by simpa using hlo) hhi (by omega)
        rw [if_neg (fun h => hfit ((inRange_iff T hT _ neg hsg).1 h))]
        by_cases hw : Wraps T neg b (value b ds)
        · rw [hchk.2 hw, if_neg (by simp), if_pos hw]
          rw [wraps_iff T hT b neg _ hsg h2 h36] at hw
          rw [storeResult_correct T hT _ neg hsg hw.2.2]
        · rw [if_neg hw, if_pos]
          · rfl
          · cases hc : checkOverflow T (value b ds % 2 ^ 64) (c :: cs).length b neg with
            | true => rfl
            | false => exact absurd (hchk.1 hc) hw

theorem not_wraps_of_good (T : IntTy) (hT : T.Std) (b : Nat) (neg : Bool) (V : Nat)
    (hs : neg = true → T.signed = true) (h2 : 2 ≤ b) (h36 : b ≤ 36) (hg : GoodBase T b neg)
    (hfit : T.max + (if neg then 1 else 0) < V) : ¬ Wraps T neg b V := by
  rw [wraps_iff T hT b neg V hs h2 h36]
  rintro ⟨h1, h3, h4⟩
  rcases hg with h | h
  · rw [Nat.mod_eq_of_lt (by omega)] at h4; omega
  · omega

theorem scanDigitsW_good (T : IntTy) (hT : T.Std) (neg : Bool) (b : Nat)
    (hs : neg = true → T.signed = true) (h2 : 2 ≤ b) (h36 : b ≤ 36) (hg : GoodBase T b neg)
    (s : List Nat) : scanDigitsW T neg b s = scanDigits T neg b s := by
  unfold scanDigitsW scanDigits
  split
  · rfl
  · split
    · rfl
    · rename_i h
      rw [if_neg]
      apply not_wraps_of_good T hT b neg _ hs h2 h36 hg
      rw [inRange_iff T hT _ neg hs] at h
      omega

theorem scanDigitsW_fits (T : IntTy) (neg : Bool) (b : Nat) (s : List Nat)
    (h : InRange T (signed neg (value b (digitRun b s)))) :
    scanDigitsW T neg b s = scanDigits T neg b s := by
  unfold scanDigitsW scanDigits
  simp only [if_pos h]

theorem scanDigits_of_good (narrow : Bool) (T : IntTy) (hT : T.Std) (sign : Sign) (b : Nat)
    (h2 : 2 ≤ b) (h36 : b ≤ 36) (hsign : T.signed = false → sign = .plus)
    (hgood : GoodBase T b (sign = .minus))
    (s : List Nat) (hne : s ≠ []) (hbytes : narrow = true → ∀ c ∈ s, c < 256) :
    parseIntegerValue narrow T sign b s = scanDigits T (sign = .minus) b s := by
  rw [scanDigitsW_eq narrow T hT sign b h2 h36 hsign s hne hbytes]
  apply scanDigitsW_good T hT _ b _ h2 h36 hgood
  intro h
  have hm : sign = .minus := by simpa using h
  cases hT' : T.signed with
  | true => rfl
  | false => rw [hsign hT'] at hm; cases hm

theorem good_upto32 (T : IntTy) (hT : T.bits = 8 ∨ T.bits = 16 ∨ T.bits = 32) (b : Nat)
    (h2 : 2 ≤ b) (h36 : b ≤ 36) (neg : Bool) : GoodBase T b neg := by
  right
  have := (table_facts b h2 h36).2.2.2.2
  have hmax : T.max + (if neg then 1 else 0) ≤ 2 ^ 32 := by
    obtain ⟨bits, sg⟩ := T
    dsimp only at hT
    rcases hT with h | h | h <;> subst h <;> cases sg <;> cases neg <;> decide
  omega

/-- A numeral that fits is scanned exactly, for every type and base. -/
theorem parse_fits (narrow : Bool) (T : IntTy) (hT : T.Std) (sign : Sign) (b : Nat)
    (h2 : 2 ≤ b) (h36 : b ≤ 36) (hsign : T.signed = false → sign = .plus)
    (ds rest : List Nat) (hds : IsNumeral b ds) (hr : NoDigitFirst b rest)
    (hbytes : narrow = true → ∀ c ∈ ds ++ rest, c < 256)
    (hfit : InRange T (signed (sign = .minus) (value b ds))) :
    parseIntegerValue narrow T sign b (ds ++ rest) =
      .ok (signed (sign = .minus) (value b ds), rest) := by
  have hsg : (decide (sign = .minus)) = true → T.signed = true := by
    intro h
    have hm : sign = .minus := by simpa using h
    cases hT' : T.signed with
    | true => rfl
    | false => rw [hsign hT'] at hm; cases hm
  rw [parseIntegerValue_numeral narrow T sign b h2 h36 hsign ds rest hds hr hbytes]
  generalize hneg : decide (sign = Sign.minus) = neg at *
  have hv := dropWhile_zero_value b ds
  rw [inRange_iff T hT _ neg hsg] at hfit
  cases hz : ds.dropWhile (fun x => decide (x = 48)) with
  | nil =>
    rw [hz] at hv
    have hv0 : value b ds = 0 := by rw [← hv]; rfl
    rw [if_pos rfl, hv0]
    have h0 : signed neg 0 = 0 := by cases neg <;> rfl
    rw [h0]
  | cons c cs =>
    rw [hz] at hv
    have hdig : ∀ x ∈ c :: cs, IsDigit b x := fun x hx => hds.2 x (dropWhile_mem (by rw [hz]; exact hx))
    have hc0 : c ≠ 48 := by have := dropWhile_head hz; simpa using this
    have hlo := value_ge b c cs (hdig c (by simp)) hc0
    rw [hv] at hlo
    rw [if_neg (by simp)]
    obtain ⟨hlt, hchk⟩ := checkOverflow_fits T hT b (c :: cs).length (value b ds) neg hsg h2 h36
      (by simp) (by simpa using hlo) hfit
    rw [hchk, if_neg (by simp), Nat.mod_eq_of_lt hlt, storeResult_correct T hT _ neg hsg hfit]

end Scn
