import Verif.Model.IntParse
/-
Helper lemmas about the 8-byte decimal tricks.
-/
namespace Scn

theorem word8_lt (s : List Nat) (h : ∀ b ∈ s, b < 256) : word8 s < 256 ^ s.length := by
  induction s with
  | nil => simp [word8]
  | cons b bs ih =>
    have h1 := ih (fun x hx => h x (by simp [hx]))
    have h2 := h b (by simp)
    simp only [word8, List.length_cons, Nat.pow_succ]
    omega

/-- All `n` low bytes are below 128. -/
def allLow : Nat → Nat → Prop
  | 0, _ => True
  | n + 1, x => x % 256 < 128 ∧ allLow n (x / 256)

/-- The constant with `n` bytes `k`. -/
def rep (k : Nat) : Nat → Nat
  | 0 => 0
  | n + 1 => k + 256 * rep k n

theorem rep_lt (k : Nat) (hk : k < 256) (n : Nat) : rep k n < 256 ^ n := by
  induction n with
  | zero => simp [rep]
  | succ n ih => simp only [rep, Nat.pow_succ]; omega

theorem allLow_digits (s : List Nat) (h : ∀ b ∈ s, b < 256) :
    (allLow s.length (word8 s + rep 0x46 s.length) ∧
      allLow s.length ((word8 s + (256 ^ s.length - rep 0x30 s.length)) % 256 ^ s.length)) ↔
    ∀ b ∈ s, 48 ≤ b ∧ b ≤ 57 := by
  induction s with
  | nil => simp [allLow]
  | cons b bs ih =>
    have hb := h b (by simp)
    have hbs : ∀ x ∈ bs, x < 256 := fun x hx => h x (by simp [hx])
    have ih := ih hbs
    have hw := word8_lt bs hbs
    have hr := rep_lt 0x30 (by decide) bs.length
    simp only [word8, List.length_cons, rep, allLow, Nat.pow_succ, List.mem_cons,
      forall_eq_or_imp] at *
    generalize hP : 256 ^ bs.length = P at *
    generalize hW : word8 bs = W at *
    generalize hR : rep 48 bs.length = R at *
    generalize hR2 : rep 70 bs.length = R2 at *
    have hmod : ∀ x, (x % (P * 256)) % 256 = x % 256 := fun x => by
      rw [Nat.mul_comm]; exact Nat.mod_mul_right_mod x 256 P
    have hdiv : ∀ x, (x % (P * 256)) / 256 = x / 256 % P := fun x => by
      rw [Nat.mul_comm]; exact Nat.mod_mul_right_div_self x 256 P
    rw [hmod, hdiv]
    by_cases hd : 48 ≤ b ∧ b ≤ 57
    · have e1 : (b + 256 * W + (70 + 256 * R2)) % 256 = b + 70 := by omega
      have e2 : (b + 256 * W + (70 + 256 * R2)) / 256 = W + R2 := by omega
      have e3 : (b + 256 * W + (P * 256 - (48 + 256 * R))) % 256 = b - 48 := by omega
      have e4 : (b + 256 * W + (P * 256 - (48 + 256 * R))) / 256 = W + (P - R) := by omega
      rw [e1, e2, e3, e4, ← ih]
      constructor
      · rintro ⟨⟨_, h1⟩, _, h2⟩; exact ⟨hd, h1, h2⟩
      · rintro ⟨_, h1, h2⟩; exact ⟨⟨by omega, h1⟩, by omega, h2⟩
    · constructor
      · rintro ⟨⟨h1, _⟩, h2, _⟩
        exfalso; omega
      · rintro ⟨h1, _⟩; exact absurd h1 hd

theorem allLow_iff (n x : Nat) : allLow n x ↔ ∀ i < n, x.testBit (8 * i + 7) = false := by
  induction n generalizing x with
  | zero => simp [allLow]
  | succ n ih =>
    have key : ∀ j, (x / 256).testBit j = x.testBit (j + 8) := by
      intro j
      rw [show (256 : Nat) = 2 ^ 8 by rfl, Nat.testBit_div_two_pow]
    have low : x % 256 < 128 ↔ x.testBit 7 = false := by
      rw [Nat.testBit_eq_decide_div_mod_eq]
      simp; omega
    simp only [allLow, ih, key]
    constructor
    · rintro ⟨h1, h2⟩ i hi
      cases i with
      | zero => exact low.1 h1
      | succ i => have := h2 i (by omega); rw [show 8 * (i + 1) + 7 = 8 * i + 7 + 8 by omega]; exact this
    · intro h
      exact ⟨low.2 (h 0 (by omega)), fun i hi => by
        have := h (i + 1) (by omega)
        rw [show 8 * (i + 1) + 7 = 8 * i + 7 + 8 by omega] at this; exact this⟩

theorem highMask_testBit (i : Nat) :
    (0x8080808080808080 : Nat).testBit i = decide (i < 64 ∧ i % 8 = 7) := by
  by_cases h : i < 64
  · have : ∀ k : Fin 64, (0x8080808080808080 : Nat).testBit k.val =
        decide (k.val < 64 ∧ k.val % 8 = 7) := by decide +kernel
    exact this ⟨i, h⟩
  · rw [Nat.testBit_lt_two_pow (Nat.lt_of_lt_of_le (by decide : _ < 2 ^ 64)
      (Nat.pow_le_pow_right (by decide) (by omega)))]
    simp [h]

theorem and_highMask (x : Nat) : x &&& 0x8080808080808080 = 0 ↔ allLow 8 x := by
  rw [allLow_iff]
  constructor
  · intro h i hi
    have := congrArg (fun y => y.testBit (8 * i + 7)) h
    simp only [Nat.testBit_and, highMask_testBit, Nat.zero_testBit] at this
    have h2 : 8 * i + 7 < 64 ∧ (8 * i + 7) % 8 = 7 := by omega
    simpa [h2] using this
  · intro h
    apply Nat.eq_of_testBit_eq
    intro i
    simp only [Nat.testBit_and, highMask_testBit, Nat.zero_testBit]
    by_cases h2 : i < 64 ∧ i % 8 = 7
    · have := h (i / 8) (by omega)
      rw [show 8 * (i / 8) + 7 = i by omega] at this
      simp [this]
    · simp only [h2, decide_false, Bool.and_false]

theorem isEightDigits_iff (s : List Nat) (hl : s.length = 8) (h : ∀ b ∈ s, b < 256) :
    isEightDigits (word8 s) = true ↔ ∀ b ∈ s, 48 ≤ b ∧ b ≤ 57 := by
  have key := allLow_digits s h
  rw [hl] at key
  have r1 : rep 0x46 8 = 0x4646464646464646 := by decide
  have r2 : rep 0x30 8 = 0x3030303030303030 := by decide
  have p : (256 : Nat) ^ 8 = 2 ^ 64 := by decide
  rw [r1, r2, p] at key
  have hm : allLow 8 ((word8 s + 0x4646464646464646) % 2 ^ 64) ↔
      allLow 8 (word8 s + 0x4646464646464646) := by
    rw [allLow_iff, allLow_iff]
    constructor <;> intro h i hi <;> have := h i hi <;>
      rw [Nat.testBit_mod_two_pow] at * <;> simpa [show 8 * i + 7 < 64 by omega] using this
  unfold isEightDigits
  rw [beq_iff_eq, Nat.and_or_distrib_right, Nat.or_eq_zero_iff, and_highMask, and_highMask, hm]
  exact key

theorem and_mask (x : Nat) :
    x &&& 0x000000FF000000FF = x % 256 + 2 ^ 32 * (x / 2 ^ 32 % 256) := by
  apply Nat.eq_of_testBit_eq
  intro i
  have hlt : x % 256 < 2 ^ 32 := Nat.lt_trans (Nat.mod_lt _ (by decide)) (by decide)
  have hm : (0x000000FF000000FF : Nat) = 2 ^ 32 * 255 + 255 := by decide
  rw [Nat.add_comm, Nat.testBit_two_pow_mul_add _ hlt, Nat.testBit_and, hm,
    Nat.testBit_two_pow_mul_add _ (by decide), show (256 : Nat) = 2 ^ 8 by rfl,
    show (255 : Nat) = 2 ^ 8 - 1 by rfl]
  by_cases hi : i < 32
  · simp only [hi, if_true, Nat.testBit_mod_two_pow, Nat.testBit_two_pow_sub_one]
    rw [Bool.and_comm]
  · simp only [hi, if_false, Nat.testBit_mod_two_pow, Nat.testBit_two_pow_sub_one,
      Nat.testBit_div_two_pow]
    rw [Bool.and_comm, show i - 32 + 32 = i by omega]

theorem parseEight_step3 (v0 v2 v4 v6 : Nat) (h0 : v0 ≤ 99) (h2 : v2 ≤ 99) (h4 : v4 ≤ 99)
    (h6 : v6 ≤ 99) :
    ((v0 + 2 ^ 32 * v4) * 0x000F424000000064 + (v2 + 2 ^ 32 * v6) * 0x0000271000000001) % 2 ^ 64
      / 2 ^ 32 % 2 ^ 32 = 1000000 * v0 + 10000 * v2 + 100 * v4 + v6 := by
  have e : (v0 + 2 ^ 32 * v4) * 0x000F424000000064 + (v2 + 2 ^ 32 * v6) * 0x0000271000000001 =
      (100 * v0 + v2) + 2 ^ 32 * ((1000000 * v0 + 10000 * v2 + 100 * v4 + v6) + 2 ^ 32 *
        (1000000 * v4 + 10000 * v6)) := by omega
  rw [e]
  have hm : 1000000 * v0 + 10000 * v2 + 100 * v4 + v6 < 2 ^ 32 := by omega
  have hl : 100 * v0 + v2 < 2 ^ 32 := by omega
  clear e
  revert hm hl
  have gen : ∀ hi m l : Nat, m < 2 ^ 32 → l < 2 ^ 32 →
    (l + 2 ^ 32 * (m + 2 ^ 32 * hi)) % 2 ^ 64 / 2 ^ 32 % 2 ^ 32 = m := by intros; omega
  intro hm hl
  exact gen _ _ _ hm hl

theorem bytes_of_word (x0 x1 x2 x3 x4 x5 x6 x7 : Nat) (h0 : x0 < 256) (h1 : x1 < 256)
    (h2 : x2 < 256) (h3 : x3 < 256) (h4 : x4 < 256) (h5 : x5 < 256) (h6 : x6 < 256) (w : Nat)
    (hw : w = x0 + 256 * (x1 + 256 * (x2 + 256 * (x3 + 256 * (x4 + 256 * (x5 + 256 *
      (x6 + 256 * x7))))))) :
    w % 256 = x0 ∧ w / 2 ^ 32 % 256 = x4 ∧ w / 2 ^ 16 % 256 = x2 ∧
      w / 2 ^ 16 / 2 ^ 32 % 256 = x6 % 256 := by
  have div : ∀ (a lo hi : Nat), lo < a → (lo + a * hi) / a = hi := by
    intro a lo hi h
    rw [Nat.add_mul_div_left _ _ (by omega), Nat.div_eq_of_lt h, Nat.zero_add]
  have m : ∀ lo hi : Nat, lo < 256 → (lo + 256 * hi) % 256 = lo := by intros; omega
  refine ⟨?_, ?_, ?_, ?_⟩
  · rw [hw]; exact m _ _ h0
  · rw [show w = (x0 + 256 * (x1 + 256 * (x2 + 256 * x3))) + 2 ^ 32 * (x4 + 256 * (x5 + 256 *
      (x6 + 256 * x7))) by omega, div _ _ _ (by omega)]
    exact m _ _ h4
  · rw [show w = (x0 + 256 * x1) + 2 ^ 16 * (x2 + 256 * (x3 + 256 * (x4 + 256 * (x5 + 256 *
      (x6 + 256 * x7))))) by omega, div _ _ _ (by omega)]
    exact m _ _ h2
  · rw [Nat.div_div_eq_div_mul, show w = (x0 + 256 * (x1 + 256 * (x2 + 256 * (x3 + 256 * (x4 + 256 *
      x5))))) + 2 ^ 16 * 2 ^ 32 * (x6 + 256 * x7) by omega, div _ _ _ (by omega), m _ _ h6]
    omega

theorem parseEight_step12 (d0 d1 d2 d3 d4 d5 d6 d7 : Nat)
    (h0 : d0 ≤ 9) (h1 : d1 ≤ 9) (h2 : d2 ≤ 9) (h3 : d3 ≤ 9)
    (h4 : d4 ≤ 9) (h5 : d5 ≤ 9) (h6 : d6 ≤ 9) (h7 : d7 ≤ 9) (W w1 w2 : Nat)
    (hW : W = word8 [48 + d0, 48 + d1, 48 + d2, 48 + d3, 48 + d4, 48 + d5, 48 + d6, 48 + d7])
    (hw1 : w1 = (W + (2 ^ 64 - 0x3030303030303030)) % 2 ^ 64)
    (hw2 : w2 = (w1 * 10 + (w1 >>> 8)) % 2 ^ 64) :
    w2 &&& 0x000000FF000000FF = (10 * d0 + d1) + 2 ^ 32 * (10 * d4 + d5) ∧
    (w2 >>> 16) &&& 0x000000FF000000FF = (10 * d2 + d3) + 2 ^ 32 * (10 * d6 + d7) := by
  have e1 : w1 = d0 + 256 * (d1 + 256 * (d2 + 256 * (d3 + 256 * (d4 + 256 * (d5 + 256 *
    (d6 + 256 * d7)))))) := by simp only [word8] at hW; omega
  rw [Nat.shiftRight_eq_div_pow] at hw2
  have q : w1 / 2 ^ 8 = d1 + 256 * (d2 + 256 * (d3 + 256 * (d4 + 256 * (d5 + 256 *
    (d6 + 256 * d7))))) := by rw [e1]; omega
  have e2 : w2 = (10 * d0 + d1) + 256 * ((10 * d1 + d2) + 256 * ((10 * d2 + d3) + 256 *
    ((10 * d3 + d4) + 256 * ((10 * d4 + d5) + 256 * ((10 * d5 + d6) + 256 *
    ((10 * d6 + d7) + 256 * (10 * d7))))))) := by
    rw [hw2, q, e1]; clear hw2 q e1 hw1 hW
    rw [Nat.mod_eq_of_lt (by omega)]; omega
  clear q
  clear hw1 hw2 e1 hW
  rw [and_mask, and_mask, Nat.shiftRight_eq_div_pow]
  obtain ⟨a0, a4, a2, a6⟩ := bytes_of_word _ _ _ _ _ _ _ _ (by omega) (by omega) (by omega)
    (by omega) (by omega) (by omega) (by omega) w2 e2
  rw [a0, a4, a2, a6, Nat.mod_eq_of_lt (by omega : 10 * d6 + d7 < 256)]
  exact ⟨rfl, rfl⟩

theorem parseEight_digits (d0 d1 d2 d3 d4 d5 d6 d7 : Nat)
    (h0 : d0 ≤ 9) (h1 : d1 ≤ 9) (h2 : d2 ≤ 9) (h3 : d3 ≤ 9)
    (h4 : d4 ≤ 9) (h5 : d5 ≤ 9) (h6 : d6 ≤ 9) (h7 : d7 ≤ 9) :
    parseEight (word8 [48 + d0, 48 + d1, 48 + d2, 48 + d3, 48 + d4, 48 + d5, 48 + d6, 48 + d7])
      = ((((((d0 * 10 + d1) * 10 + d2) * 10 + d3) * 10 + d4) * 10 + d5) * 10 + d6) * 10 + d7 := by
  obtain ⟨ha, hb⟩ := parseEight_step12 d0 d1 d2 d3 d4 d5 d6 d7 h0 h1 h2 h3 h4 h5 h6 h7 _ _ _
    rfl rfl rfl
  unfold parseEight
  dsimp only
  rw [ha, hb, Nat.shiftRight_eq_div_pow, parseEight_step3 _ _ _ _ (by omega) (by omega)
    (by omega) (by omega)]
  omega

end Scn
