import Verif.Model.Args
import Mathlib.Data.Nat.Bitwise
/-
Bit packing of the argument types.
-/
namespace Scn

theorem code_lt (t : ArgTy) : t.code < 32 := by cases t <;> decide

theorem code_inj (t u : ArgTy) (h : t.code = u.code) : t = u := by
  revert u; cases t <;> intro u <;> cases u <;> intro h <;> first | rfl | exact absurd h (by decide)

/-- The types as a number in base 32. -/
def packed : List ArgTy → Nat
  | [] => 0
  | t :: ts => t.code + 32 * packed ts

theorem packed_lt (ts : List ArgTy) : packed ts < 32 ^ ts.length := by
  induction ts with
  | nil => simp [packed]
  | cons t ts ih =>
    have := code_lt t
    simp only [packed, List.length_cons, Nat.pow_succ]
    omega

theorem nibble_or_shift (a b : Nat) (h : a < 32) (hb : b * 32 < 2 ^ 64) : a ||| (b <<< packedArgBits) % 2 ^ 64 = a + 32 * b := by
  have hs : b <<< packedArgBits = b * 32 := by rw [Nat.shiftLeft_eq]; rfl
  rw [hs, Nat.mod_eq_of_lt hb, ← hs, Nat.or_comm, ← Nat.shiftLeft_add_eq_or_of_lt (show a < 2 ^ packedArgBits from h), hs]
  omega

theorem pow_le_pow32 {m n : Nat} (h : m ≤ n) : 32 ^ m ≤ 32 ^ n := Nat.pow_le_pow_right (by decide) h

theorem encodeTypesImpl_eq (ts : List ArgTy) (h : ts.length ≤ 12) : encodeTypesImpl ts = packed ts := by
  induction ts with
  | nil => rfl
  | cons t ts ih =>
    simp only [List.length_cons] at h
    rw [encodeTypesImpl, ih (by omega), nibble_or_shift _ _ (code_lt t)]
    · rfl
    · have h1 := packed_lt ts
      have h2 : 32 ^ ts.length ≤ 32 ^ 11 := pow_le_pow32 (by omega)
      have h3 : (32 : Nat) ^ 11 * 32 < 2 ^ 64 := by decide
      omega

theorem encodeTypes_eq (ts : List ArgTy) (h : ts.length ≤ maxPackedArgs) :
    encodeTypes ts = some (ts.length + 32 * packed ts) ∧ ts.length + 32 * packed ts < 2 ^ 60 := by
  have h11 : ts.length ≤ 11 := h
  have h1 := packed_lt ts
  have h2 : 32 ^ ts.length ≤ 32 ^ 11 := pow_le_pow32 h11
  have h3 : (32 : Nat) ^ 11 * 32 = 2 ^ 60 := by decide
  have h4 : (2 : Nat) ^ 60 < 2 ^ 64 := by decide
  unfold encodeTypes
  rw [if_pos (by show ts.length < 32; omega), encodeTypesImpl_eq ts (by omega), nibble_or_shift _ _ (by omega) (by omega)]
  exact ⟨rfl, by omega⟩

theorem packed_digit (ts : List ArgTy) : ∀ i, packed ts / 32 ^ i % 32 = ((ts[i]?).map ArgTy.code).getD 0 := by
  induction ts with
  | nil => intro i; simp [packed]
  | cons t ts ih =>
    intro i
    have ht := code_lt t
    cases i with
    | zero => simp only [packed, Nat.pow_zero, Nat.div_one, List.getElem?_cons_zero, Option.map_some, Option.getD_some]; omega
    | succ i =>
      rw [Nat.pow_succ, Nat.mul_comm, ← Nat.div_div_eq_div_mul, packed,
        show (t.code + 32 * packed ts) / 32 = packed ts by omega, ih i]
      simp

theorem typeCode_eq (n p hi : Nat) (hn : n < 32) (hhi : ∃ k, hi = k * 32 ^ 12) (i : Nat) (hi11 : i < 11) :
    typeCode (n + 32 * p + hi) i = p / 32 ^ i % 32 := by
  obtain ⟨k, rfl⟩ := hhi
  unfold typeCode
  rw [show 1 <<< packedArgBits - 1 = 2 ^ 5 - 1 by decide, Nat.and_two_pow_sub_one_eq_mod, Nat.shiftRight_eq_div_pow,
    show (i + 1) * packedArgBits = 5 + 5 * i by unfold packedArgBits; omega, Nat.pow_add,
    ← Nat.div_div_eq_div_mul, show (2 : Nat) ^ 5 = 32 by decide,
    show (n + 32 * p + k * 32 ^ 12) / 32 = p + k * 32 ^ 11 by omega, Nat.pow_mul,
    show (2 : Nat) ^ 5 = 32 by decide]
  have hsplit : (32 : Nat) ^ 11 = 32 * 32 ^ (10 - i) * 32 ^ i := by
    rw [Nat.mul_assoc, ← Nat.pow_add, Nat.sub_add_cancel (by omega)]; decide
  rw [hsplit, show k * (32 * 32 ^ (10 - i) * 32 ^ i) = k * 32 ^ (10 - i) * 32 * 32 ^ i by
      rw [Nat.mul_comm 32, Nat.mul_assoc, Nat.mul_assoc, Nat.mul_assoc],
    Nat.add_mul_div_right _ _ (Nat.pow_pos (by decide)), Nat.add_mul_mod_self_right]

theorem testBit_of_lt {d n i : Nat} (h : d < 2 ^ n) (hi : n ≤ i) : d.testBit i = false :=
  Nat.testBit_lt_two_pow (Nat.lt_of_lt_of_le h (Nat.pow_le_pow_right (by decide) hi))

theorem and_bit (d i : Nat) : d &&& 2 ^ i = 0 ↔ d.testBit i = false := by
  rw [Nat.and_two_pow]
  cases d.testBit i <;> simp

theorem isPacked_eq (d : Nat) : isPacked d = ! d.testBit 63 := by
  have h : isPacked d = decide (d.testBit 63 = false) := decide_eq_decide.2 (and_bit d 63)
  rw [h]; cases Nat.testBit d 63 <;> decide

theorem isOnlyBuiltin_eq (d : Nat) : isOnlyBuiltin d = ! d.testBit 62 := by
  have h : isOnlyBuiltin d = decide (d.testBit 62 = false) := decide_eq_decide.2 (and_bit d 62)
  rw [h]; cases Nat.testBit d 62 <;> decide

theorem maxSize_unpacked (n : Nat) (h : n < 2 ^ 62) : maxSize (n ||| isUnpackedBit) = n := by
  unfold maxSize
  rw [if_neg (by
    rw [isPacked_eq]
    have : (n ||| isUnpackedBit).testBit 63 = true := by
      rw [Nat.testBit_or, show isUnpackedBit.testBit 63 = true by decide, Bool.or_true]
    rw [this]; simp)]
  apply Nat.eq_of_testBit_eq
  intro i
  have hmask : ∀ i < 62, (2 ^ 64 - 1 - isUnpackedBit).testBit i = true ∧ (2 ^ 64 - 1 - hasCustomTypesBit).testBit i = true ∧
      isUnpackedBit.testBit i = false := by decide +kernel
  rw [Nat.testBit_and, Nat.testBit_and, Nat.testBit_or]
  by_cases hi : i < 62
  · obtain ⟨h1, h2, h3⟩ := hmask i hi
    rw [h1, h2, h3]; simp
  · have hn : n.testBit i = false := testBit_of_lt h (by omega)
    rw [hn]
    by_cases h62 : i = 62
    · subst h62
      have h62m : (2 ^ 64 - 1 - hasCustomTypesBit).testBit 62 = false := by decide +kernel
      rw [h62m]; simp
    · have : (2 ^ 64 - 1 - isUnpackedBit) < 2 ^ 63 := by decide
      have h63 : (2 ^ 64 - 1 - isUnpackedBit).testBit i = false := testBit_of_lt this (by omega)
      rw [h63]; simp

end Scn
