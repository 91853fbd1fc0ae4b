import Verif.Lemmas.Bits
/-
C17: byte-lane bit tricks, for all 64-bit words.
-/
namespace Scn
open Spec

theorem hasZeroByte_eq (w : Nat) : hasZeroByte w = zeroN 8 w := by
  unfold hasZeroByte zeroN not64
  rw [show rep 1 8 = 0x0101010101010101 by decide, show rep 128 8 = 0x8080808080808080 by decide,
    show (256 : Nat) ^ 8 = 2 ^ 64 by decide]

/-- Zero-byte search on words of any length: the result vanishes iff there is no zero byte,
    and its lowest set bit lies in the first zero byte. -/
theorem zeroN_spec (bs : List Nat) (h : ∀ b ∈ bs, b < 256) :
    (zeroN bs.length (word8 bs) = 0 ↔ ∀ b ∈ bs, b ≠ 0) ∧
      ∀ m i, 8 * bs.length ≤ m → bs[i]? = some 0 → (∀ j < i, bs[j]? ≠ some 0) →
        ctzAux m (zeroN bs.length (word8 bs)) / 8 = i := by
  induction bs with
  | nil => simp [zeroN, rep]
  | cons b bs ih =>
    have hb := h b (by simp)
    have hbs : ∀ x ∈ bs, x < 256 := fun x hx => h x (by simp [hx])
    obtain ⟨ih1, ih2⟩ := ih hbs
    rw [List.length_cons, zeroN_cons b bs hb hbs]
    by_cases h0 : b = 0
    · subst h0
      rw [if_pos rfl]
      refine ⟨⟨fun h => by omega, fun h => absurd rfl (h 0 (by simp))⟩, ?_⟩
      intro m i hm hi hj
      cases i with
      | zero => exact ctzAux_byte 128 _ m (by decide) (by decide) (by omega)
      | succ i => exact absurd rfl (hj 0 (by omega))
    · rw [if_neg h0]
      refine ⟨?_, ?_⟩
      · simp only [List.mem_cons, forall_eq_or_imp, ← ih1]
        exact ⟨fun h => ⟨h0, by omega⟩, fun h => by omega⟩
      · intro m i hm hi hj
        cases i with
        | zero => simp at hi; exact absurd hi h0
        | succ i =>
          obtain ⟨m', rfl⟩ : ∃ m', m = m' + 8 := ⟨m - 8, by omega⟩
          rw [ctzAux_shift]
          have := ih2 m' i (by omega) (by simpa using hi)
            (fun j hj' => by have := hj (j + 1) (by omega); simpa using this)
          omega

/-- C17, `has_zero_byte`: non-zero exactly when some byte is zero. -/
theorem C17_has_zero_byte (w : Nat) (hw : w < 2 ^ 64) :
    hasZeroByte w ≠ 0 ↔ ∃ i < 8, byteOf w i = 0 := by
  have hl := bytesOf_length 8 w
  have hz := (zeroN_spec (bytesOf 8 w) (bytesOf_lt 8 w)).1
  rw [hl, word8_bytesOf 8 w hw, ← hasZeroByte_eq] at hz
  rw [Ne, hz, ← mem_bytesOf]
  constructor
  · intro h
    apply Decidable.byContradiction
    intro h2
    exact h (fun b hb hb0 => h2 (hb0 ▸ hb))
  · intro h h2; exact h2 0 h rfl

/-- C17: and the lowest bit it sets lies in the first zero byte. -/
theorem C17_has_zero_byte_first (w i : Nat) (hw : w < 2 ^ 64) (h : IsFirst 8 (fun j => byteOf w j = 0) i) :
    (ctz (hasZeroByte w)).map (· / 8) = some i := by
  have hne := (C17_has_zero_byte w hw).2 ⟨i, h.1, h.2.1⟩
  have hz := (zeroN_spec (bytesOf 8 w) (bytesOf_lt 8 w)).2 64 i (by rw [bytesOf_length]; decide)
    (by rw [bytesOf_get 8 w i h.1, h.2.1])
    (fun j hj => by rw [bytesOf_get 8 w j (by have := h.1; omega), Ne, Option.some.injEq]; exact h.2.2 j hj)
  rw [bytesOf_length, word8_bytesOf 8 w hw, ← hasZeroByte_eq] at hz
  rw [ctz, if_neg hne, Option.map_some, hz]

example : IsFirst 8 (fun j => byteOf 0x1122003300445566 j = 0) 3 := by
  refine ⟨by decide, by decide, ?_⟩
  intro j hj; revert j; decide

theorem hasByteBetween_eq (w a b : Nat) (ha : a ≤ 128) :
    hasByteBetween w a b = betweenN 8 w (128 - a) (128 + b) := by
  have hlo : (127 + (2 ^ 64 - (a + (2 ^ 64 - 1)) % 2 ^ 64)) % 2 ^ 64 = 128 - a := by
    by_cases h0 : a = 0
    · subst h0; decide
    · have : (a + (2 ^ 64 - 1)) % 2 ^ 64 = a - 1 := by omega
      rw [this]; omega
  unfold hasByteBetween betweenN not64
  dsimp only
  rw [hlo, rep_mul (128 + b) 8, rep_mul (128 - a) 8, rep_mul 127 8, rep_mul 128 8,
    show rep 1 8 = 0x0101010101010101 by decide, show (256 : Nat) ^ 8 = 2 ^ 64 by decide,
    show 127 + (b + 1) = 128 + b by omega, Nat.mod_add_mod, Nat.add_mod_mod]

/-- C17, `has_byte_between` for bounds in the range the trick supports: the result marks
    (with 0x80) exactly the bytes between the bounds. -/
theorem C17_has_byte_between_marks (w a b : Nat) (hw : w < 2 ^ 64) (ha : a ≤ 128) (hb : b ≤ 127)
    (i : Nat) (hi : i < 8) :
    byteOf (hasByteBetween w a b) i = if a ≤ byteOf w i ∧ byteOf w i ≤ b then 0x80 else 0 := by
  have h1 := betweenN_eq a b ha hb (bytesOf 8 w) (bytesOf_lt 8 w)
  rw [bytesOf_length, word8_bytesOf 8 w hw, ← hasByteBetween_eq w a b ha] at h1
  have hlt : ∀ x ∈ (bytesOf 8 w).map (fun x => if a ≤ x ∧ x ≤ b then 128 else 0), x < 256 := by
    intro x hx
    obtain ⟨y, _, rfl⟩ := List.mem_map.1 hx
    split <;> decide
  have inj : ∀ xs : List Nat, (∀ x ∈ xs, x < 256) → bytesOf xs.length (word8 xs) = xs := by
    intro xs
    induction xs with
    | nil => intro _; rfl
    | cons x xs ih =>
      intro h
      have hx := h x (by simp)
      simp only [List.length_cons, bytesOf, word8]
      rw [show (x + 256 * word8 xs) % 256 = x by omega, show (x + 256 * word8 xs) / 256 = word8 xs by omega,
        ih (fun y hy => h y (by simp [hy]))]
  have h2 := inj _ hlt
  rw [List.length_map, bytesOf_length, ← h1] at h2
  have h3 := bytesOf_get 8 (hasByteBetween w a b) i hi
  rw [h2, List.getElem?_map, bytesOf_get 8 w i hi, Option.map_some, Option.some.injEq] at h3
  exact h3.symm

example : byteOf (hasByteBetween 0x3900412f30 0x30 0x39) 0 = 0x80 := by decide

/-- C17: hence it is non-zero exactly when some byte lies between the bounds. -/
theorem C17_has_byte_between (w a b : Nat) (hw : w < 2 ^ 64) (ha : a ≤ 128) (hb : b ≤ 127) :
    hasByteBetween w a b ≠ 0 ↔ ∃ i < 8, a ≤ byteOf w i ∧ byteOf w i ≤ b := by
  have h1 := betweenN_eq a b ha hb (bytesOf 8 w) (bytesOf_lt 8 w)
  rw [bytesOf_length, word8_bytesOf 8 w hw, ← hasByteBetween_eq w a b ha] at h1
  rw [Ne, h1, word8_eq_zero]
  constructor
  · intro h
    apply Decidable.byContradiction
    intro hn
    apply h
    intro x hx
    obtain ⟨y, hy, rfl⟩ := List.mem_map.1 hx
    obtain ⟨i, hi, rfl⟩ := (mem_bytesOf 8 w y).1 hy
    rw [if_neg (fun hc => hn ⟨i, hi, hc⟩)]
  · rintro ⟨i, hi, hc⟩ h
    have := h _ (List.mem_map.2 ⟨_, (mem_bytesOf 8 w _).2 ⟨i, hi, rfl⟩, rfl⟩)
    rw [if_pos hc] at this
    exact absurd this (by decide)

example : (48 : Nat) ≤ 128 ∧ 57 ≤ 127 ∧ (0x3900412f30 : Nat) < 2 ^ 64 := by decide

/-- C17, `has_byte_greater` for thresholds up to 127: non-zero exactly when some byte exceeds
    the threshold. -/
theorem C17_has_byte_greater (w n : Nat) (hw : w < 2 ^ 64) (hn : n ≤ 127) :
    hasByteGreater w n ≠ 0 ↔ ∃ i < 8, n < byteOf w i := by
  have h1 := greaterN_zero n hn (bytesOf 8 w) (bytesOf_lt 8 w)
  rw [bytesOf_length, word8_bytesOf 8 w hw] at h1
  have he : hasByteGreater w n = greaterN 8 w (127 - n) := by
    unfold hasByteGreater greaterN
    rw [rep_mul (127 - n) 8, rep_mul 128 8, show rep 1 8 = 0x0101010101010101 by decide,
      show (256 : Nat) ^ 8 = 2 ^ 64 by decide, Nat.add_mod_mod,
      show (127 + (2 ^ 64 - n)) % 2 ^ 64 = 127 - n by omega]
  rw [he, Ne, h1]
  constructor
  · intro h
    apply Decidable.byContradiction
    intro hn
    apply h
    intro x hx
    obtain ⟨i, hi, rfl⟩ := (mem_bytesOf 8 w x).1 hx
    exact Nat.not_lt.1 (fun hc => hn ⟨i, hi, hc⟩)
  · rintro ⟨i, hi, hc⟩ h
    have := h _ ((mem_bytesOf 8 w _).2 ⟨i, hi, rfl⟩)
    omega

example : (0x41e24141 : Nat) < 2 ^ 64 ∧ hasByteGreater 0x41e24141 127 ≠ 0 := by decide

/-- The supported range matters: above 127 the trick is wrong (one byte 0x80, threshold 0x90). -/
theorem C17_has_byte_greater_range : hasByteGreater 0x80 0x90 ≠ 0 ∧ ¬ ∃ i < 8, 0x90 < byteOf 0x80 i := by
  decide

/-- C17, `get_index_of_first_nonmatching_byte`: index of the first byte that is not 0x80. -/
theorem C17_first_nonmatching (w i : Nat) (hw : w < 2 ^ 64)
    (h : IsFirst 8 (fun j => byteOf w j ≠ 0x80) i) : firstNonmatching w = some i := by
  have hx := xor_word8 (bytesOf 8 w) (bytesOf 8 0x8080808080808080)
    (by rw [bytesOf_length, bytesOf_length]) (bytesOf_lt _ _) (bytesOf_lt _ _)
  rw [word8_bytesOf 8 w hw, word8_bytesOf 8 _ (by decide)] at hx
  have h80 : ∀ j < 8, byteOf 0x8080808080808080 j = 0x80 := by decide
  have hget : ∀ j < 8, (List.zipWith (· ^^^ ·) (bytesOf 8 w) (bytesOf 8 0x8080808080808080))[j]? =
      some (byteOf w j ^^^ 0x80) := by
    intro j hj
    rw [List.getElem?_zipWith, bytesOf_get 8 w j hj, bytesOf_get 8 _ j hj, h80 j hj]
  have hlt : ∀ b ∈ List.zipWith (· ^^^ ·) (bytesOf 8 w) (bytesOf 8 0x8080808080808080), b < 256 := by
    intro b hb
    obtain ⟨j, hj⟩ := List.mem_iff_getElem?.1 hb
    have hl : j < 8 := by
      have := (List.getElem?_eq_some_iff.1 hj).1
      rw [List.length_zipWith, bytesOf_length, bytesOf_length] at this; simpa using this
    rw [hget j hl, Option.some.injEq] at hj
    rw [← hj]
    exact Nat.xor_lt_two_pow (n := 8) (Nat.mod_lt _ (by decide)) (by decide)
  have hidx := ctzAux_index _ hlt 64 i ⟨_, hget i h.1, fun h0 => h.2.1 (xor_zero_iff.1 h0)⟩
    (fun j hj => by
      rw [hget j (by have := h.1; omega), Decidable.not_not.1 (h.2.2 j hj)]; decide)
    (by rw [List.length_zipWith, bytesOf_length, bytesOf_length]; decide)
  rw [← hx] at hidx
  have hne : w ^^^ 0x8080808080808080 ≠ 0 := by
    intro h0
    rw [xor_zero_iff] at h0
    subst h0
    exact h.2.1 (h80 i h.1)
  unfold firstNonmatching
  dsimp only
  rw [if_neg hne, ctz, if_neg hne, Option.map_some, hidx]

/-- C17: it returns 8 when all bytes are 0x80. -/
theorem C17_first_nonmatching_none : firstNonmatching 0x8080808080808080 = some 8 := by decide

example : IsFirst 8 (fun j => byteOf 0x8080800080808080 j ≠ 0x80) 4 := by
  refine ⟨by decide, by decide, ?_⟩
  intro j hj; revert j; decide

theorem firstMatching_word (w p : Nat) (hw : w < 2 ^ 64) (hp : p < 2 ^ 64) :
    ∃ bs : List Nat, bs.length = 8 ∧ (∀ j < 8, bs[j]? = some (if byteOf w j = byteOf p j then 128 else 0)) ∧
      (∀ b ∈ bs, b < 256) ∧
      not64 (((((w ^^^ p) &&& 0x7f7f7f7f7f7f7f7f) + 0x7f7f7f7f7f7f7f7f) % 2 ^ 64) ||| (w ^^^ p) |||
        0x7f7f7f7f7f7f7f7f) = word8 bs := by
  have hx := xor_word8 (bytesOf 8 w) (bytesOf 8 p)
    (by rw [bytesOf_length, bytesOf_length]) (bytesOf_lt _ _) (bytesOf_lt _ _)
  rw [word8_bytesOf 8 w hw, word8_bytesOf 8 p hp] at hx
  generalize hz : List.zipWith (· ^^^ ·) (bytesOf 8 w) (bytesOf 8 p) = zs at hx
  have hget : ∀ j < 8, zs[j]? = some (byteOf w j ^^^ byteOf p j) := by
    intro j hj
    rw [← hz, List.getElem?_zipWith, bytesOf_get 8 w j hj, bytesOf_get 8 _ j hj]
  have hlen : zs.length = 8 := by rw [← hz, List.length_zipWith, bytesOf_length, bytesOf_length]; rfl
  have hlt : ∀ b ∈ zs, b < 256 := by
    intro b hb
    obtain ⟨j, hj⟩ := List.mem_iff_getElem?.1 hb
    have hl : j < 8 := by
      have := (List.getElem?_eq_some_iff.1 hj).1
      omega
    rw [hget j hl, Option.some.injEq] at hj
    rw [← hj]
    exact Nat.xor_lt_two_pow (n := 8) (Nat.mod_lt _ (by decide)) (Nat.mod_lt _ (by decide))
  have hm := matchN_eq zs hlt
  rw [hlen, ← hx] at hm
  refine ⟨zs.map fun x => if x = 0 then 128 else 0, by rw [List.length_map, hlen], ?_, ?_, ?_⟩
  · intro j hj
    rw [List.getElem?_map, hget j hj, Option.map_some, Option.some.injEq]
    simp only [xor_zero_iff]
  · intro b hb
    obtain ⟨y, _, rfl⟩ := List.mem_map.1 hb
    split <;> decide
  · rw [← hm]
    unfold not64 matchN
    rw [show rep 127 8 = 0x7f7f7f7f7f7f7f7f by decide, show (256 : Nat) ^ 8 = 2 ^ 64 by decide]

/-- C17, `get_index_of_first_matching_byte`: index of the first byte equal to the byte of the
    pattern at the same place. -/
theorem C17_first_matching (w p i : Nat) (hw : w < 2 ^ 64) (hp : p < 2 ^ 64)
    (h : IsFirst 8 (fun j => byteOf w j = byteOf p j) i) : firstMatching w p = some i := by
  obtain ⟨bs, hlen, hget, hlt, he⟩ := firstMatching_word w p hw hp
  unfold firstMatching
  dsimp only
  rw [he]
  have hi : bs[i]? = some 128 := by rw [hget i h.1, if_pos h.2.1]
  have hne : word8 bs ≠ 0 := by
    intro h0
    have := (word8_eq_zero bs).1 h0 128 (List.mem_of_getElem? hi)
    exact absurd this (by decide)
  rw [ctz, if_neg hne, Option.map_some, ctzAux_index bs hlt 64 i ⟨128, hi, by decide⟩
    (fun j hj => by rw [hget j (by have := h.1; omega), if_neg (h.2.2 j hj)]) (by rw [hlen]; decide)]

/-- C17: without a matching byte the precondition of the trailing-zero count is violated. -/
theorem C17_first_matching_none (w p : Nat) (hw : w < 2 ^ 64) (hp : p < 2 ^ 64)
    (h : ∀ i < 8, byteOf w i ≠ byteOf p i) : firstMatching w p = none := by
  obtain ⟨bs, hlen, hget, hlt, he⟩ := firstMatching_word w p hw hp
  unfold firstMatching
  dsimp only
  rw [he]
  have : word8 bs = 0 := by
    rw [word8_eq_zero]
    intro b hb
    obtain ⟨j, hj⟩ := List.mem_iff_getElem?.1 hb
    have hl : j < 8 := by
      have := (List.getElem?_eq_some_iff.1 hj).1
      omega
    rw [hget j hl, if_neg (h j hl)] at hj
    simpa using hj.symm
  rw [ctz, if_pos this]; rfl

example : IsFirst 8 (fun j => byteOf 0x0000002c31323334 j = byteOf 0x2c2c2c2c2c2c2c2c j) 4 := by
  refine ⟨by decide, by decide, ?_⟩
  intro j hj; revert j; decide

/-- C17, `log2_fast`: the floor of the binary logarithm of every non-zero 32-bit value. -/
theorem C17_log2_fast (v : Nat) (h0 : v ≠ 0) (hv : v < 2 ^ 32) :
    2 ^ log2Fast v ≤ v ∧ v < 2 ^ (log2Fast v + 1) := by
  have h1 : 2 ^ v.log2 ≤ v := Nat.log2_self_le h0
  have h2 : v < 2 ^ (v.log2 + 1) := Nat.lt_log2_self
  have h3 : v.log2 < 32 := (Nat.log2_lt h0).2 hv
  have hs := smear v v.log2 h1 h2 h3
  have hl : log2Fast v = v.log2 := by
    unfold log2Fast
    dsimp only at hs ⊢
    rw [hs]
    have : ∀ k : Fin 32, log2Table.getD (((2 ^ (k.val + 1) - 1) * 0x07c4acdd % 2 ^ 32) >>> 27) 0 = k.val := by
      decide +kernel
    exact this ⟨_, h3⟩
  rw [hl]
  exact ⟨h1, h2⟩

example : log2Fast 1000000 = 19 := by decide

/-- C17, `log2_pow2_fast`: the exponent of every 32-bit power of two. -/
theorem C17_log2_pow2_fast (k : Nat) (h : k < 32) : log2Pow2Fast (2 ^ k) = k := by
  have : ∀ k : Fin 32, log2Pow2Fast (2 ^ k.val) = k.val := by decide +kernel
  exact this ⟨k, h⟩

example : log2Pow2Fast 65536 = 16 := by decide

/-- C17, `byteswap`: byte `i` of the result is byte `7 - i` of the argument. -/
theorem C17_byteswap (w : Nat) (i : Nat) (hi : i < 8) :
    byteOf (byteswap w) i = byteOf w (7 - i) := by
  have m0 := and_byte w 0
  have m1 := and_byte w 8
  have m2 := and_byte w 16
  have m3 := and_byte w 24
  have m4 := and_byte w 32
  have m5 := and_byte w 40
  have m6 := and_byte w 48
  have m7 := and_byte w 56
  simp only [show (255 * 2 ^ 0 : Nat) = 0xFF from rfl, show (255 * 2 ^ 8 : Nat) = 0xFF00 from rfl,
    show (255 * 2 ^ 16 : Nat) = 0xFF0000 from rfl, show (255 * 2 ^ 24 : Nat) = 0xFF000000 from rfl,
    show (255 * 2 ^ 32 : Nat) = 0xFF00000000 from rfl, show (255 * 2 ^ 40 : Nat) = 0xFF0000000000 from rfl,
    show (255 * 2 ^ 48 : Nat) = 0xFF000000000000 from rfl,
    show (255 * 2 ^ 56 : Nat) = 0xFF00000000000000 from rfl] at *
  have hb : ∀ k, w / 2 ^ k % 256 < 256 := fun k => Nat.mod_lt _ (by decide)
  have e : byteswap w = (((((((w / 2 ^ 56 % 256) + (w / 2 ^ 48 % 256) * 2 ^ 8) +
      (w / 2 ^ 40 % 256) * 2 ^ 16) + (w / 2 ^ 32 % 256) * 2 ^ 24) + (w / 2 ^ 24 % 256) * 2 ^ 32) +
      (w / 2 ^ 16 % 256) * 2 ^ 40) + (w / 2 ^ 8 % 256) * 2 ^ 48) + (w / 2 ^ 0 % 256) * 2 ^ 56 := by
    unfold byteswap
    rw [m0, m1, m2, m3, m4, m5, m6, m7]
    simp only [Nat.shiftRight_eq_div_pow, Nat.shiftLeft_eq]
    have b0 := hb 0
    have b1 := hb 8
    have b2 := hb 16
    have b3 := hb 24
    have b4 := hb 32
    have b5 := hb 40
    have b6 := hb 48
    have b7 := hb 56
    generalize w / 2 ^ 0 % 256 = x0 at *
    generalize w / 2 ^ 8 % 256 = x1 at *
    generalize w / 2 ^ 16 % 256 = x2 at *
    generalize w / 2 ^ 24 % 256 = x3 at *
    generalize w / 2 ^ 32 % 256 = x4 at *
    generalize w / 2 ^ 40 % 256 = x5 at *
    generalize w / 2 ^ 48 % 256 = x6 at *
    generalize w / 2 ^ 56 % 256 = x7 at *
    rw [show x7 * 2 ^ 56 / 2 ^ 56 = x7 by omega, show x6 * 2 ^ 48 / 2 ^ 40 = x6 * 2 ^ 8 by omega,
      show x5 * 2 ^ 40 / 2 ^ 24 = x5 * 2 ^ 16 by omega, show x4 * 2 ^ 32 / 2 ^ 8 = x4 * 2 ^ 24 by omega,
      show x3 * 2 ^ 24 * 2 ^ 8 = x3 * 2 ^ 32 by omega, show x2 * 2 ^ 16 * 2 ^ 24 = x2 * 2 ^ 40 by omega,
      show x1 * 2 ^ 8 * 2 ^ 40 = x1 * 2 ^ 48 by omega, show x0 * 2 ^ 0 * 2 ^ 56 = x0 * 2 ^ 56 by omega,
      or_high x7 x6 8 (by omega), or_high _ x5 16 (by omega), or_high _ x4 24 (by omega),
      or_high _ x3 32 (by omega), or_high _ x2 40 (by omega), or_high _ x1 48 (by omega),
      or_high _ x0 56 (by omega)]
  rw [e]
  unfold byteOf
  have hp : ∀ k, (256 : Nat) ^ k = 2 ^ (8 * k) := fun k => by
    rw [show (256 : Nat) = 2 ^ 8 from rfl, ← Nat.pow_mul]
  rw [hp, hp]
  have hcases : i = 0 ∨ i = 1 ∨ i = 2 ∨ i = 3 ∨ i = 4 ∨ i = 5 ∨ i = 6 ∨ i = 7 := by omega
  have b0 := hb 0
  have b1 := hb 8
  have b2 := hb 16
  have b3 := hb 24
  have b4 := hb 32
  have b5 := hb 40
  have b6 := hb 48
  have b7 := hb 56
  rcases hcases with rfl | rfl | rfl | rfl | rfl | rfl | rfl | rfl <;>
    simp only [Nat.reduceMul, Nat.reduceSub] <;>
    generalize w / 2 ^ 0 % 256 = x0 at * <;>
    generalize w / 2 ^ 8 % 256 = x1 at * <;>
    generalize w / 2 ^ 16 % 256 = x2 at * <;>
    generalize w / 2 ^ 24 % 256 = x3 at * <;>
    generalize w / 2 ^ 32 % 256 = x4 at * <;>
    generalize w / 2 ^ 40 % 256 = x5 at * <;>
    generalize w / 2 ^ 48 % 256 = x6 at * <;>
    generalize w / 2 ^ 56 % 256 = x7 at * <;>
    clear m0 m1 m2 m3 m4 m5 m6 m7 e <;> omega

example : byteswap 0x0102030405060708 = 0x0807060504030201 := by decide

end Scn
