import Verif.Model.Unicode
import Verif.Spec.Unicode
/-
Helper lemmas about the Unicode model.
-/
namespace Scn
open Spec

theorem cpLength8_eq (c : Nat) (h : c < 256) :
    cpLength8 c = if c < 128 then 1 else if c < 192 then 0 else if c < 224 then 2
      else if c < 240 then 3 else if c < 248 then 4 else 0 := by
  have : ∀ k : Fin 256, cpLength8 k.val = if k.val < 128 then 1 else if k.val < 192 then 0
      else if k.val < 224 then 2 else if k.val < 240 then 3 else if k.val < 248 then 4 else 0 := by
    decide +kernel
  exact this ⟨c, h⟩

theorem cpLength8_le (c : Nat) : cpLength8 c ≤ 4 := by
  unfold cpLength8
  by_cases h : c >>> 3 < 32
  · have : ∀ k : Fin 32, lengthsTable.getD k.val 0 ≤ 4 := by decide
    exact this ⟨_, h⟩
  · rw [List.getD_eq_getElem?_getD, List.getElem?_eq_none (by simp [lengthsTable]; omega)]
    decide

theorem isTrailing_iff (c : Nat) : isTrailing c = true ↔ 128 ≤ c ∧ c < 192 := by
  unfold isTrailing
  rw [Nat.shiftRight_eq_div_pow]
  simp only [beq_iff_eq]
  omega

theorem and_mod (c n : Nat) : c &&& (2 ^ n - 1) = c % 2 ^ n := Nat.and_two_pow_sub_one_eq_mod c n

theorem lead2 (a : Nat) (h : a < 256) : a &&& 0xe0 = 0xc0 ↔ 192 ≤ a ∧ a < 224 := by
  have : ∀ k : Fin 256, k.val &&& 0xe0 = 0xc0 ↔ 192 ≤ k.val ∧ k.val < 224 := by decide +kernel
  exact this ⟨a, h⟩

theorem lead3 (a : Nat) (h : a < 256) : a &&& 0xf0 = 0xe0 ↔ 224 ≤ a ∧ a < 240 := by
  have : ∀ k : Fin 256, k.val &&& 0xf0 = 0xe0 ↔ 224 ≤ k.val ∧ k.val < 240 := by decide +kernel
  exact this ⟨a, h⟩

theorem lead4 (a : Nat) (h : a < 256) : a &&& 0xf8 = 0xf0 ↔ 240 ≤ a ∧ a < 248 := by
  have : ∀ k : Fin 256, k.val &&& 0xf8 = 0xf0 ↔ 240 ≤ k.val ∧ k.val < 248 := by decide +kernel
  exact this ⟨a, h⟩

theorem or_shift (x y n : Nat) (h : y < 2 ^ n) : (x <<< n) ||| y = x * 2 ^ n + y := by
  rw [← Nat.shiftLeft_add_eq_or_of_lt h, Nat.shiftLeft_eq]

theorem bits2 (a b : Nat) : ((a &&& 0x1f) <<< 6) ||| (b &&& 0x3f) = a % 32 * 64 + b % 64 := by
  rw [show (0x1f : Nat) = 2 ^ 5 - 1 from rfl, show (0x3f : Nat) = 2 ^ 6 - 1 from rfl, and_mod, and_mod,
    or_shift _ _ 6 (Nat.mod_lt _ (by decide))]

theorem bits3 (a b c : Nat) :
    (((a &&& 0x0f) <<< 12) ||| ((b &&& 0x3f) <<< 6)) ||| (c &&& 0x3f) =
      a % 16 * 4096 + b % 64 * 64 + c % 64 := by
  rw [show (0x0f : Nat) = 2 ^ 4 - 1 from rfl, show (0x3f : Nat) = 2 ^ 6 - 1 from rfl, and_mod, and_mod,
    and_mod]
  have hb : (b % 2 ^ 6) <<< 6 < 2 ^ 12 := by
    rw [Nat.shiftLeft_eq]; have := Nat.mod_lt b (show 0 < 2 ^ 6 by decide); omega
  rw [or_shift _ _ 12 hb, Nat.shiftLeft_eq,
    show a % 2 ^ 4 * 2 ^ 12 + b % 2 ^ 6 * 2 ^ 6 = (a % 16 * 64 + b % 64) <<< 6 by
      rw [Nat.shiftLeft_eq]; omega,
    or_shift _ _ 6 (Nat.mod_lt _ (by decide))]
  omega

theorem bits4 (a b c d : Nat) :
    ((((a &&& 0x07) <<< 18) ||| ((b &&& 0x3f) <<< 12)) ||| ((c &&& 0x3f) <<< 6)) ||| (d &&& 0x3f) =
      a % 8 * 262144 + b % 64 * 4096 + c % 64 * 64 + d % 64 := by
  rw [show (0x07 : Nat) = 2 ^ 3 - 1 from rfl, show (0x3f : Nat) = 2 ^ 6 - 1 from rfl, and_mod, and_mod,
    and_mod, and_mod]
  have hb : (b % 2 ^ 6) <<< 12 < 2 ^ 18 := by
    rw [Nat.shiftLeft_eq]; have := Nat.mod_lt b (show 0 < 2 ^ 6 by decide); omega
  have hc : (c % 2 ^ 6) <<< 6 < 2 ^ 12 := by
    rw [Nat.shiftLeft_eq]; have := Nat.mod_lt c (show 0 < 2 ^ 6 by decide); omega
  rw [or_shift _ _ 18 hb, Nat.shiftLeft_eq,
    show a % 2 ^ 3 * 2 ^ 18 + b % 2 ^ 6 * 2 ^ 12 = (a % 8 * 64 + b % 64) <<< 12 by
      rw [Nat.shiftLeft_eq]; omega,
    or_shift _ _ 12 hc, Nat.shiftLeft_eq,
    show (a % 8 * 64 + b % 64) * 2 ^ 12 + c % 2 ^ 6 * 2 ^ 6 =
      (a % 8 * 4096 + b % 64 * 64 + c % 64) <<< 6 by rw [Nat.shiftLeft_eq]; omega,
    or_shift _ _ 6 (Nat.mod_lt _ (by decide))]
  omega

theorem dec1 (a : Nat) : decodeUtf8 [a] = some (if a < 128 then a else invalidCp) := by
  show some _ = some _
  congr 1
  by_cases h : a < 128
  · rw [if_neg (by omega), if_pos h]
  · rw [if_pos (by omega), if_neg h]

theorem dec2 (a b : Nat) (ha : a < 256) : decodeUtf8 [a, b] = some (
    if 192 ≤ a ∧ a < 224 ∧ 128 ≤ b ∧ b < 192 then (a - 192) * 64 + (b - 128) else invalidCp) := by
  unfold decodeUtf8
  dsimp only
  simp only [bits2, ne_eq, lead2 a ha, isTrailing_iff]
  congr 1
  by_cases h1 : 192 ≤ a ∧ a < 224
  · by_cases h2 : 128 ≤ b ∧ b < 192
    · rw [if_neg (by simpa using h1), if_neg (by simpa using h2), if_pos (by omega)]
      omega
    · rw [if_neg (by simpa using h1), if_pos h2, if_neg (by omega)]
  · rw [if_pos h1, if_neg (by omega)]

theorem dec3 (a b c : Nat) (ha : a < 256) : decodeUtf8 [a, b, c] = some (
    if 224 ≤ a ∧ a < 240 ∧ 128 ≤ b ∧ b < 192 ∧ 128 ≤ c ∧ c < 192 then
      (a - 224) * 4096 + (b - 128) * 64 + (c - 128) else invalidCp) := by
  unfold decodeUtf8
  dsimp only
  simp only [bits3, ne_eq, lead3 a ha, isTrailing_iff]
  congr 1
  by_cases h1 : 224 ≤ a ∧ a < 240
  · by_cases h2 : (128 ≤ b ∧ b < 192) ∧ 128 ≤ c ∧ c < 192
    · rw [if_neg (by simpa using h1), if_neg (by omega), if_pos (by omega)]
      omega
    · rw [if_neg (by simpa using h1), if_pos (by omega), if_neg (by omega)]
  · rw [if_pos h1, if_neg (by omega)]

theorem dec4 (a b c d : Nat) (ha : a < 256) : decodeUtf8 [a, b, c, d] = some (
    if 240 ≤ a ∧ a < 245 ∧ 128 ≤ b ∧ b < 192 ∧ 128 ≤ c ∧ c < 192 ∧ 128 ≤ d ∧ d < 192 then
      (a - 240) * 262144 + (b - 128) * 4096 + (c - 128) * 64 + (d - 128) else invalidCp) := by
  unfold decodeUtf8
  dsimp only
  simp only [bits4, ne_eq, lead4 a ha, isTrailing_iff]
  congr 1
  by_cases h1 : 240 ≤ a ∧ a < 248
  · by_cases h3 : a > 0xf4
    · rw [if_neg (by simpa using h1), if_pos h3, if_neg (by omega)]
    · by_cases h2 : (128 ≤ b ∧ b < 192) ∧ (128 ≤ c ∧ c < 192) ∧ 128 ≤ d ∧ d < 192
      · rw [if_neg (by simpa using h1), if_neg h3, if_neg (by omega), if_pos (by omega)]
        omega
      · rw [if_neg (by simpa using h1), if_neg h3, if_pos (by omega), if_neg (by omega)]
  · rw [if_pos h1, if_neg (by omega)]

theorem utf8_bytes (cp : Nat) (h : cp < 0x110000) : ∀ c ∈ utf8 cp, c < 256 := by
  intro c hc
  unfold utf8 at hc
  split at hc
  · simp at hc; omega
  · split at hc
    · simp at hc; omega
    · split at hc <;> simp at hc <;> omega

theorem getNext_of {e : Enc} {c : Nat} {cs : List Nat} {L cp : Nat} (hL : cpLength e c = L) (h0 : L ≠ 0)
    (hl : L ≤ (c :: cs).length) (hd : decodeCp e ((c :: cs).take L) = some cp) :
    getNext e (c :: cs) = some ((c :: cs).drop L, cp) := by
  subst hL
  simp only [getNext, if_neg h0, if_neg (Nat.not_lt.2 hl), hd, Option.map_some]

/-- Decoding one encoded scalar value (surrogates too, which the decoder does not reject). -/
theorem getNext_utf8 (cp : Nat) (h : cp < 0x110000) (rest : List Nat) :
    getNext .utf8 (utf8 cp ++ rest) = some (rest, cp) := by
  unfold utf8
  split
  · rename_i h1
    rw [List.cons_append, List.nil_append, getNext_of (L := 1) (cp := cp) _ (by decide) (by simp) _]
    · rfl
    · rw [cpLength, cpLength8_eq cp (by omega), if_pos (by omega)]
    · show decodeUtf8 [cp] = _
      rw [dec1, if_pos h1]
  · split
    · simp only [List.cons_append, List.nil_append]
      rw [getNext_of (L := 2) (cp := cp) _ (by decide) (by simp) _]
      · rfl
      · rw [cpLength, cpLength8_eq _ (by omega), if_neg (by omega), if_neg (by omega), if_pos (by omega)]
      · simp only [List.take_succ_cons, List.take_zero, decodeCp]
        rw [dec2 _ _ (by omega), if_pos (by omega)]
        rw [Option.some.injEq]; omega
    · split
      · simp only [List.cons_append, List.nil_append]
        rw [getNext_of (L := 3) (cp := cp) _ (by decide) (by simp) _]
        · rfl
        · rw [cpLength, cpLength8_eq _ (by omega), if_neg (by omega), if_neg (by omega),
            if_neg (by omega), if_pos (by omega)]
        · simp only [List.take_succ_cons, List.take_zero, decodeCp]
          rw [dec3 _ _ _ (by omega), if_pos (by omega)]
          rw [Option.some.injEq]; omega
      · simp only [List.cons_append, List.nil_append]
        rw [getNext_of (L := 4) (cp := cp) _ (by decide) (by simp) _]
        · rfl
        · rw [cpLength, cpLength8_eq _ (by omega), if_neg (by omega), if_neg (by omega),
            if_neg (by omega), if_neg (by omega), if_pos (by omega)]
        · simp only [List.take_succ_cons, List.take_zero, decodeCp]
          rw [dec4 _ _ _ _ (by omega), if_pos (by omega)]
          rw [Option.some.injEq]; omega

theorem cpLength16_eq (c : Nat) (h : c < 65536) :
    cpLength16 c = if 0xd800 ≤ c ∧ c ≤ 0xdbff then 2 else if 0xdc00 ≤ c ∧ c ≤ 0xdfff then 0 else 1 := by
  unfold cpLength16
  rw [Nat.and_comm, show (0xffff : Nat) = 2 ^ 16 - 1 from rfl, and_mod, Nat.mod_eq_of_lt h]

theorem getNext_utf16 (cp : Nat) (h : IsScalar cp) (rest : List Nat) :
    getNext .utf16 (utf16 cp ++ rest) = some (rest, cp) := by
  obtain ⟨h1, h2⟩ := h
  unfold utf16
  split
  · rw [List.cons_append, List.nil_append, getNext_of (L := 1) (cp := cp) _ (by decide) (by simp) _]
    · rfl
    · rw [cpLength, cpLength16_eq cp (by omega), if_neg (by omega), if_neg (by omega)]
    · rfl
  · simp only [List.cons_append, List.nil_append]
    rw [getNext_of (L := 2) (cp := cp) _ (by decide) (by simp) _]
    · rfl
    · rw [cpLength, cpLength16_eq _ (by omega), if_pos (by omega)]
    · show decodeUtf16 [_, _] = _
      rw [decodeUtf16, if_neg (by omega), or_shift _ _ 10 (by omega)]
      rw [Option.some.injEq]; omega

theorem cpLength_le (e : Enc) (c : Nat) : cpLength e c ≤ 4 := by
  cases e with
  | utf8 => exact cpLength8_le c
  | utf16 => simp only [cpLength, cpLength16]; repeat' split
             all_goals omega
  | utf32 => simp [cpLength]

/-- The decoder's size precondition holds at every call site. -/
theorem decodeCp_total (e : Enc) (c : Nat) (s : List Nat) (h : cpLength e c ≠ 0)
    (hl : s.length = cpLength e c) : ∃ cp, decodeCp e s = some cp := by
  have h4 := cpLength_le e c
  cases e with
  | utf8 =>
    match s with
    | [] => simp at hl; omega
    | [a] => exact ⟨_, rfl⟩
    | [a, b] => exact ⟨_, rfl⟩
    | [a, b, c] => exact ⟨_, rfl⟩
    | [a, b, c, d] => exact ⟨_, rfl⟩
    | _ :: _ :: _ :: _ :: _ :: _ => simp at hl; omega
  | utf16 =>
    have h2 : cpLength .utf16 c ≤ 2 := by
      simp only [cpLength, cpLength16]; repeat' split
      all_goals omega
    match s with
    | [] => simp at hl; omega
    | [a] => exact ⟨_, rfl⟩
    | [a, b] => exact ⟨_, rfl⟩
    | _ :: _ :: _ :: _ => simp at hl; omega
  | utf32 =>
    match s with
    | [a] => exact ⟨_, rfl⟩
    | [] => simp [cpLength] at hl
    | _ :: _ :: _ => simp [cpLength] at hl

/-- Fetching a code point from non-empty input never hits undefined behaviour, consumes at
    least one unit and returns a suffix. -/
theorem getNext_progress (e : Enc) (s : List Nat) (hs : s ≠ []) :
    ∃ used rest cp, getNext e s = some (rest, cp) ∧ used ≠ [] ∧ s = used ++ rest := by
  cases s with
  | nil => exact absurd rfl hs
  | cons c cs =>
    by_cases h0 : cpLength e c = 0
    · refine ⟨(c :: cs).takeWhile (fun c => cpLength e c = 0), startNext e (c :: cs), invalidCp, ?_,
        ?_, List.takeWhile_append_dropWhile.symm⟩
      · simp only [getNext, h0, if_true]
      · rw [List.takeWhile_cons_of_pos (by simpa using h0)]; simp
    · by_cases h1 : cpLength e c > (c :: cs).length
      · refine ⟨c :: cs, [], invalidCp, ?_, by simp, by simp⟩
        simp only [getNext, h0, if_false, h1, if_true]
      · obtain ⟨cp, hcp⟩ := decodeCp_total e c ((c :: cs).take (cpLength e c)) h0
          (by rw [List.length_take]; omega)
        refine ⟨(c :: cs).take (cpLength e c), (c :: cs).drop (cpLength e c), cp, ?_, ?_,
          (List.take_append_drop _ _).symm⟩
        · simp only [getNext, h0, if_false, h1, hcp, Option.map_some]
        · intro h
          have := congrArg List.length h
          rw [List.length_take] at this
          simp at this
          omega

theorem getNext_length {e : Enc} {s rest : List Nat} {cp : Nat} (h : getNext e s = some (rest, cp)) :
    rest.length < s.length := by
  have hs : s ≠ [] := by rintro rfl; simp [getNext] at h
  obtain ⟨used, rest', cp', h1, h2, h3⟩ := getNext_progress e s hs
  rw [h] at h1
  simp only [Option.some.injEq, Prod.mk.injEq] at h1
  rw [h3, h1.1, List.length_append]
  have : 0 < used.length := List.length_pos_iff.2 h2
  omega

theorem forEachCpAux_fuel (e : Enc) (n : Nat) (s : List Nat) (h : s.length ≤ n) :
    ∃ cps, forEachCpAux e n s = some cps := by
  induction n generalizing s with
  | zero =>
    cases s with
    | nil => exact ⟨[], by simp [forEachCpAux]⟩
    | cons c cs => simp at h
  | succ n ih =>
    cases s with
    | nil => exact ⟨[], by simp [forEachCpAux]⟩
    | cons c cs =>
      obtain ⟨used, rest, cp, h1, h2, h3⟩ := getNext_progress e (c :: cs) (by simp)
      have := getNext_length h1
      obtain ⟨cps, hc⟩ := ih rest (by simp at this h; omega)
      exact ⟨cp :: cps, by rw [forEachCpAux, h1]; simp [hc]⟩

theorem forEachCpAux_mono (e : Enc) (n m : Nat) (s : List Nat) (h : s.length ≤ n) (h' : s.length ≤ m) :
    forEachCpAux e n s = forEachCpAux e m s := by
  induction n generalizing s m with
  | zero =>
    cases s with
    | nil => simp [forEachCpAux]
    | cons c cs => simp at h
  | succ n ih =>
    cases s with
    | nil => simp [forEachCpAux]
    | cons c cs =>
      cases m with
      | zero => simp at h'
      | succ m =>
        rw [forEachCpAux, forEachCpAux]
        cases hg : getNext e (c :: cs) with
        | none => rfl
        | some r =>
          obtain ⟨rest, cp⟩ := r
          have := getNext_length hg
          dsimp only
          rw [ih m rest (by simp at this h; omega) (by simp at this h'; omega)]

theorem forEachCp_step (e : Enc) (s rest : List Nat) (cp : Nat) (h : getNext e s = some (rest, cp)) :
    forEachCp e s = (forEachCp e rest).map (cp :: ·) := by
  have hl := getNext_length h
  unfold forEachCp
  cases s with
  | nil => simp [getNext] at h
  | cons c cs =>
    rw [List.length_cons, forEachCpAux, h]
    dsimp only
    rw [forEachCpAux_mono e cs.length rest.length rest (by simp at hl; omega) (Nat.le_refl _)]

theorem forEachCp_nil (e : Enc) : forEachCp e [] = some [] := by simp [forEachCp, forEachCpAux]

theorem forEachCp_utf8s (cps : List Nat) (h : ∀ cp ∈ cps, cp < 0x110000) :
    forEachCp .utf8 (utf8s cps) = some cps := by
  induction cps with
  | nil => exact forEachCp_nil _
  | cons cp cps ih =>
    rw [utf8s, List.flatMap_cons,
      forEachCp_step .utf8 _ _ cp (getNext_utf8 cp (h cp (by simp)) (cps.flatMap utf8)),
      show cps.flatMap utf8 = utf8s cps from rfl, ih (fun x hx => h x (by simp [hx]))]
    rfl

theorem forEachCp_utf16s (cps : List Nat) (h : ∀ cp ∈ cps, IsScalar cp) :
    forEachCp .utf16 (utf16s cps) = some cps := by
  induction cps with
  | nil => exact forEachCp_nil _
  | cons cp cps ih =>
    rw [utf16s, List.flatMap_cons,
      forEachCp_step .utf16 _ _ cp (getNext_utf16 cp (h cp (by simp)) (cps.flatMap utf16)),
      show cps.flatMap utf16 = utf16s cps from rfl, ih (fun x hx => h x (by simp [hx]))]
    rfl

end Scn
