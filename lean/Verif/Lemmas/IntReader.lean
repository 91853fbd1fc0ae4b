import Verif.Lemmas.IntScan
/-
Helper lemmas about sign and base prefix.
-/
namespace Scn
open Spec

theorem or_eq_zero_or_32 (x y : Nat) :
    (x ||| y = 0 ∨ x ||| y = 32) ↔ (x = 0 ∨ x = 32) ∧ (y = 0 ∨ y = 32) := by
  constructor
  · intro h
    have hx : x ≤ x ||| y := Nat.left_le_or
    have hy : y ≤ x ||| y := Nat.right_le_or
    have : ∀ a b : Fin 33, (a.val ||| b.val = 0 ∨ a.val ||| b.val = 32) →
      (a.val = 0 ∨ a.val = 32) ∧ (b.val = 0 ∨ b.val = 32) := by decide +kernel
    exact this ⟨x, by omega⟩ ⟨y, by omega⟩ h
  · rintro ⟨rfl | rfl, rfl | rfl⟩ <;> decide

theorem xor_eq_iff (a b c : Nat) : a ^^^ b = c ↔ a = c ^^^ b := by
  constructor
  · rintro rfl; rw [Nat.xor_assoc, Nat.xor_self, Nat.xor_zero]
  · rintro rfl; rw [Nat.xor_assoc, Nat.xor_self, Nat.xor_zero]

theorem runningDiff_iff (a b : List Nat) (hl : a.length = b.length) :
    (runningDiff a b = 0 ∨ runningDiff a b = 32) ↔
      ∀ p ∈ a.zip b, p.1 = p.2 ∨ p.1 = 32 ^^^ p.2 := by
  induction a generalizing b with
  | nil => simp [runningDiff]
  | cons x xs ih =>
    cases b with
    | nil => simp at hl
    | cons y ys =>
      have := ih ys (by simpa using hl)
      rw [runningDiff, or_eq_zero_or_32, this, List.zip_cons_cons]
      simp only [List.mem_cons, forall_eq_or_imp]
      rw [xor_eq_iff, xor_eq_iff, Nat.zero_xor]

theorem fastStreqNocase_iff (a b : List Nat) (hl : a.length = b.length) :
    fastStreqNocase a b = true ↔ ∀ p ∈ a.zip b, p.1 = p.2 ∨ p.1 = 32 ^^^ p.2 := by
  rw [← runningDiff_iff a b hl]
  simp [fastStreqNocase]

theorem asciiTolower_eq (c l : Nat) (hl : 97 ≤ l ∧ l ≤ 122) : asciiTolower c = l ↔ c = l ∨ c = l - 32 := by
  unfold asciiTolower; split <;> omega

theorem asciiTolower_eq48 (c : Nat) : asciiTolower c = 48 ↔ c = 48 := by
  unfold asciiTolower; split <;> omega

/-- The two-character prefix matcher. -/
theorem readMatch2 (k : Src) (s : List Nat) (l : Nat) (hl : l = 98 ∨ l = 120 ∨ l = 111) :
    readMatchingNocase k s [48, l] =
      match s with
      | a :: c :: t =>
        if (a = 48 ∨ (k.contiguous = true ∧ k.narrow = true ∧ a = 16)) ∧ (c = l ∨ c = l - 32)
        then some t else none
      | _ => none := by
  unfold readMatchingNocase
  match s with
  | [] => simp
  | [_] => simp
  | a :: c :: t =>
    have hx : 32 ^^^ l = l - 32 := by rcases hl with rfl | rfl | rfl <;> decide
    have ha : (asciiTolower c = l ↔ c = l ∨ c = l - 32) :=
      asciiTolower_eq c l (by rcases hl with rfl | rfl | rfl <;> decide)
    have h16 : (32 ^^^ 48 : Nat) = 16 := by decide
    rw [if_neg (by simp)]
    by_cases hk : (k.contiguous && k.narrow) = true
    · rw [if_pos hk]
      have hk' : k.contiguous = true ∧ k.narrow = true := by simpa using hk
      simp only [List.length_cons, List.length_nil, List.take, List.drop]
      have := fastStreqNocase_iff [a, c] [48, l] rfl
      simp only [List.zip_cons_cons, List.zip_nil_right, List.mem_cons, List.not_mem_nil, or_false,
        forall_eq_or_imp, forall_eq, h16, hx] at this
      by_cases hf : fastStreqNocase [a, c] [48, l] = true
      · rw [if_pos hf, if_pos]
        obtain ⟨h1, h2⟩ := this.1 hf
        exact ⟨h1.imp id (fun h => ⟨hk'.1, hk'.2, h⟩), h2⟩
      · rw [if_neg hf, if_neg]
        rintro ⟨h1, h2⟩
        exact hf (this.2 ⟨h1.imp id (fun h => h.2.2), h2⟩)
    · rw [if_neg hk]
      have hk' : ¬ (k.contiguous = true ∧ k.narrow = true) := by simpa using hk
      simp only [List.length_cons, List.length_nil, List.take, List.drop, List.map_cons,
        List.map_nil, List.cons.injEq, and_true, asciiTolower_eq48, ha]
      by_cases h : a = 48 ∧ (c = l ∨ c = l - 32)
      · rw [if_pos h, if_pos ⟨Or.inl h.1, h.2⟩]
      · rw [if_neg h, if_neg]
        rintro ⟨h1, h2⟩
        refine h ⟨?_, h2⟩
        rcases h1 with h1 | h1
        · exact h1
        · exact absurd ⟨h1.1, h1.2.1⟩ hk'

/-- The text does not trigger the byte-0x10 quirk of the contiguous narrow matcher. -/
def NoQuirk (k : Src) (t : List Nat) : Prop :=
  k.contiguous = true → k.narrow = true → t.head? ≠ some 16

/-- Match '0' and a letter of either case. -/
def match2 (l : Nat) : List Nat → Option (List Nat)
  | a :: c :: t => if a = 48 ∧ (c = l ∨ c = l - 32) then some t else none
  | _ => none

theorem match2_noquirk (k : Src) (s : List Nat) (l : Nat) (hl : l = 98 ∨ l = 120 ∨ l = 111)
    (hq : NoQuirk k s) :
    readMatchingNocase k s [48, l] = match2 l s := by
  rw [readMatch2 k s l hl]
  unfold match2
  match s with
  | [] => rfl
  | [_] => rfl
  | a :: c :: t =>
    dsimp only
    by_cases h : a = 48 ∧ (c = l ∨ c = l - 32)
    · rw [if_pos h, if_pos ⟨Or.inl h.1, h.2⟩]
    · rw [if_neg h, if_neg]
      rintro ⟨h1, h2⟩
      refine h ⟨?_, h2⟩
      rcases h1 with h1 | h1
      · exact h1
      · exact absurd (by rw [h1.2.2]; rfl) (hq h1.1 h1.2.1)

theorem scanDigitsW_none {T : IntTy} {neg : Bool} {b : Nat} {s : List Nat}
    (h : NoDigitFirst b s) : scanDigitsW T neg b s = .err .invalidScannedValue := by
  have := (digitRun_numeral b [] s (by simp) h).1
  rw [List.nil_append] at this
  unfold scanDigitsW
  rw [if_pos this]

theorem noDigitAt_iff (s : List Nat) (n : Nat) (hn : n ≤ 255) :
    noDigitAt s n = true ↔ NoDigitFirst n s := by
  cases s with
  | nil => simp [noDigitAt, NoDigitFirst]
  | cons c cs =>
    simp only [noDigitAt, NoDigitFirst, List.head?_cons, Option.some.injEq, forall_eq',
      ← charToInt_lt_iff n c hn, decide_eq_true_eq]
    omega

theorem value_zero_cons (b : Nat) (s : List Nat) : value b (48 :: s) = value b s := by
  rw [value_eq, value_eq, valueFrom_cons]
  simp [show digit? 48 = some 0 by decide]

theorem digitRun_zero_cons (b : Nat) (hb : 2 ≤ b) (s : List Nat) :
    digitRun b (48 :: s) = 48 :: digitRun b s ∧ afterRun b (48 :: s) = afterRun b s := by
  unfold digitRun afterRun
  rw [List.takeWhile_cons_of_pos (by simpa using isDigit_zero b hb),
    List.dropWhile_cons_of_pos (by simpa using isDigit_zero b hb)]
  exact ⟨rfl, rfl⟩

/-- A leading zero does not change the result when a digit follows. -/
theorem scanDigitsW_zero_cons {T : IntTy} {neg : Bool} {b : Nat} (hb : 2 ≤ b) {s : List Nat}
    (h : ¬ NoDigitFirst b s) : scanDigitsW T neg b (48 :: s) = scanDigitsW T neg b s := by
  obtain ⟨h1, h2⟩ := digitRun_zero_cons b hb s
  have hne : digitRun b s ≠ [] := by
    intro he
    apply h
    have := run_append b s
    rw [he, List.nil_append] at this
    rw [← this]; exact afterRun_noDigit b s
  unfold scanDigitsW
  rw [h1, h2, value_zero_cons, if_neg (by simp), if_neg hne]

theorem scanDigitsW_single_zero {T : IntTy} (hT : T.Std) {neg : Bool} {b : Nat} (hb : 2 ≤ b) {s : List Nat}
    (h : NoDigitFirst b s) : scanDigitsW T neg b (48 :: s) = .ok (0, s) := by
  obtain ⟨h1, h2⟩ := digitRun_zero_cons b hb s
  obtain ⟨h3, h4⟩ := digitRun_numeral b [] s (by simp) h
  rw [List.nil_append] at h3 h4
  unfold scanDigitsW
  rw [h1, h2, h3, h4, if_neg (by simp), show value b [48] = 0 by
    rw [value_zero_cons]; rfl]
  have h0 : signed neg 0 = 0 := by cases neg <;> rfl
  rw [h0, if_pos]
  unfold InRange
  obtain ⟨bits, sg⟩ := T
  dsimp only
  rcases hT with h | h | h | h <;> dsimp only at h <;> subst h <;> cases sg <;> decide

/-- `digits_begin` chosen by the code for a given effective base. -/
def backtrack (afterSign digits : List Nat) (b : Nat) : List Nat :=
  if noDigitAt digits b then afterSign else digits

theorem prefixed (k : Src) (t : List Nat) (l b : Nat) (hl : l = 98 ∨ l = 120 ∨ l = 111)
    (hq : NoQuirk k t) (hb : b ≤ 255) :
    (backtrack t ((readMatchingNocase k t [48, l]).getD t) b) =
      if HasPrefix l (l - 32) b t then t.drop 2 else t := by
  have hm := match2_noquirk k t l hl hq
  match t with
  | [] => rw [hm]; simp [HasPrefix, noDigitAt, backtrack, match2]
  | [_] =>
    rw [hm, if_neg (by simp [HasPrefix])]
    unfold backtrack match2
    dsimp only [Option.getD]
    split <;> rfl
  | [a, c] =>
    rw [hm]
    simp only [HasPrefix, match2]
    by_cases h : a = 48 ∧ (c = l ∨ c = l - 32)
    · simp [if_pos h, backtrack, noDigitAt]
    · simp [if_neg h, backtrack]
  | a :: c :: d :: t =>
    rw [hm]
    dsimp only [match2]
    by_cases h : a = 48 ∧ (c = l ∨ c = l - 32)
    · rw [if_pos h]
      simp only [Option.getD_some, List.drop]
      unfold backtrack
      by_cases hd : IsDigit b d
      · rw [if_neg, if_pos (show HasPrefix l (l - 32) b (a :: c :: d :: t) from ⟨h.1, h.2, hd⟩)]
        rw [noDigitAt_iff _ _ hb]
        intro hnd
        exact hnd d rfl hd
      · rw [if_pos, if_neg]
        · rintro ⟨_, _, h3⟩; exact hd h3
        · rw [noDigitAt_iff _ _ hb]
          intro c' hc'
          simp only [List.head?_cons, Option.some.injEq] at hc'
          subst hc'; exact hd
    · rw [if_neg h, if_neg (show ¬ HasPrefix l (l - 32) b (a :: c :: d :: t) from
        fun hp => h ⟨hp.1, hp.2.1⟩)]
      simp [backtrack]

/-- The parser run on the digits found at `rest`, as `readInt` does without separators. -/
def readDigits (k : Src) (T : IntTy) (sign : Sign) (base : Nat) (rest : List Nat) :
    Res (Int × List Nat) :=
  (digitsWithoutThsep k rest base).bind fun buf =>
    (parseIntegerValue k.narrow T sign base buf).bind fun r =>
      .ok (r.1, rest.drop (buf.length - r.2.length))

theorem takeWhile_charToInt (b : Nat) (hb : b ≤ 255) (s : List Nat) :
    s.takeWhile (fun c => decide (charToInt c < b)) = digitRun b s := by
  unfold digitRun
  congr 1
  funext c
  rw [decide_eq_decide]
  exact charToInt_lt_iff b c hb

theorem scanDigitsW_digitRun (T : IntTy) (neg : Bool) (b : Nat) (s : List Nat) :
    scanDigitsW T neg b (digitRun b s) = (scanDigitsW T neg b s).map (fun r => (r.1, [])) := by
  obtain ⟨h1, h2⟩ := digitRun_numeral b (digitRun b s) [] (fun c hc => mem_digitRun hc)
    (by intro c hc; simp at hc)
  rw [List.append_nil] at h1 h2
  unfold scanDigitsW
  rw [h1, h2]
  split
  · rfl
  · split
    · rfl
    · split <;> rfl

theorem scanDigitsW_rest {T : IntTy} {neg : Bool} {b : Nat} {s : List Nat} {r : Int × List Nat}
    (h : scanDigitsW T neg b s = .ok r) : r.2 = afterRun b s := by
  unfold scanDigitsW at h
  split at h
  · cases h
  · split at h
    · injection h with h; rw [← h]
    · split at h
      · injection h with h; rw [← h]
      · cases h

theorem drop_run (b : Nat) (s : List Nat) : s.drop (digitRun b s).length = afterRun b s := by
  conv => lhs; rw [← run_append b s]
  rw [digitRun_numeral b (digitRun b s) (afterRun b s) (fun c hc => mem_digitRun hc)
    (afterRun_noDigit b s) |>.1, List.drop_left]

theorem run_length (b : Nat) (s : List Nat) :
    (digitRun b s).length + (afterRun b s).length = s.length := by
  rw [← List.length_append, run_append]

theorem readDigits_spec (k : Src) (T : IntTy) (hT : T.Std) (sign : Sign) (b : Nat)
    (h2 : 2 ≤ b) (h36 : b ≤ 36) (hsign : T.signed = false → sign = .plus)
    (s : List Nat)
    (hbytes : k.narrow = true → ∀ c ∈ s, c < 256) :
    readDigits k T sign b s = scanDigitsW T (sign = .minus) b s := by
  unfold readDigits digitsWithoutThsep
  by_cases hc : k.contiguous = true
  · rw [if_pos hc]
    cases s with
    | nil => rw [scanDigitsW_none (by intro c hc; simp at hc)]; rfl
    | cons c cs =>
      dsimp only
      rw [Res.bind_ok, scanDigitsW_eq k.narrow T hT sign b h2 h36 hsign (c :: cs) (by simp)
        hbytes]
      cases hr : scanDigitsW T (decide (sign = .minus)) b (c :: cs) with
      | err e => rfl
      | ub => rfl
      | ok r =>
        have := scanDigitsW_rest hr
        have hl := run_length b (c :: cs)
        rw [Res.bind_ok, this, show (c :: cs).length - (afterRun b (c :: cs)).length =
          (digitRun b (c :: cs)).length by omega, drop_run, ← this]
  · rw [if_neg hc, takeWhile_charToInt b (by omega)]
    cases hd : digitRun b s with
    | nil =>
      unfold scanDigitsW
      rw [if_pos hd]; rfl
    | cons c cs =>
      dsimp only
      rw [Res.bind_ok, ← hd, scanDigitsW_eq k.narrow T hT sign b h2 h36 hsign _
        (by rw [hd]; simp), scanDigitsW_digitRun]
      · cases hr : scanDigitsW T (decide (sign = .minus)) b s with
        | err e => rfl
        | ub => rfl
        | ok r =>
          have := scanDigitsW_rest hr
          rw [Res.map_ok, Res.bind_ok]
          dsimp only
          rw [List.length_nil, Nat.sub_zero, drop_run, ← this]
      · intro hn x hx
        apply hbytes hn x
        rw [← run_append b s]
        exact List.mem_append_left _ hx

/-- What is done after the prefix. -/
def finish (k : Src) (T : IntTy) (p : PrefixResult) : Res (Int × List Nat) :=
  if p.isZero then .ok (0, p.rest.drop 1) else readDigits k T p.sign p.base p.rest

theorem readInt_eq (k : Src) (T : IntTy) (base : Nat) (uo : Bool) (s : List Nat) :
    readInt k T ⟨base, uo, none⟩ s =
      match parseIntegerPrefix k s base with
      | none => .err .endOfInput
      | some p =>
        if p.sign = .minus ∧ (T.signed = false ∨ uo = true) then .err .invalidScannedValue
        else finish k T p := by
  unfold readInt finish readDigits
  rfl

/-- `parse_integer_prefix` after the sign. -/
def afterSignPrefix (k : Src) (t : List Nat) (base : Nat) (sg : Sign) : PrefixResult :=
  let r := basePrefix k t base
  if r.2.2 then
    if noDigitAt r.1 8 then ⟨t, r.2.1, sg, true⟩ else ⟨r.1, r.2.1, sg, false⟩
  else ⟨backtrack t r.1 r.2.1, r.2.1, sg, false⟩

theorem parseIntegerPrefix_eq (k : Src) (s : List Nat) (base : Nat) :
    parseIntegerPrefix k s base =
      match s with
      | [] => none
      | c :: cs =>
        some (afterSignPrefix k (if c = 45 ∨ c = 43 then cs else c :: cs) base
          (if c = 45 then .minus else .plus)) := by
  cases s with
  | nil => rfl
  | cons c cs =>
    unfold parseIntegerPrefix parseNumericSign afterSignPrefix backtrack
    by_cases h1 : c = 45
    · simp only [h1, if_true, true_or]
      split
      · split <;> simp_all
      · split <;> simp_all
    · by_cases h2 : c = 43
      · simp only [h2, if_true, or_true]
        simp only [show ¬ (43 = 45) by decide, if_false]
        split
        · split <;> simp_all
        · split <;> simp_all
      · simp only [h1, h2, or_self, if_false]
        split
        · split <;> simp_all
        · split <;> simp_all

theorem afterSignPrefix_sign (k : Src) (t : List Nat) (base : Nat) (sg : Sign) :
    (afterSignPrefix k t base sg).sign = sg := by
  unfold afterSignPrefix
  dsimp only
  split
  · split <;> rfl
  · rfl

theorem match2_some {k : Src} {t r : List Nat} {l : Nat} (hl : l = 98 ∨ l = 120 ∨ l = 111)
    (hq : NoQuirk k t) (h : readMatchingNocase k t [48, l] = some r) :
    ∃ c, (c = l ∨ c = l - 32) ∧ t = 48 :: c :: r := by
  rw [match2_noquirk k t l hl hq] at h
  match t, h with
  | [], h => simp [match2] at h
  | [_], h => simp [match2] at h
  | a :: c :: t, h =>
    dsimp only [match2] at h
    split at h
    · rename_i hc
      injection h with h
      subst h
      exact ⟨c, hc.2, by rw [hc.1]⟩
    · cases h

theorem not_hasPrefix_of_none {k : Src} {t : List Nat} {l b : Nat}
    (hl : l = 98 ∨ l = 120 ∨ l = 111) (hq : NoQuirk k t)
    (h : readMatchingNocase k t [48, l] = none) : ¬ HasPrefix l (l - 32) b t := by
  rw [match2_noquirk k t l hl hq] at h
  match t, h with
  | [], _ => simp [HasPrefix]
  | [_], _ => simp [HasPrefix]
  | [_, _], _ => simp [HasPrefix]
  | a :: c :: d :: t, h =>
    dsimp only [match2] at h
    split at h
    · cases h
    · rename_i hc
      rintro ⟨h1, h2, _⟩
      exact hc ⟨h1, h2⟩

theorem hasPrefix_letter {l b c : Nat} {r : List Nat} {u : Nat}
    (h : HasPrefix l u b (48 :: c :: r)) : c = l ∨ c = u := by
  cases r with
  | nil => simp [HasPrefix] at h
  | cons d r => exact h.2.1

theorem noDigitFirst_letter (b c : Nat) (r : List Nat) (h : ¬ IsDigit b c) :
    NoDigitFirst b (c :: r) := by
  intro x hx
  simp only [List.head?_cons, Option.some.injEq] at hx
  subst hx; exact h

section
variable (k : Src) (T : IntTy) (hT : T.Std) (sg : Sign) (hsign : T.signed = false → sg = .plus)
  (t : List Nat) (hq : NoQuirk k t) (hbytes : k.narrow = true → ∀ c ∈ t, c < 256)
include hT hsign hq hbytes

theorem finish_oct (r : List Nat) (z : Bool)
    (h : octPrefix k t = some (r, z)) :
    finish k T (if z = true then
        if noDigitAt r 8 = true then ⟨t, 8, sg, true⟩ else ⟨r, 8, sg, false⟩
      else ⟨backtrack t r 8, 8, sg, false⟩) =
      scanDigitsW T (sg = .minus) 8 (if HasPrefix 111 79 8 t then t.drop 2 else t) ∧
    t.head? = some 48 := by
  unfold octPrefix at h
  cases hm : readMatchingNocase k t [48, 111] with
  | some r' =>
    rw [hm] at h
    simp only [Option.some.injEq, Prod.mk.injEq] at h
    obtain ⟨rfl, rfl⟩ := h
    have hp := prefixed k t 111 8 (by simp) hq (by decide)
    rw [hm] at hp
    simp only [Option.getD_some] at hp
    obtain ⟨c, _, ht⟩ := match2_some (by simp) hq hm
    refine ⟨?_, by rw [ht]; rfl⟩
    simp only [Bool.false_eq_true, if_false, finish]
    rw [hp, readDigits_spec k T hT sg 8 (by decide) (by decide) hsign]
    intro hn x hx
    split at hx
    · exact hbytes hn x (List.mem_of_mem_drop hx)
    · exact hbytes hn x hx
  | none =>
    rw [hm] at h
    have hnp : ¬ HasPrefix 111 79 8 t := not_hasPrefix_of_none (by simp) hq hm
    rw [if_neg hnp]
    cases t with
    | nil => simp at h
    | cons c cs =>
      dsimp only at h
      split at h
      · rename_i hc
        subst hc
        simp only [Option.some.injEq, Prod.mk.injEq] at h
        obtain ⟨rfl, rfl⟩ := h
        refine ⟨?_, rfl⟩
        simp only [if_true]
        by_cases hnd : noDigitAt cs 8 = true
        · rw [if_pos hnd, scanDigitsW_single_zero hT (by decide)
            ((noDigitAt_iff cs 8 (by decide)).1 hnd)]
          simp [finish]
        · rw [if_neg hnd, scanDigitsW_zero_cons (by decide)
            (fun hh => hnd ((noDigitAt_iff cs 8 (by decide)).2 hh))]
          simp only [finish, Bool.false_eq_true, if_false]
          exact readDigits_spec k T hT sg 8 (by decide) (by decide) hsign cs
            (fun hn x hx => hbytes hn x (by simp [hx]))
      · cases h

/-- The reader, from the text after the sign, does what the documentation says. -/
theorem finish_spec (base : Nat) (hbase : base = 0 ∨ (2 ≤ base ∧ base ≤ 36)) :
    finish k T (afterSignPrefix k t base sg) =
      scanDigitsW T (sg = .minus) (chooseBase base t).1 (chooseBase base t).2 := by
  have hdrop : ∀ (P : Prop) [Decidable P], k.narrow = true →
      ∀ x ∈ (if P then t.drop 2 else t), x < 256 := by
    intro P _ hn x hx
    split at hx
    · exact hbytes hn x (List.mem_of_mem_drop hx)
    · exact hbytes hn x hx
  unfold afterSignPrefix basePrefix chooseBase
  by_cases h2 : base = 2
  · subst h2
    have hp := prefixed k t 98 2 (by simp) hq (by decide)
    simp only [if_true, Bool.false_eq_true, if_false, finish, show ¬ (2 = 16) by decide, binPrefix]
    rw [hp, readDigits_spec k T hT sg 2 (by decide) (by decide) hsign _
      (fun hn => hdrop _ hn)]
  by_cases h16 : base = 16
  · subst h16
    have hp := prefixed k t 120 16 (by simp) hq (by decide)
    simp only [if_true, Bool.false_eq_true, if_false, finish, show ¬ (16 = 2) by decide,
      show ¬ (16 = 8) by decide, hexPrefix]
    rw [hp, readDigits_spec k T hT sg 16 (by decide) (by decide) hsign _
      (fun hn => hdrop _ hn)]
  by_cases h8 : base = 8
  · subst h8
    simp only [if_true, show ¬ (8 = 2) by decide, show ¬ (8 = 16) by decide, if_false]
    cases ho : octPrefix k t with
    | some rz =>
      obtain ⟨r, z⟩ := rz
      exact (finish_oct k T hT sg hsign t hq hbytes r z ho).1
    | none =>
      have hnp : ¬ HasPrefix 111 79 8 t := by
        unfold octPrefix at ho
        cases hm : readMatchingNocase k t [48, 111] with
        | some r' => rw [hm] at ho; simp at ho
        | none => exact not_hasPrefix_of_none (by simp) hq hm
      rw [if_neg hnp]
      simp only [Bool.false_eq_true, if_false, finish, backtrack, ite_self]
      exact readDigits_spec k T hT sg 8 (by decide) (by decide) hsign _ hbytes
  by_cases h0 : base = 0
  · subst h0
    simp only [h2, h8, h16, if_false, if_true, basePrefixDetect]
    cases hx : hexPrefix k t with
    | some r =>
      simp only [Bool.false_eq_true, if_false, finish]
      obtain ⟨c, hc, ht⟩ := match2_some (by simp) hq hx
      have hp := prefixed k t 120 16 (by simp) hq (by decide)
      rw [show readMatchingNocase k t [48, 120] = some r from hx] at hp
      simp only [Option.getD_some] at hp
      rw [hp, readDigits_spec k T hT sg 16 (by decide) (by decide) hsign _
        (fun hn => hdrop _ hn)]
      by_cases hpx : HasPrefix 120 88 16 t
      · simp only [if_pos hpx]
      · have hb : ¬ HasPrefix 98 66 2 t := by
          rw [ht]; intro h; have := hasPrefix_letter h; omega
        have ho : ¬ HasPrefix 111 79 8 t := by
          rw [ht]; intro h; have := hasPrefix_letter h; omega
        simp only [if_neg hpx, if_neg hb, if_neg ho]
        rw [ht]
        simp only [List.head?_cons, if_true]
        have nd : ∀ b, b ≤ 16 → NoDigitFirst b (c :: r) := fun b hb' => by
          apply noDigitFirst_letter
          rw [← charToInt_lt_iff b c (by omega)]
          rcases hc with rfl | rfl
          · have : charToInt 120 = 33 := by decide +kernel
            omega
          · have : charToInt (120 - 32) = 33 := by decide +kernel
            omega
        rw [scanDigitsW_single_zero hT (by decide) (nd 16 (by decide)),
          scanDigitsW_single_zero hT (by decide) (nd 8 (by decide))]
    | none =>
      have hpx : ¬ HasPrefix 120 88 16 t := not_hasPrefix_of_none (by simp) hq hx
      simp only [if_neg hpx]
      cases hbn : binPrefix k t with
      | some r =>
        simp only [Bool.false_eq_true, if_false, finish]
        obtain ⟨c, hc, ht⟩ := match2_some (by simp) hq hbn
        have hp := prefixed k t 98 2 (by simp) hq (by decide)
        rw [show readMatchingNocase k t [48, 98] = some r from hbn] at hp
        simp only [Option.getD_some] at hp
        rw [hp, readDigits_spec k T hT sg 2 (by decide) (by decide) hsign _
          (fun hn => hdrop _ hn)]
        by_cases hpb : HasPrefix 98 66 2 t
        · simp only [if_pos hpb]
        · have ho : ¬ HasPrefix 111 79 8 t := by
            rw [ht]; intro h; have := hasPrefix_letter h; omega
          simp only [if_neg hpb, if_neg ho]
          rw [ht]
          simp only [List.head?_cons, if_true]
          have nd : ∀ b, b ≤ 8 → NoDigitFirst b (c :: r) := fun b hb' => by
            apply noDigitFirst_letter
            rw [← charToInt_lt_iff b c (by omega)]
            rcases hc with rfl | rfl
            · have : charToInt 98 = 11 := by decide +kernel
              omega
            · have : charToInt (98 - 32) = 11 := by decide +kernel
              omega
          rw [scanDigitsW_single_zero hT (by decide) (nd 2 (by decide)),
            scanDigitsW_single_zero hT (by decide) (nd 8 (by decide))]
      | none =>
        have hpb : ¬ HasPrefix 98 66 2 t := not_hasPrefix_of_none (by simp) hq hbn
        simp only [if_neg hpb]
        cases ho : octPrefix k t with
        | some rz =>
          obtain ⟨r, z⟩ := rz
          obtain ⟨hf, hh⟩ := finish_oct k T hT sg hsign t hq hbytes r z ho
          dsimp only
          rw [hf]
          by_cases hpo : HasPrefix 111 79 8 t
          · simp only [if_pos hpo]
          · simp only [if_neg hpo, hh, if_true]
        | none =>
          have hnone : readMatchingNocase k t [48, 111] = none ∧ t.head? ≠ some 48 := by
            unfold octPrefix at ho
            cases hm : readMatchingNocase k t [48, 111] with
            | some r' => rw [hm] at ho; simp at ho
            | none =>
              refine ⟨rfl, ?_⟩
              rw [hm] at ho
              cases t with
              | nil => simp
              | cons c cs =>
                dsimp only at ho
                split at ho
                · cases ho
                · simpa using by assumption
          have hpo : ¬ HasPrefix 111 79 8 t := not_hasPrefix_of_none (by simp) hq hnone.1
          simp only [if_neg hpo, if_neg hnone.2, Bool.false_eq_true, if_false, finish, backtrack,
            ite_self]
          exact readDigits_spec k T hT sg 10 (by decide) (by decide) hsign _
            hbytes
  · simp only [h2, h8, h16, h0, if_false, Bool.false_eq_true, finish, backtrack, ite_self]
    exact readDigits_spec k T hT sg base (by omega) (by omega) hsign _
      hbytes

end

theorem readInt_W (k : Src) (T : IntTy) (hT : T.Std) (base : Nat) (uo : Bool) (s : List Nat)
    (hbase : base = 0 ∨ (2 ≤ base ∧ base ≤ 36))
    (hq : k.contiguous = true → k.narrow = true → (afterSign s).head? ≠ some 16)
    (hbytes : k.narrow = true → ∀ c ∈ s, c < 256) :
    readInt k T ⟨base, uo, none⟩ s = scanIntW T base uo s := by
  rw [readInt_eq, parseIntegerPrefix_eq]
  cases s with
  | nil => rfl
  | cons c cs =>
    dsimp only [scanIntW]
    rw [afterSignPrefix_sign]
    have hneg : (decide ((if c = 45 then Sign.minus else Sign.plus) = Sign.minus)) = (c == 45) := by
      by_cases h : c = 45 <;> simp [h]
    by_cases hbad : (if c = 45 then Sign.minus else Sign.plus) = Sign.minus ∧
        (T.signed = false ∨ uo = true)
    · rw [if_pos hbad, if_pos]
      refine ⟨?_, hbad.2⟩
      rw [← hneg]; simpa using hbad.1
    · have hbad' : ¬ ((c == 45) = true ∧ (T.signed = false ∨ uo = true)) := by
        rintro ⟨h1, h2⟩
        apply hbad
        rw [← hneg] at h1
        exact ⟨by simpa using h1, h2⟩
      rw [if_neg hbad, if_neg hbad', ← hneg]
      apply finish_spec k T hT _ _ _ _ _ base hbase
      · intro hs
        by_cases h : c = 45
        · exact absurd ⟨by simp [h], Or.inl hs⟩ hbad
        · simp [h]
      · exact hq
      · intro hn x hx
        apply hbytes hn
        by_cases h : c = 45 ∨ c = 43
        · rw [if_pos h] at hx; simp [hx]
        · rw [if_neg h] at hx; exact hx

end Scn
