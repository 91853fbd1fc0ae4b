import Verif.Lemmas.Swar
import Verif.Spec.Numeral
/-
Helper lemmas about the integer value parser.
-/
namespace Scn
open Spec

theorem charToInt_eq (c : Nat) : charToInt c = (digit? c).getD 255 := by
  by_cases h : c < 256
  · have : ∀ k : Fin 256, charToInt k.val = (digit? k.val).getD 255 := by decide +kernel
    exact this ⟨c, h⟩
  · have h1 : charToInt c = 255 := by
      unfold charToInt
      rw [List.getD_eq_getElem?_getD, List.getElem?_eq_none]
      · rfl
      · exact Nat.le_trans (by decide +kernel : charToIntTable.length ≤ 256) (by omega)
    have h2 : digit? c = none := by
      unfold digit?
      rw [if_neg (by omega), if_neg (by omega), if_neg (by omega)]
    rw [h1, h2]; rfl

theorem charToInt_lt_iff (b c : Nat) (hb : b ≤ 255) : charToInt c < b ↔ IsDigit b c := by
  rw [charToInt_eq]
  unfold IsDigit
  cases h : digit? c with
  | none => simp; omega
  | some d => simp

theorem charToInt_of_digit {b c : Nat} (h : IsDigit b c) : charToInt c = (digit? c).getD 0 := by
  obtain ⟨d, hd, _⟩ := h
  rw [charToInt_eq, hd]; rfl

theorem isDigit10_iff (c : Nat) : IsDigit 10 c ↔ 48 ≤ c ∧ c ≤ 57 := by
  unfold IsDigit digit?
  constructor
  · rintro ⟨d, hd, hlt⟩
    split at hd
    · assumption
    · split at hd
      · simp at hd; omega
      · split at hd
        · simp at hd; omega
        · simp at hd
  · intro h
    exact ⟨c - 48, by rw [if_pos h], by omega⟩

theorem isDigit_zero (b : Nat) (hb : 2 ≤ b) : IsDigit b 48 := ⟨0, by decide, by omega⟩

/-- Accumulated value of a digit string starting from `a`. -/
def valueFrom (b a : Nat) (s : List Nat) : Nat :=
  s.foldl (fun a c => a * b + (digit? c).getD 0) a

theorem value_eq (b : Nat) (s : List Nat) : value b s = valueFrom b 0 s := rfl

@[simp] theorem valueFrom_nil (b a : Nat) : valueFrom b a [] = a := rfl
@[simp] theorem valueFrom_cons (b a c : Nat) (s : List Nat) :
    valueFrom b a (c :: s) = valueFrom b (a * b + (digit? c).getD 0) s := rfl

theorem valueFrom_append (b a : Nat) (s t : List Nat) :
    valueFrom b a (s ++ t) = valueFrom b (valueFrom b a s) t := by
  simp [valueFrom, List.foldl_append]

theorem valueFrom_eq (b a : Nat) (s : List Nat) :
    valueFrom b a s = a * b ^ s.length + valueFrom b 0 s := by
  induction s generalizing a with
  | nil => simp
  | cons c s ih =>
    rw [valueFrom_cons, ih, valueFrom_cons, ih (0 * b + _)]
    simp only [List.length_cons, Nat.pow_succ, Nat.zero_mul, Nat.zero_add]
    rw [Nat.add_mul, Nat.mul_assoc, Nat.mul_comm b (b ^ s.length)]
    omega

theorem digit_lt {b c : Nat} (h : IsDigit b c) : (digit? c).getD 0 < b := by
  obtain ⟨d, hd, hlt⟩ := h
  rw [hd]; exact hlt

theorem value_lt (b : Nat) (s : List Nat) (h : ∀ c ∈ s, IsDigit b c) :
    valueFrom b 0 s < b ^ s.length := by
  induction s with
  | nil => simp
  | cons c s ih =>
    have h1 := ih (fun x hx => h x (by simp [hx]))
    have h2 := digit_lt (h c (by simp))
    rw [valueFrom_cons, valueFrom_eq]
    simp only [List.length_cons, Nat.pow_succ, Nat.zero_mul, Nat.zero_add]
    generalize (digit? c).getD 0 = d at *
    have : (d + 1) * b ^ s.length ≤ b * b ^ s.length := Nat.mul_le_mul_right _ h2
    rw [Nat.add_mul, Nat.mul_comm b] at this
    omega

theorem valueFrom_mod (b a : Nat) (s : List Nat) (m : Nat) :
    valueFrom b (a % m) s % m = valueFrom b a s % m := by
  rw [valueFrom_eq b (a % m), valueFrom_eq b a, Nat.add_mod, Nat.mod_mul_mod, ← Nat.add_mod]

theorem digitLoop_spec (b : Nat) (hb : b ≤ 255) (ds rest : List Nat) (acc : Nat)
    (hacc : acc < 2 ^ 64) (hd : ∀ c ∈ ds, IsDigit b c) (hr : NoDigitFirst b rest) :
    digitLoop b (ds ++ rest) acc = (valueFrom b acc ds % 2 ^ 64, rest) := by
  induction ds generalizing acc with
  | nil =>
    cases rest with
    | nil => simp [digitLoop, Nat.mod_eq_of_lt hacc]
    | cons c cs =>
      have := hr c rfl
      rw [← charToInt_lt_iff b c hb] at this
      simp [digitLoop, Nat.mod_eq_of_lt hacc, Nat.not_lt.1 this]
  | cons c cs ih =>
    have h1 := hd c (by simp)
    have h2 := (charToInt_lt_iff b c hb).2 h1
    rw [List.cons_append, digitLoop, if_neg (by omega),
      ih _ (Nat.mod_lt _ (by decide)) (fun x hx => hd x (by simp [hx])), valueFrom_mod,
      charToInt_of_digit h1, valueFrom_cons, Nat.mul_comm b acc]

theorem digitLoop_append_digits (b : Nat) (hb : b ≤ 255) (ds rest : List Nat) (acc : Nat)
    (hacc : acc < 2 ^ 64) (hd : ∀ c ∈ ds, IsDigit b c) :
    digitLoop b (ds ++ rest) acc = digitLoop b rest (valueFrom b acc ds % 2 ^ 64) := by
  induction ds generalizing acc with
  | nil => simp [Nat.mod_eq_of_lt hacc]
  | cons c cs ih =>
    have h1 := hd c (by simp)
    have h2 := (charToInt_lt_iff b c hb).2 h1
    rw [List.cons_append, digitLoop, if_neg (by omega),
      ih _ (Nat.mod_lt _ (by decide)) (fun x hx => hd x (by simp [hx])), valueFrom_mod,
      charToInt_of_digit h1, valueFrom_cons, Nat.mul_comm b acc]

theorem list_eight (s : List Nat) (h : s.length = 8) :
    ∃ a b c d e f g i, s = [a, b, c, d, e, f, g, i] := by
  match s, h with
  | [a, b, c, d, e, f, g, i], _ => exact ⟨a, b, c, d, e, f, g, i, rfl⟩

theorem digit?_dec (d : Nat) (h : d ≤ 9) : digit? (48 + d) = some d := by
  unfold digit?
  rw [if_pos (by omega)]
  congr 1; omega

theorem parseEight_value (s : List Nat) (hl : s.length = 8)
    (hd : ∀ c ∈ s, 48 ≤ c ∧ c ≤ 57) : parseEight (word8 s) = value 10 s := by
  obtain ⟨a, b, c, d, e, f, g, i, rfl⟩ := list_eight s hl
  have key : ∀ x, 48 ≤ x ∧ x ≤ 57 → ∃ y ≤ 9, x = 48 + y := fun x hx => ⟨x - 48, by omega, by omega⟩
  obtain ⟨a', ha, rfl⟩ := key a (hd _ (by simp))
  obtain ⟨b', hb, rfl⟩ := key b (hd _ (by simp))
  obtain ⟨c', hc, rfl⟩ := key c (hd _ (by simp))
  obtain ⟨d', hd', rfl⟩ := key d (hd _ (by simp))
  obtain ⟨e', he, rfl⟩ := key e (hd _ (by simp))
  obtain ⟨f', hf, rfl⟩ := key f (hd _ (by simp))
  obtain ⟨g', hg, rfl⟩ := key g (hd _ (by simp))
  obtain ⟨i', hi, rfl⟩ := key i (hd _ (by simp))
  rw [parseEight_digits _ _ _ _ _ _ _ _ ha hb hc hd' he hf hg hi]
  simp only [value, List.foldl, digit?_dec, *, Option.getD_some]
  omega

theorem parseDecimalFastImpl_eq (s : List Nat) (acc : Nat) (hacc : acc < 2 ^ 64)
    (hs : ∀ c ∈ s, c < 256) : parseDecimalFastImpl s acc = digitLoop 10 s acc := by
  unfold parseDecimalFastImpl
  dsimp only
  induction hn : s.length using Nat.strongRecOn generalizing s acc with
  | _ n ih =>
    rw [loopEight]
    split
    · rename_i h
      have hl : (s.take 8).length = 8 := by rw [List.length_take]; omega
      have hb : ∀ b ∈ s.take 8, b < 256 := fun b hb => hs b (List.mem_of_mem_take hb)
      have hd := (isEightDigits_iff _ hl hb).1 h.2
      have hd10 : ∀ c ∈ s.take 8, IsDigit 10 c := fun c hc => (isDigit10_iff c).2 (hd c hc)
      rw [ih (s.drop 8).length (by rw [List.length_drop]; omega) (s.drop 8) _
        (Nat.mod_lt _ (by decide)) (fun c hc => hs c (List.mem_of_mem_drop hc)) rfl]
      conv => rhs; rw [← List.take_append_drop 8 s]
      rw [digitLoop_append_digits 10 (by decide) _ _ _ hacc hd10]
      rw [parseEight_value _ hl hd, valueFrom_eq, hl, value_eq]
    · rfl

theorem table_facts (b : Nat) (h2 : 2 ≤ b) (h36 : b ≤ 36) :
    1 ≤ maxdigits b ∧ minSafe b = b ^ (maxdigits b - 1) ∧ minSafe b < 2 ^ 64 ∧
      2 ^ 64 ≤ b ^ maxdigits b ∧ 787662783788549761 ≤ minSafe b := by
  have : ∀ k : Fin 37, 2 ≤ k.val → 1 ≤ maxdigits k.val ∧
      minSafe k.val = k.val ^ (maxdigits k.val - 1) ∧ minSafe k.val < 2 ^ 64 ∧
      2 ^ 64 ≤ k.val ^ maxdigits k.val ∧ 787662783788549761 ≤ minSafe k.val := by
    decide +kernel
  exact this ⟨b, by omega⟩ h2

theorem IntTy.max_lt (T : IntTy) (hT : T.Std) : T.max < 2 ^ 64 := by
  obtain ⟨bits, signed⟩ := T
  unfold IntTy.Std at hT
  dsimp only at hT
  rcases hT with h | h | h | h <;> subst h <;> cases signed <;> decide

theorem cast_signed (n : Nat) (x : Int) (hn : 1 ≤ n) (h1 : -(2 ^ (n - 1) : Nat) ≤ x)
    (h2 : x < (2 ^ (n - 1) : Nat)) : x.bmod (2 ^ n) = x := by
  obtain ⟨m, rfl⟩ : ∃ m, n = m + 1 := ⟨n - 1, by omega⟩
  simp only [Nat.add_sub_cancel, Nat.pow_succ] at *
  generalize 2 ^ m = p at *
  have hp : 0 < p := by omega
  rw [Int.bmod_def]
  by_cases hx : 0 ≤ x
  · rw [Int.emod_eq_of_lt hx (by omega)]
    split
    · rfl
    · omega
  · have : x % ((p * 2 : Nat) : Int) = x + (p * 2 : Nat) := by
      rw [← Int.add_emod_right, Int.emod_eq_of_lt (by omega) (by omega)]
    rw [this]
    split
    · omega
    · omega

theorem storeResult_correct (T : IntTy) (hT : T.Std) (v : Nat) (neg : Bool)
    (hs : neg = true → T.signed = true) (hv : v ≤ T.max + (if neg then 1 else 0)) :
    storeResult T v neg = signed neg v := by
  obtain ⟨bits, sg⟩ := T
  cases neg with
  | false =>
    simp only [storeResult, Bool.false_eq_true, if_false, Spec.signed] at *
    unfold IntTy.cast
    dsimp only at *
    cases sg with
    | true =>
      simp only [if_true, IntTy.max] at *
      have hb : 1 ≤ bits := by rcases hT with h | h | h | h <;> dsimp only at h <;> omega
      have := Nat.pow_pos (a := 2) (n := bits - 1) (by decide)
      exact cast_signed bits v hb (by omega) (by omega)
    | false =>
      simp only [Bool.false_eq_true, if_false, IntTy.max] at *
      have := Nat.pow_pos (a := 2) (n := bits) (by decide)
      exact Int.emod_eq_of_lt (by omega) (by omega)
  | true =>
    have hs := hs rfl
    dsimp only at hs
    subst hs
    simp only [storeResult, if_true, Spec.signed, IntTy.cast, IntTy.max] at *
    have inner : (((v : Int) - ((2 ^ (bits - 1) - 1 : Nat) : Int)) % ((2 ^ 64 : Nat) : Int)).bmod
        (2 ^ bits) = (v : Int) - ((2 ^ (bits - 1) - 1 : Nat) : Int) := by
      have hd : ((2 ^ bits : Nat) : Int) ∣ ((2 ^ 64 : Nat) : Int) := by
        rcases hT with h | h | h | h <;> dsimp only at h <;> subst h <;> decide
      rw [← Int.emod_bmod, Int.emod_emod_of_dvd _ hd, Int.emod_bmod]
      have hb : 1 ≤ bits := by rcases hT with h | h | h | h <;> dsimp only at h <;> omega
      have hb2 : 2 ≤ 2 ^ (bits - 1) := by
        rcases hT with h | h | h | h <;> dsimp only at h <;> subst h <;> decide
      exact cast_signed bits _ hb (by omega) (by omega)
    rw [inner]
    have hb : 1 ≤ bits := by rcases hT with h | h | h | h <;> dsimp only at h <;> omega
    have := Nat.pow_pos (a := 2) (n := bits - 1) (by decide)
    rw [cast_signed bits _ hb (by omega) (by omega)]
    omega

theorem dropWhile_zero_value (b : Nat) (ds : List Nat) :
    value b (ds.dropWhile (· = 48)) = value b ds := by
  induction ds with
  | nil => rfl
  | cons c cs ih =>
    by_cases h : c = 48
    · subst h
      rw [List.dropWhile_cons_of_pos (by decide), ih, value_eq, value_eq, valueFrom_cons]
      simp [show digit? 48 = some 0 by decide]
    · rw [List.dropWhile_cons_of_neg (by simpa using h)]

theorem dropWhile_head {p : Nat → Bool} {l : List Nat} {c : Nat} {t : List Nat}
    (h : l.dropWhile p = c :: t) : p c = false := by
  induction l with
  | nil => simp at h
  | cons x xs ih =>
    by_cases hx : p x
    · rw [List.dropWhile_cons_of_pos hx] at h; exact ih h
    · rw [List.dropWhile_cons_of_neg hx] at h
      injection h with h1 h2; subst h1; simpa using hx

theorem dropWhile_mem {p : Nat → Bool} {l : List Nat} {x : Nat} (h : x ∈ l.dropWhile p) :
    x ∈ l := (List.dropWhile_sublist p).subset h

theorem dropWhile_append_rest (b : Nat) (hb : 2 ≤ b) (ds rest : List Nat) (hr : NoDigitFirst b rest) :
    (ds ++ rest).dropWhile (· = 48) = ds.dropWhile (· = 48) ++ rest := by
  induction ds with
  | nil =>
    cases rest with
    | nil => rfl
    | cons c cs =>
      have : c ≠ 48 := by
        rintro rfl; exact hr 48 rfl (isDigit_zero b hb)
      rw [List.nil_append, List.dropWhile_cons_of_neg (by simpa using this)]; rfl
  | cons c cs ih =>
    by_cases h : c = 48
    · subst h
      rw [List.cons_append, List.dropWhile_cons_of_pos (by decide),
        List.dropWhile_cons_of_pos (by decide), ih]
    · rw [List.cons_append, List.dropWhile_cons_of_neg (by simpa using h),
        List.dropWhile_cons_of_neg (by simpa using h)]; rfl

/-- A digit string that does not start with '0' denotes at least `b^(n-1)`. -/
theorem value_ge (b c : Nat) (cs : List Nat) (hc : IsDigit b c) (h0 : c ≠ 48) :
    b ^ cs.length ≤ value b (c :: cs) := by
  rw [value_eq, valueFrom_cons, valueFrom_eq]
  obtain ⟨d, hd, _⟩ := hc
  rw [hd]
  have : d ≠ 0 := by
    rintro rfl
    unfold digit? at hd
    split at hd
    · simp at hd; omega
    · split at hd
      · simp at hd
      · split at hd <;> simp at hd
  simp only [Nat.zero_mul, Nat.zero_add, Option.getD_some]
  have : 1 * b ^ cs.length ≤ d * b ^ cs.length := Nat.mul_le_mul_right _ (by omega)
  omega

/-- What the parser computes on a numeral followed by non-digit text. -/
theorem parseIntegerValue_numeral (narrow : Bool) (T : IntTy) (sign : Sign) (b : Nat)
    (h2 : 2 ≤ b) (h36 : b ≤ 36) (hsign : T.signed = false → sign = .plus)
    (ds rest : List Nat) (hds : IsNumeral b ds) (hr : NoDigitFirst b rest)
    (hbytes : narrow = true → ∀ c ∈ ds ++ rest, c < 256) :
    parseIntegerValue narrow T sign b (ds ++ rest) =
      if ds.dropWhile (· = 48) = [] then .ok (0, rest)
      else if checkOverflow T (value b ds % 2 ^ 64) (ds.dropWhile (· = 48)).length b
          (sign = .minus) then .err (overflowErr (sign = .minus))
      else .ok (storeResult T (value b ds % 2 ^ 64) (sign = .minus), rest) := by
  obtain ⟨hne, hdig⟩ := hds
  have hdrop := dropWhile_append_rest b h2 ds rest hr
  obtain ⟨c, cs, rfl⟩ := List.exists_cons_of_ne_nil hne
  have hc := (charToInt_lt_iff b c (by omega)).2 (hdig c (by simp))
  rw [List.cons_append] at *
  unfold parseIntegerValue
  dsimp only
  rw [if_neg (by rintro ⟨h, h'⟩; rw [hsign h] at h'; cases h'), if_neg (by omega),
    if_neg (by omega), hdrop]
  cases hz : (c :: cs).dropWhile (fun x => decide (x = 48)) with
  | nil =>
    rw [if_pos rfl, List.nil_append]
    cases rest with
    | nil => rfl
    | cons r rs =>
      have := hr r rfl
      rw [← charToInt_lt_iff b r (by omega)] at this
      dsimp only
      rw [if_pos (by omega)]
  | cons d ds' =>
    have hmem : ∀ x ∈ d :: ds', IsDigit b x := fun x hx => hdig x (dropWhile_mem (by rw [hz]; exact hx))
    have hd := (charToInt_lt_iff b d (by omega)).2 (hmem d (by simp))
    have hval : value b (c :: cs) = valueFrom b 0 (d :: ds') := by
      rw [← dropWhile_zero_value, hz]; rfl
    rw [if_neg (show ¬ (d :: ds' = []) by simp), List.cons_append]
    dsimp only
    rw [if_neg (show ¬ charToInt d ≥ b by omega)]
    have hloop : digitLoop b (d :: (ds' ++ rest)) 0 =
        (value b (c :: cs) % 2 ^ 64, rest) := by
      rw [hval, ← digitLoop_spec b (by omega) (d :: ds') rest 0 (by decide) hmem hr]; rfl
    have hlen : (d :: (ds' ++ rest)).length - rest.length = (d :: ds').length := by
      simp; omega
    have hreg : parseRegular T b (decide (sign = .minus)) (d :: (ds' ++ rest)) =
        if checkOverflow T (value b (c :: cs) % 2 ^ 64) (d :: ds').length b
          (sign = .minus) then .err (overflowErr (sign = .minus))
        else .ok (storeResult T (value b (c :: cs) % 2 ^ 64) (sign = .minus), rest) := by
      unfold parseRegular
      rw [hloop]
      dsimp only
      rw [hlen]
    by_cases hf : narrow = true ∧ b = 10
    · rw [if_pos hf]
      obtain ⟨hn, rfl⟩ := hf
      rw [← hreg]
      unfold parseDecimalFast parseRegular
      rw [parseDecimalFastImpl_eq _ _ (by decide)]
      intro x hx
      apply hbytes hn
      have hx' : x ∈ (c :: (cs ++ rest)).dropWhile (fun x => decide (x = 48)) := by
        rw [hdrop, hz]; exact hx
      exact dropWhile_mem hx'
    · rw [if_neg hf, hreg]

/-- The check never rejects a numeral that fits. -/
theorem checkOverflow_fits (T : IntTy) (hT : T.Std) (b n V : Nat) (neg : Bool)
    (hs : neg = true → T.signed = true)
    (h2 : 2 ≤ b) (h36 : b ≤ 36) (hn : 1 ≤ n) (hlo : b ^ (n - 1) ≤ V)
    (hfit : V ≤ T.max + (if neg then 1 else 0)) :
    V < 2 ^ 64 ∧ checkOverflow T (V % 2 ^ 64) n b neg = false := by
  obtain ⟨hm1, hms, hlt, hge, _⟩ := table_facts b h2 h36
  have hmax := T.max_lt hT
  have hmax' : T.max + (if neg then 1 else 0) < 2 ^ 64 := by
    cases neg with
    | false => simpa using hmax
    | true =>
      have hs := hs rfl
      obtain ⟨bits, sg⟩ := T
      dsimp only at hs
      subst hs
      rcases hT with h | h | h | h <;> dsimp only at h <;> subst h <;> decide
  have hV : V < 2 ^ 64 := by omega
  refine ⟨hV, ?_⟩
  rw [Nat.mod_eq_of_lt hV]
  unfold checkOverflow
  have hnm : n ≤ maxdigits b := by
    apply Nat.le_of_not_lt
    intro h
    have : b ^ maxdigits b ≤ b ^ (n - 1) := Nat.pow_le_pow_right (by omega) (by omega)
    omega
  rw [if_neg (by omega), if_neg, if_neg]
  · rw [Nat.mod_eq_of_lt hmax']; omega
  · rintro ⟨rfl, h⟩; omega

/-- The check detects a numeral that does not fit, provided the base/type combination is
    good. -/
theorem checkOverflow_detects (T : IntTy) (hT : T.Std) (b n V : Nat) (neg : Bool)
    (hs : neg = true → T.signed = true)
    (h2 : 2 ≤ b) (h36 : b ≤ 36) (hhi : V < b ^ n)
    (hgood : b ^ maxdigits b ≤ 2 ^ 64 ∨ T.max + (if neg then 1 else 0) < minSafe b)
    (hfit : T.max + (if neg then 1 else 0) < V) :
    checkOverflow T (V % 2 ^ 64) n b neg = true := by
  obtain ⟨hm1, hms, hlt, hge, _⟩ := table_facts b h2 h36
  have hmax := T.max_lt hT
  have hmax' : T.max + (if neg then 1 else 0) < 2 ^ 64 := by
    cases neg with
    | false => simpa using hmax
    | true =>
      have hs := hs rfl
      obtain ⟨bits, sg⟩ := T
      dsimp only at hs
      subst hs
      rcases hT with h | h | h | h <;> dsimp only at h <;> subst h <;> decide
  unfold checkOverflow
  by_cases h1 : n > maxdigits b
  · rw [if_pos h1]
  rw [if_neg h1]
  by_cases h3 : n = maxdigits b ∧ V % 2 ^ 64 < minSafe b
  · rw [if_pos h3]
  rw [if_neg h3, if_pos]
  have notu : T.max + (if neg then 1 else 0) < V % 2 ^ 64 := by
    by_cases hV : V < 2 ^ 64
    · rw [Nat.mod_eq_of_lt hV]; exact hfit
    · rcases hgood with hg | hg
      · have : b ^ n ≤ b ^ maxdigits b := Nat.pow_le_pow_right (by omega) (by omega)
        omega
      · have hnm : n = maxdigits b := by
          apply Nat.le_antisymm (by omega)
          apply Nat.le_of_not_lt
          intro h
          have : b ^ n ≤ b ^ (maxdigits b - 1) := Nat.pow_le_pow_right (by omega) (by omega)
          omega
        have : ¬ V % 2 ^ 64 < minSafe b := fun h => h3 ⟨hnm, h⟩
        omega
  refine ⟨?_, by rw [Nat.mod_eq_of_lt hmax']; exact notu⟩
  rintro ⟨hb, hsg⟩
  have : T.max = 2 ^ 64 - 1 := by
    unfold IntTy.max; rw [hsg, hb]; rfl
  have := Nat.mod_lt V (show 0 < 2 ^ 64 by decide)
  omega

theorem numeral_small (b n : Nat) (h : ¬ (2 ≤ b ∧ b ≤ n)) : numeral b n = [digitChar n] := by
  rw [numeral, dif_neg h]

theorem numeral_big (b n : Nat) (h : 2 ≤ b ∧ b ≤ n) :
    numeral b n = numeral b (n / b) ++ [digitChar (n % b)] := by
  rw [numeral, dif_pos h]

theorem digit?_digitChar (d : Nat) (h : d < 36) : digit? (digitChar d) = some d := by
  have : ∀ k : Fin 36, digit? (digitChar k.val) = some k.val := by decide
  exact this ⟨d, h⟩

theorem digitChar_lt (d : Nat) (h : d < 36) : digitChar d < 128 := by
  unfold digitChar; split <;> omega

theorem numeral_digits (b n : Nat) (h2 : 2 ≤ b) (h36 : b ≤ 36) :
    ∀ c ∈ numeral b n, IsDigit b c ∧ c < 128 := by
  induction n using Nat.strongRecOn with
  | _ n ih =>
    by_cases h : 2 ≤ b ∧ b ≤ n
    · rw [numeral_big b n h]
      intro c hc
      rcases List.mem_append.1 hc with hc | hc
      · exact ih _ (Nat.div_lt_self (by omega) (by omega)) c hc
      · have hm : n % b < b := Nat.mod_lt _ (by omega)
        simp only [List.mem_singleton] at hc
        subst hc
        exact ⟨⟨_, digit?_digitChar _ (by omega), hm⟩, digitChar_lt _ (by omega)⟩
    · rw [numeral_small b n h]
      intro c hc
      simp only [List.mem_singleton] at hc
      subst hc
      exact ⟨⟨_, digit?_digitChar _ (by omega), by omega⟩, digitChar_lt _ (by omega)⟩

theorem numeral_ne_nil (b n : Nat) : numeral b n ≠ [] := by
  rw [numeral]; split <;> simp

theorem numeral_isNumeral (b n : Nat) (h2 : 2 ≤ b) (h36 : b ≤ 36) : IsNumeral b (numeral b n) :=
  ⟨numeral_ne_nil b n, fun c hc => (numeral_digits b n h2 h36 c hc).1⟩

theorem numeral_value (b n : Nat) (h2 : 2 ≤ b) (h36 : b ≤ 36) : value b (numeral b n) = n := by
  induction n using Nat.strongRecOn with
  | _ n ih =>
    by_cases h : 2 ≤ b ∧ b ≤ n
    · have hm : n % b < b := Nat.mod_lt _ (by omega)
      have := ih _ (Nat.div_lt_self (by omega) (by omega : 1 < b))
      rw [numeral_big b n h, value_eq, valueFrom_append, ← value_eq, this]
      simp only [valueFrom_cons, valueFrom_nil, digit?_digitChar _ (show n % b < 36 by omega),
        Option.getD_some]
      rw [Nat.mul_comm]; exact Nat.div_add_mod n b
    · rw [numeral_small b n h]
      simp [value, digit?_digitChar n (by omega)]

theorem numeral_head (b n : Nat) (h2 : 2 ≤ b) (h36 : b ≤ 36) (hn : 0 < n) :
    ∃ c cs, numeral b n = c :: cs ∧ c ≠ 48 := by
  induction n using Nat.strongRecOn with
  | _ n ih =>
    by_cases h : 2 ≤ b ∧ b ≤ n
    · obtain ⟨c, cs, hc, h0⟩ := ih _ (Nat.div_lt_self (by omega) (by omega : 1 < b))
        (Nat.div_pos h.2 (by omega))
      exact ⟨c, cs ++ [digitChar (n % b)], by rw [numeral_big b n h, hc]; rfl, h0⟩
    · refine ⟨_, _, numeral_small b n h, ?_⟩
      unfold digitChar; split <;> omega

end Scn
