import Verif.Lemmas.IntMore
/-
Property theorems about integer scanning (C01-C10, C40).
Each theorem is followed by an `example` showing that its hypotheses are met by a
concrete, non-trivial case.
-/
namespace Scn
open Spec

instance (T : IntTy) (b : Nat) (neg : Bool) : Decidable (GoodBase T b neg) := by
  unfold GoodBase; infer_instance

/-- 8, 16 or 32 bits wide. -/
def Upto32 (T : IntTy) : Prop := T.bits = 8 ∨ T.bits = 16 ∨ T.bits = 32

theorem Upto32.std {T : IntTy} (h : Upto32 T) : T.Std := by
  unfold IntTy.Std; rcases h with h | h | h <;> simp [h]

/-! ### C01: types of at most 32 bits -/

/-- C01. The value parser stores the mathematical value of the maximal digit run if it is
    representable, reports overflow if it is not, and never anything else. -/
theorem C01_upto32 (narrow : Bool) (T : IntTy) (hT : Upto32 T) (sign : Sign) (b : Nat)
    (h2 : 2 ≤ b) (h36 : b ≤ 36) (hsign : T.signed = false → sign = .plus)
    (s : List Nat) (hne : s ≠ []) (hbytes : narrow = true → ∀ c ∈ s, c < 256) :
    parseIntegerValue narrow T sign b s = scanDigits T (sign = .minus) b s :=
  scanDigits_of_good narrow T hT.std sign b h2 h36 hsign (good_upto32 T hT b h2 h36 _) s hne hbytes

example : parseIntegerValue true ⟨8, true⟩ .minus 10 [48, 49, 50, 56, 32] =
    .ok (-128, [32]) := by
  rw [C01_upto32 _ _ (by simp [Upto32]) _ _ (by decide) (by decide) (by decide) _ (by decide)
    (by decide)]
  decide

example : parseIntegerValue true ⟨8, true⟩ .plus 10 [49, 50, 56] =
    .err .valuePositiveOverflow := by
  rw [C01_upto32 _ _ (by simp [Upto32]) _ _ (by decide) (by decide) (by decide) _ (by decide)
    (by decide)]
  decide

/-- C01 for the whole reader (sign, base prefix, digits): same specification. The only
    excluded inputs have byte 0x10 in front of a prefix letter, see `C07`. -/
theorem C01_reader_upto32 (k : Src) (T : IntTy) (hT : Upto32 T) (base : Nat) (uo : Bool)
    (s : List Nat) (hbase : base = 0 ∨ (2 ≤ base ∧ base ≤ 36))
    (hq : k.contiguous = true → k.narrow = true → (afterSign s).head? ≠ some 16)
    (hbytes : k.narrow = true → ∀ c ∈ s, c < 256) :
    readInt k T ⟨base, uo, none⟩ s = scanInt T base uo s := by
  rw [readInt_W k T hT.std base uo s hbase hq hbytes]
  unfold scanIntW scanInt
  cases s with
  | nil => rfl
  | cons c cs =>
    dsimp only
    split
    · rfl
    · rename_i h
      have hb := chooseBase_bounds base (if c = 45 ∨ c = 43 then cs else c :: cs) (by omega)
        (by omega)
      apply scanDigitsW_good T hT.std _ _ _ hb.1 hb.2 (good_upto32 T hT _ hb.1 hb.2 _)
      intro hc
      cases hsg : T.signed with
      | true => rfl
      | false => exact absurd ⟨hc, Or.inl hsg⟩ h

example : readInt ⟨true, true⟩ ⟨32, true⟩ ⟨16, false, none⟩
    [45, 48, 120, 56, 48, 48, 48, 48, 48, 48, 48, 33] = .ok (-2147483648, [33]) := by
  rw [C01_reader_upto32 _ _ (by simp [Upto32]) _ _ _ (by decide) (by decide) (by decide)]
  decide

/-! ### C02: 64-bit types -/

/-- Negation of C02: "30000000000000000000" is scanned into a `uint64_t` as
    11553255926290448384 (3*10^19 modulo 2^64) without any error. -/
theorem C02_counterexample :
    IsNumeral 10 [51, 48, 48, 48, 48, 48, 48, 48, 48, 48, 48, 48, 48, 48, 48, 48, 48, 48, 48, 48] ∧
    readIntDefault ⟨true, true⟩ ⟨64, false⟩
      [51, 48, 48, 48, 48, 48, 48, 48, 48, 48, 48, 48, 48, 48, 48, 48, 48, 48, 48, 48] =
      .ok (11553255926290448384, []) ∧
    value 10 [51, 48, 48, 48, 48, 48, 48, 48, 48, 48, 48, 48, 48, 48, 48, 48, 48, 48, 48, 48] =
      30000000000000000000 := by
  refine ⟨⟨by decide, by decide⟩, ?_, by decide⟩
  unfold readIntDefault
  rw [readInt_W _ _ (by decide) _ _ _ (by decide) (by decide) (by decide)]
  decide +kernel

/-- C02, exact behaviour: the only way the value parser departs from the specification is
    the wrap described by `Wraps` (`scanDigitsW` is `scanDigits` plus that case).
    Missing for the full claim: there should be no wrapping numerals. -/
theorem C02_exact_partial (narrow : Bool) (T : IntTy) (hT : T.Std) (sign : Sign) (b : Nat)
    (h2 : 2 ≤ b) (h36 : b ≤ 36) (hsign : T.signed = false → sign = .plus)
    (s : List Nat) (hne : s ≠ []) (hbytes : narrow = true → ∀ c ∈ s, c < 256) :
    parseIntegerValue narrow T sign b s = scanDigitsW T (sign = .minus) b s :=
  scanDigitsW_eq narrow T hT sign b h2 h36 hsign s hne hbytes

example : parseIntegerValue true ⟨64, false⟩ .plus 16 [102, 70, 103] = .ok (255, [103]) := by
  rw [C02_exact_partial _ _ (by decide) _ _ (by decide) (by decide) (by decide) _ (by decide)
    (by decide)]
  decide +kernel

/-- C02 for the whole reader. -/
theorem C02_reader_exact_partial (k : Src) (T : IntTy) (hT : T.Std) (base : Nat) (uo : Bool)
    (s : List Nat) (hbase : base = 0 ∨ (2 ≤ base ∧ base ≤ 36))
    (hq : k.contiguous = true → k.narrow = true → (afterSign s).head? ≠ some 16)
    (hbytes : k.narrow = true → ∀ c ∈ s, c < 256) :
    readInt k T ⟨base, uo, none⟩ s = scanIntW T base uo s :=
  readInt_W k T hT base uo s hbase hq hbytes

example : readInt ⟨false, false⟩ ⟨64, true⟩ ⟨0, false, none⟩ [43, 48, 88, 102, 32] =
    .ok (15, [32]) := by
  rw [C02_reader_exact_partial _ _ (by decide) _ _ _ (by decide) (by decide) (by decide)]
  decide +kernel

/-- The code is right for type `T`, this sign and base `b` on every input. -/
def SoundFor (T : IntTy) (sign : Sign) (b : Nat) : Prop :=
  ∀ (narrow : Bool) (s : List Nat), s ≠ [] → (narrow = true → ∀ c ∈ s, c < 256) →
    parseIntegerValue narrow T sign b s = scanDigits T (sign = .minus) b s

theorem soundFor_good (T : IntTy) (hT : T.Std) (sign : Sign) (b : Nat) (h2 : 2 ≤ b)
    (h36 : b ≤ 36) (hsign : T.signed = false → sign = .plus) (hg : GoodBase T b (sign = .minus)) :
    SoundFor T sign b := fun narrow s hne hb =>
  scanDigits_of_good narrow T hT sign b h2 h36 hsign hg s hne hb

theorem not_soundFor (T : IntTy) (hT : T.Std) (sign : Sign) (b : Nat) (h2 : 2 ≤ b)
    (h36 : b ≤ 36) (hsign : T.signed = false → sign = .plus) (V : Nat)
    (hw : Wraps T (sign = .minus) b V) (hr : ¬ InRange T (signed (sign = .minus) V)) :
    ¬ SoundFor T sign b := by
  intro h
  have hnum := numeral_isNumeral b V h2 h36
  have h1 := h false (numeral b V) hnum.1 (by intro h; cases h)
  rw [scanDigitsW_eq false T hT sign b h2 h36 hsign _ hnum.1 (by intro h; cases h)] at h1
  obtain ⟨hrun, _⟩ := digitRun_numeral b (numeral b V) [] hnum.2 (by intro c hc; simp at hc)
  rw [List.append_nil] at hrun
  unfold scanDigitsW scanDigits at h1
  rw [hrun, numeral_value b V h2 h36, if_neg hnum.1, if_neg hr, if_pos hw, if_neg hnum.1,
    if_neg hr] at h1
  cases h1

/-- C02, `uint64_t`: scanning is correct on all inputs exactly in bases 2, 4 and 16. -/
theorem C02_uint64_bases_partial (b : Nat) (h2 : 2 ≤ b) (h36 : b ≤ 36) :
    SoundFor ⟨64, false⟩ .plus b ↔ b = 2 ∨ b = 4 ∨ b = 16 := by
  have key : ∀ k : Fin 37, 2 ≤ k.val →
      if k.val = 2 ∨ k.val = 4 ∨ k.val = 16 then GoodBase ⟨64, false⟩ k.val false
      else Wraps ⟨64, false⟩ false k.val (2 ^ 64 + k.val ^ (fullDigits k.val - 1)) ∧
        ¬ InRange ⟨64, false⟩ (signed false (2 ^ 64 + k.val ^ (fullDigits k.val - 1))) := by
    decide +kernel
  have := key ⟨b, by omega⟩ h2
  dsimp only at this
  constructor
  · intro h
    apply Decidable.byContradiction
    intro hn
    rw [if_neg hn] at this
    exact not_soundFor _ (by decide) _ b h2 h36 (by simp) _ this.1 this.2 h
  · intro h
    rw [if_pos h] at this
    exact soundFor_good _ (by decide) _ b h2 h36 (by simp) this

/-- C02, `int64_t`, no minus sign: exactly these bases are correct on all inputs. -/
theorem C02_int64_plus_bases_partial (b : Nat) (h2 : 2 ≤ b) (h36 : b ≤ 36) :
    SoundFor ⟨64, true⟩ .plus b ↔ b ∈ [2, 3, 4, 8, 9, 10, 16, 19, 23, 29, 30] := by
  have key : ∀ k : Fin 37, 2 ≤ k.val →
      if k.val ∈ [2, 3, 4, 8, 9, 10, 16, 19, 23, 29, 30] then GoodBase ⟨64, true⟩ k.val false
      else Wraps ⟨64, true⟩ false k.val (2 ^ 64 + k.val ^ (fullDigits k.val - 1)) ∧
        ¬ InRange ⟨64, true⟩ (signed false (2 ^ 64 + k.val ^ (fullDigits k.val - 1))) := by
    decide +kernel
  have := key ⟨b, by omega⟩ h2
  dsimp only at this
  constructor
  · intro h
    apply Decidable.byContradiction
    intro hn
    rw [if_neg hn] at this
    exact not_soundFor _ (by decide) _ b h2 h36 (by simp) _ this.1 this.2 h
  · intro h
    rw [if_pos h] at this
    exact soundFor_good _ (by decide) _ b h2 h36 (by simp) this

/-- C02, `int64_t` after a minus sign: base 8 drops out ("-3000000000000000000000" octal
    is read as -2^63). -/
theorem C02_int64_minus_bases_partial (b : Nat) (h2 : 2 ≤ b) (h36 : b ≤ 36) :
    SoundFor ⟨64, true⟩ .minus b ↔ b ∈ [2, 3, 4, 9, 10, 16, 19, 23, 29, 30] := by
  have key : ∀ k : Fin 37, 2 ≤ k.val →
      if k.val ∈ [2, 3, 4, 9, 10, 16, 19, 23, 29, 30] then GoodBase ⟨64, true⟩ k.val true
      else Wraps ⟨64, true⟩ true k.val (2 ^ 64 + k.val ^ (fullDigits k.val - 1)) ∧
        ¬ InRange ⟨64, true⟩ (signed true (2 ^ 64 + k.val ^ (fullDigits k.val - 1))) := by
    decide +kernel
  have := key ⟨b, by omega⟩ h2
  dsimp only at this
  constructor
  · intro h
    apply Decidable.byContradiction
    intro hn
    rw [if_neg hn] at this
    exact not_soundFor _ (by decide) _ b h2 h36 (by simp) _ this.1 this.2 h
  · intro h
    rw [if_pos h] at this
    exact soundFor_good _ (by decide) _ b h2 h36 (by simp) this

example : (2 ≤ 10 ∧ 10 ≤ 36) ∧ ¬ SoundFor ⟨64, false⟩ .plus 10 ∧ SoundFor ⟨64, true⟩ .plus 10 := by
  refine ⟨by decide, ?_, ?_⟩
  · rw [C02_uint64_bases_partial 10 (by decide) (by decide)]; decide
  · rw [C02_int64_plus_bases_partial 10 (by decide) (by decide)]; decide

/-- C02 holds in full for the common case: default (decimal) scanning into `int64_t`. -/
theorem C02_int64_decimal (k : Src) (s : List Nat)
    (hq : k.contiguous = true → k.narrow = true → (afterSign s).head? ≠ some 16)
    (hbytes : k.narrow = true → ∀ c ∈ s, c < 256) :
    readIntDefault k ⟨64, true⟩ s = scanInt ⟨64, true⟩ 10 false s := by
  unfold readIntDefault
  rw [readInt_W k _ (by decide) 10 false s (by decide) hq hbytes]
  unfold scanIntW scanInt
  cases s with
  | nil => rfl
  | cons c cs =>
    dsimp only
    split
    · rfl
    · have hb : ∀ t, (chooseBase 10 t) = (10, t) := fun t => by simp [chooseBase]
      rw [hb]
      apply scanDigitsW_good _ (by decide) _ 10 (by simp) (by decide) (by decide)
      right
      cases (c == 45) <;> decide +kernel

example : readIntDefault ⟨true, true⟩ ⟨64, true⟩
    [57, 50, 50, 51, 51, 55, 50, 48, 51, 54, 56, 53, 52, 55, 55, 53, 56, 48, 56] =
    .err .valuePositiveOverflow := by
  rw [C02_int64_decimal _ _ (by decide) (by decide)]
  decide +kernel

/-! ### C03: round trip -/

theorem chooseBase_id (b : Nat) (t : List Nat)
    (hp : (b = 2 ∨ b = 8 ∨ b = 16) →
      ¬ HasPrefix 120 88 16 t ∧ ¬ HasPrefix 98 66 2 t ∧ ¬ HasPrefix 111 79 8 t) (h0 : b ≠ 0) :
    chooseBase b t = (b, t) := by
  unfold chooseBase
  split
  · rename_i h; subst h; rw [if_neg (hp (by simp)).1]
  · split
    · rename_i h; subst h; rw [if_neg (hp (by simp)).2.1]
    · split
      · rename_i h; subst h; rw [if_neg (hp (by simp)).2.2]
      · rfl

/-- C03. Every value of every integer type is read back from its canonical text in every
    base, consuming exactly the text. The last hypothesis excludes text in which the
    numeral "0" is the beginning of a base prefix ("0" followed by "x1"). -/
theorem C03_roundtrip (k : Src) (T : IntTy) (hT : T.Std) (b : Nat) (h2 : 2 ≤ b) (h36 : b ≤ 36)
    (x : Int) (hx : InRange T x) (rest : List Nat) (hr : NoDigitFirst b rest)
    (hbytes : k.narrow = true → ∀ c ∈ rest, c < 256)
    (hp : x = 0 → (b = 2 ∨ b = 8 ∨ b = 16) →
      ∀ l ∈ rest.head?, l ∉ [98, 66, 111, 79, 120, 88]) :
    readInt k T ⟨b, false, none⟩ (intText b x ++ rest) = .ok (x, rest) := by
  have hnum := numeral_isNumeral b x.natAbs h2 h36
  have hdig := numeral_digits b x.natAbs h2 h36
  obtain ⟨c, cs, hc⟩ : ∃ c cs, numeral b x.natAbs = c :: cs := by
    cases h : numeral b x.natAbs with
    | nil => exact absurd h hnum.1
    | cons c cs => exact ⟨c, cs, rfl⟩
  have hcd : IsDigit b c := (hdig c (by rw [hc]; simp)).1
  have hcne : c ≠ 45 ∧ c ≠ 43 ∧ c ≠ 16 := by
    refine ⟨?_, ?_, ?_⟩ <;> (rintro rfl; obtain ⟨d, hd, _⟩ := hcd; simp [digit?] at hd)
  have hcb : chooseBase b (numeral b x.natAbs ++ rest) = (b, numeral b x.natAbs ++ rest) := by
    apply chooseBase_id _ _ _ (by omega)
    intro hb
    by_cases h0 : x = 0
    · have hl := hp h0 hb
      have : numeral b x.natAbs = [48] := by
        rw [h0]; rw [numeral_small b _ (by simp; omega)]; rfl
      rw [this]
      cases rest with
      | nil => exact ⟨by simp [HasPrefix], by simp [HasPrefix], by simp [HasPrefix]⟩
      | cons l rest =>
        have hl := hl l (by simp)
        simp only [List.mem_cons, List.not_mem_nil, or_false, not_or] at hl
        refine ⟨?_, ?_, ?_⟩ <;>
        · intro h
          have := hasPrefix_letter h
          omega
    · obtain ⟨c', cs', hc', hne⟩ := numeral_head b x.natAbs h2 h36 (by omega)
      rw [hc']
      refine ⟨?_, ?_, ?_⟩ <;>
      · intro h
        rw [List.cons_append] at h
        match cs' ++ rest, h with
        | [], h => exact h
        | [_], h => exact h
        | _ :: _ :: _, h => exact hne h.1
  have hrun := digitRun_numeral b (numeral b x.natAbs) rest hnum.2 hr
  have hsgn : signed (x < 0) x.natAbs = x := by
    unfold signed; by_cases h : x < 0 <;> simp [h] <;> omega
  have hscan : scanDigitsW T (x < 0) b (numeral b x.natAbs ++ rest) = .ok (x, rest) := by
    unfold scanDigitsW
    rw [hrun.1, hrun.2, if_neg hnum.1, numeral_value b _ h2 h36, hsgn, if_pos hx]
  have hneg : x < 0 → T.signed = true := by
    intro h
    cases hs : T.signed with
    | true => rfl
    | false => unfold InRange at hx; rw [hs, if_neg (by simp)] at hx; omega
  have h0d : IsDigit b 16 → False := by rintro ⟨d, hd, _⟩; simp [digit?] at hd
  rw [readInt_W k T hT b false _ (by omega)]
  · unfold intText
    by_cases hlt : x < 0
    · rw [if_pos hlt, List.cons_append, List.cons_append, List.nil_append]
      unfold scanIntW
      dsimp only
      rw [if_pos (Or.inl rfl), hcb, if_neg (by simp [hneg hlt])]
      have : (45 == 45) = decide (x < 0) := by simp [hlt]
      rw [this]; exact hscan
    · rw [if_neg hlt, List.nil_append]
      unfold scanIntW
      rw [hc] at hcb hscan ⊢
      dsimp only [List.cons_append]
      rw [if_neg (by omega : ¬ (c = 45 ∨ c = 43)), ← List.cons_append, hcb]
      have : (c == 45) = decide (x < 0) := by simp [hlt]; omega
      rw [this, if_neg (by simp [hlt])]
      exact hscan
  · intro _ _ hh
    unfold intText at hh
    rw [hc] at hh
    by_cases hlt : x < 0
    · rw [if_pos hlt] at hh
      simp [afterSign] at hh
      omega
    · rw [if_neg hlt, List.nil_append, List.cons_append, afterSign, if_neg (by omega)] at hh
      simp at hh
      omega
  · intro hn y hy
    rcases List.mem_append.1 hy with hy | hy
    · unfold intText at hy
      rcases List.mem_append.1 hy with hy | hy
      · split at hy <;> simp at hy; omega
      · have := (hdig y hy).2; omega
    · exact hbytes hn y hy

example : readInt ⟨true, true⟩ ⟨64, true⟩ ⟨36, false, none⟩
    (intText 36 (-9223372036854775808) ++ [32, 120]) = .ok (-9223372036854775808, [32, 120]) :=
  C03_roundtrip _ _ (by decide) 36 (by decide) (by decide) _ (by decide) _
    (by unfold NoDigitFirst; simp; decide) (by decide) (by decide)

/-! ### C04: eight digits at a time -/

/-- C04. The word test is exactly "eight ASCII digits", and on digits the multiply-shift
    conversion is the decimal value. -/
theorem C04_swar (s : List Nat) (hl : s.length = 8) (hb : ∀ c ∈ s, c < 256) :
    (isEightDigits (word8 s) = true ↔ IsNumeral 10 s) ∧
    (IsNumeral 10 s → parseEight (word8 s) = value 10 s) := by
  have hiff : (∀ c ∈ s, 48 ≤ c ∧ c ≤ 57) ↔ IsNumeral 10 s := by
    unfold IsNumeral
    constructor
    · intro h
      refine ⟨by rintro rfl; simp at hl, fun c hc => (isDigit10_iff c).2 (h c hc)⟩
    · intro h c hc
      exact (isDigit10_iff c).1 (h.2 c hc)
  refine ⟨by rw [isEightDigits_iff s hl hb, hiff], fun h => ?_⟩
  exact parseEight_value s hl (hiff.2 h)

example : parseEight (word8 [49, 50, 51, 52, 53, 54, 55, 57]) = 12345679 := by
  rw [(C04_swar _ (by decide) (by decide)).2 ⟨by decide, by decide⟩]; decide

/-- Every 64-bit word is eight bytes, so C04 covers all words. -/
theorem C04_all_words (w : Nat) (hw : w < 2 ^ 64) :
    ∃ s : List Nat, s.length = 8 ∧ (∀ c ∈ s, c < 256) ∧ word8 s = w := by
  refine ⟨[w % 256, w / 256 % 256, w / 65536 % 256, w / 16777216 % 256, w / 4294967296 % 256,
    w / 1099511627776 % 256, w / 281474976710656 % 256, w / 72057594037927936], rfl, ?_, ?_⟩
  · intro c hc
    simp only [List.mem_cons, List.not_mem_nil, or_false] at hc
    omega
  · simp only [word8]
    omega

example : ∃ s : List Nat, s.length = 8 ∧ (∀ c ∈ s, c < 256) ∧ word8 s = 0x3837363534333231 :=
  C04_all_words _ (by decide)

/-! ### C05: the two decimal paths -/

/-- C05. The fast decimal path equals the general path in base 10: same value or error,
    same remaining text. -/
theorem C05_fast_eq_regular (T : IntTy) (neg : Bool) (s : List Nat) (hs : ∀ c ∈ s, c < 256) :
    parseDecimalFast T neg s = parseRegular T 10 neg s := by
  unfold parseDecimalFast parseRegular
  rw [parseDecimalFastImpl_eq s 0 (by decide) hs]

example : parseDecimalFast ⟨16, true⟩ true [49, 50, 51, 32] = .ok (-123, [32]) := by
  rw [C05_fast_eq_regular _ _ _ (by decide)]; decide +kernel

/-! ### C06: scan_int_exhaustive_valid -/

/-- Negation of C06: "00000000000000000001" is a valid in-range base-10 integer, but the
    call violates an internal `SCN_EXPECT` (undefined behaviour in release builds). -/
theorem C06_counterexample :
    IsNumeral 10 [48, 48, 48, 48, 48, 48, 48, 48, 48, 48, 48, 48, 48, 48, 48, 48, 48, 48, 48, 49] ∧
    value 10 [48, 48, 48, 48, 48, 48, 48, 48, 48, 48, 48, 48, 48, 48, 48, 48, 48, 48, 48, 49] = 1 ∧
    parseExhaustiveValid ⟨32, true⟩
      [48, 48, 48, 48, 48, 48, 48, 48, 48, 48, 48, 48, 48, 48, 48, 48, 48, 48, 48, 49] = .ub := by
  refine ⟨⟨by decide, by decide⟩, by decide, ?_⟩
  obtain ⟨v, r, h1, h2⟩ := loopEightValid_spec
    [48, 48, 48, 48, 48, 48, 48, 48, 48, 48, 48, 48, 48, 48, 48, 48, 48, 48, 48, 49] 0 (by decide)
    (by decide)
  unfold parseExhaustiveValid
  simp only [show ((48 : Nat) == 45) = false by decide, Bool.and_false, Bool.false_eq_true,
    if_false, show ¬ (charToInt 48 ≥ 10) by decide +kernel, h1, h2]
  decide +kernel

/-- C06 on the numerals that are not padded with zeros to 20 or more digits. Missing for
    the full claim: longer zero-padded numerals, where the code has undefined behaviour. -/
theorem C06_partial (T : IntTy) (hT : T.Std) (neg : Bool) (hs : neg = true → T.signed = true)
    (ds : List Nat) (hds : IsNumeral 10 ds) (hfit : InRange T (signed neg (value 10 ds)))
    (hz : ds.length ≤ 19 ∨ ds.head? ≠ some 48) :
    parseExhaustiveValid T ((if neg then [45] else []) ++ ds) = .ok (signed neg (value 10 ds)) :=
  exhaustive_core T hT neg hs ds hds hfit hz

example : parseExhaustiveValid ⟨64, true⟩
    [45, 57, 50, 50, 51, 51, 55, 50, 48, 51, 54, 56, 53, 52, 55, 55, 53, 56, 48, 56] =
    .ok (-9223372036854775808) :=
  C06_partial ⟨64, true⟩ (by decide) true (by decide)
    [57, 50, 50, 51, 51, 55, 50, 48, 51, 54, 56, 53, 52, 55, 55, 53, 56, 48, 56]
    ⟨by decide, by decide⟩ (by decide) (by decide)

/-! ### C07: base prefixes -/

/-- C07. The reader picks base and digits exactly as documented (`chooseBase`): stated for
    every type, base and source for which no byte 0x10 follows the optional sign of a
    contiguous narrow source. Missing for the full claim: those inputs, see
    `C07_counterexample`. -/
theorem C07_prefix_partial (k : Src) (T : IntTy) (hT : T.Std) (base : Nat) (uo : Bool)
    (c : Nat) (cs : List Nat) (hbase : base = 0 ∨ (2 ≤ base ∧ base ≤ 36))
    (hq : k.contiguous = true → k.narrow = true → (afterSign (c :: cs)).head? ≠ some 16)
    (hbytes : k.narrow = true → ∀ x ∈ c :: cs, x < 256)
    (hneg : c = 45 → T.signed = true ∧ uo = false) :
    readInt k T ⟨base, uo, none⟩ (c :: cs) =
      scanDigitsW T (c == 45) (chooseBase base (afterSign (c :: cs))).1
        (chooseBase base (afterSign (c :: cs))).2 := by
  rw [readInt_W k T hT base uo _ hbase hq hbytes]
  unfold scanIntW afterSign
  dsimp only
  rw [if_neg]
  rintro ⟨h1, h2⟩
  have := hneg (by simpa using h1)
  simp [this.1, this.2] at h2

example : readInt ⟨true, true⟩ ⟨32, true⟩ ⟨0, false, none⟩ [48, 88, 49, 70, 32] =
    .ok (31, [32]) := by
  rw [C07_prefix_partial _ _ (by decide) _ _ _ _ (by decide) (by decide) (by decide) (by decide)]
  decide +kernel

/-- C07 holds without exception for wide or non-contiguous sources. -/
theorem C07_prefix_other_sources (k : Src) (T : IntTy) (hT : T.Std) (base : Nat) (uo : Bool)
    (s : List Nat) (hk : k.contiguous = false ∨ k.narrow = false)
    (hbase : base = 0 ∨ (2 ≤ base ∧ base ≤ 36))
    (hbytes : k.narrow = true → ∀ x ∈ s, x < 256) :
    readInt k T ⟨base, uo, none⟩ s = scanIntW T base uo s := by
  apply readInt_W k T hT base uo s hbase _ hbytes
  intro h1 h2
  rcases hk with h | h <;> simp_all

example : readInt ⟨true, false⟩ ⟨32, true⟩ ⟨16, false, none⟩ [16, 120, 49, 102] =
    .err .invalidScannedValue := by
  rw [C07_prefix_other_sources _ _ (by decide) _ _ _ (by decide) (by decide) (by decide)]
  decide +kernel

/-- A prefix with no digits after it is not lost: its zero is the value, the letter stays. -/
theorem C07_lone_prefix (k : Src) (T : IntTy) (hT : T.Std) (b l : Nat)
    (hl : (b = 16 ∧ (l = 120 ∨ l = 88)) ∨ (b = 2 ∧ (l = 98 ∨ l = 66)) ∨ (b = 8 ∧ (l = 111 ∨ l = 79)))
    (base : Nat) (hbase : base = b ∨ base = 0) (rest : List Nat) (hr : NoDigitFirst b rest)
    (hbytes : k.narrow = true → ∀ x ∈ rest, x < 256) :
    readInt k T ⟨base, false, none⟩ (48 :: l :: rest) = .ok (0, l :: rest) := by
  have hb36 : base = 0 ∨ (2 ≤ base ∧ base ≤ 36) := by omega
  have hl128 : l < 128 := by omega
  have nohas : ∀ lo up b', (HasPrefix lo up b' (48 :: l :: rest)) →
      (l = lo ∨ l = up) ∧ ∃ d, rest.head? = some d ∧ IsDigit b' d := by
    intro lo up b' h
    cases rest with
    | nil => exact h.elim
    | cons d r => exact ⟨h.2.1, d, rfl, h.2.2⟩
  have n16 : ¬ HasPrefix 120 88 16 (48 :: l :: rest) := by
    intro h
    obtain ⟨h1, d, h2, h3⟩ := nohas _ _ _ h
    have : b = 16 := by omega
    subst this; exact hr d h2 h3
  have n2 : ¬ HasPrefix 98 66 2 (48 :: l :: rest) := by
    intro h
    obtain ⟨h1, d, h2, h3⟩ := nohas _ _ _ h
    have : b = 2 := by omega
    subst this; exact hr d h2 h3
  have n8 : ¬ HasPrefix 111 79 8 (48 :: l :: rest) := by
    intro h
    obtain ⟨h1, d, h2, h3⟩ := nohas _ _ _ h
    have : b = 8 := by omega
    subst this; exact hr d h2 h3
  have hcb : ∃ b', 2 ≤ b' ∧ b' ≤ b ∧ chooseBase base (48 :: l :: rest) = (b', 48 :: l :: rest) ∨
      b' = 8 ∧ chooseBase base (48 :: l :: rest) = (b', 48 :: l :: rest) := by
    unfold chooseBase
    simp only [n16, n2, n8, if_false, List.head?_cons, if_true]
    rcases hbase with rfl | rfl
    · refine ⟨base, Or.inl ⟨by omega, Nat.le_refl _, ?_⟩⟩
      repeat' split
      all_goals simp_all
    · exact ⟨8, Or.inr ⟨rfl, rfl⟩⟩
  obtain ⟨b', hb'⟩ := hcb
  have hch : chooseBase base (48 :: l :: rest) = (b', 48 :: l :: rest) := by
    rcases hb' with h | h
    · exact h.2.2
    · exact h.2
  have hbb : 2 ≤ b' ∧ (b' ≤ b ∨ b' = 8) := by omega
  have hnd : NoDigitFirst b' (l :: rest) := by
    apply noDigitFirst_letter
    rintro ⟨d, hd, hlt⟩
    have e1 : digit? 120 = some 33 := by decide
    have e2 : digit? 88 = some 33 := by decide
    have e3 : digit? 98 = some 11 := by decide
    have e4 : digit? 66 = some 11 := by decide
    have e5 : digit? 111 = some 24 := by decide
    have e6 : digit? 79 = some 24 := by decide
    rcases hl with ⟨h0, h | h⟩ | ⟨h0, h | h⟩ | ⟨h0, h | h⟩ <;> subst h <;>
      (first | rw [e1] at hd | rw [e2] at hd | rw [e3] at hd | rw [e4] at hd | rw [e5] at hd
             | rw [e6] at hd) <;> cases hd <;> omega
  rw [readInt_W k T hT base false _ hb36]
  · unfold scanIntW
    simp only [show ¬ ((48 : Nat) = 45 ∨ (48 : Nat) = 43) by decide, if_false,
      show ((48 : Nat) == 45) = false by decide, Bool.false_eq_true, false_and]
    rw [hch, scanDigitsW_single_zero hT hbb.1 hnd]
  · intro _ _; simp [afterSign]
  · intro hn x hx
    simp only [List.mem_cons] at hx
    rcases hx with h | h | h
    · omega
    · omega
    · exact hbytes hn x h

example : readInt ⟨true, true⟩ ⟨32, false⟩ ⟨16, false, none⟩ [48, 120, 103] = .ok (0, [120, 103]) :=
  C07_lone_prefix _ _ (by decide) 16 120 (by simp) 16 (by simp) [103]
    (by unfold NoDigitFirst; simp; decide) (by decide)

/-- Negation of C07 on contiguous narrow sources: the control byte 0x10 is taken for '0'
    in a prefix, so "\x10x1f" scans as hexadecimal 31. -/
theorem C07_counterexample :
    ¬ IsDigit 16 16 ∧
    readInt ⟨true, true⟩ ⟨32, true⟩ ⟨16, false, none⟩ [16, 120, 49, 102] = .ok (31, []) := by
  decide +kernel

/-! ### C08: signs -/

/-- C08. A '-' in front of an unsigned target (or with the `u` option) is an error, whatever
    follows. -/
theorem C08_minus_unsigned (k : Src) (T : IntTy) (sp : IntSpecs) (t : List Nat)
    (h : T.signed = false ∨ sp.unsignedOnly = true) :
    readInt k T sp (45 :: t) = .err .invalidScannedValue := by
  unfold readInt
  rw [parseIntegerPrefix_eq]
  simp only [true_or, if_true]
  rw [afterSignPrefix_sign, if_pos ⟨rfl, h⟩]

example : readInt ⟨true, true⟩ ⟨16, false⟩ ⟨10, false, none⟩ [45, 49] =
    .err .invalidScannedValue := C08_minus_unsigned _ _ _ _ (by decide)

/-- C08. A '+' changes nothing: the text after it is scanned as if the sign were absent. -/
theorem C08_plus_transparent (k : Src) (T : IntTy) (sp : IntSpecs) (c : Nat) (t : List Nat)
    (h : c ≠ 45 ∧ c ≠ 43) : readInt k T sp (43 :: c :: t) = readInt k T sp (c :: t) := by
  unfold readInt
  rw [parseIntegerPrefix_eq, parseIntegerPrefix_eq]
  simp only [or_true, if_true, show ¬ ((43 : Nat) = 45) by decide, if_false,
    h.1, h.2, or_self]

example : readInt ⟨true, true⟩ ⟨16, false⟩ ⟨10, false, none⟩ [43, 49] =
    readInt ⟨true, true⟩ ⟨16, false⟩ ⟨10, false, none⟩ [49] := C08_plus_transparent _ _ _ _ _ (by decide)

/-- C08. At most one sign is consumed: two signs in a row are an error. -/
theorem C08_two_signs (k : Src) (T : IntTy) (hT : T.Std) (base : Nat) (uo : Bool)
    (hbase : base = 0 ∨ (2 ≤ base ∧ base ≤ 36)) (c d : Nat) (t : List Nat)
    (hc : c = 45 ∨ c = 43) (hd : d = 45 ∨ d = 43)
    (hbytes : k.narrow = true → ∀ x ∈ t, x < 256) :
    readInt k T ⟨base, uo, none⟩ (c :: d :: t) = .err .invalidScannedValue := by
  rw [readInt_W k T hT base uo _ hbase]
  · unfold scanIntW
    dsimp only
    rw [if_pos hc]
    split
    · rfl
    · apply scanDigitsW_none
      rw [show chooseBase base (d :: t) = ((chooseBase base (d :: t)).1, d :: t) by
        have np : ∀ lo up b, ¬ HasPrefix lo up b (d :: t) := by
          intro lo up b h
          match t, h with
          | [], h => exact h
          | [_], h => exact h
          | _ :: _ :: _, h => have := h.1; omega
        unfold chooseBase
        simp only [np, if_false]
        repeat' split
        all_goals rfl]
      apply noDigitFirst_letter
      rintro ⟨x, hx, _⟩
      rcases hd with rfl | rfl <;> simp [digit?] at hx
  · intro _ _
    rw [afterSign, if_pos hc]; simp; omega
  · intro hn x hx
    simp only [List.mem_cons] at hx
    rcases hx with h | h | h
    · omega
    · omega
    · exact hbytes hn x h

example : readInt ⟨true, true⟩ ⟨16, true⟩ ⟨10, false, none⟩ [43, 45, 49] =
    .err .invalidScannedValue :=
  C08_two_signs _ _ (by decide) _ _ (by decide) _ _ _ (by decide) (by decide) (by decide)

/-- C08. A '-' negates: what is scanned after it is the magnitude, within the range of the
    type. -/
theorem C08_minus_negates (k : Src) (T : IntTy) (hT : T.Std) (hs : T.signed = true) (b : Nat)
    (h2 : 2 ≤ b) (h36 : b ≤ 36) (hb : b ≠ 2 ∧ b ≠ 8 ∧ b ≠ 16) (ds rest : List Nat)
    (hds : IsNumeral b ds) (hr : NoDigitFirst b rest)
    (hbytes : k.narrow = true → ∀ x ∈ ds ++ rest, x < 256)
    (hfit : InRange T (-(value b ds : Int))) :
    readInt k T ⟨b, false, none⟩ (45 :: (ds ++ rest)) = .ok (-(value b ds : Int), rest) := by
  have hrun := digitRun_numeral b ds rest hds.2 hr
  rw [readInt_W k T hT b false _ (by omega)]
  · unfold scanIntW
    simp only [true_or, if_true, hs, Bool.true_eq_false, Bool.false_eq_true, or_self, and_false,
      if_false]
    rw [chooseBase_id b _ (by omega) (by omega)]
    unfold scanDigitsW
    rw [hrun.1, hrun.2, if_neg hds.1]
    simp only [beq_self_eq_true, signed, if_true]
    rw [if_pos hfit]
  · intro _ _ hh
    rw [afterSign, if_pos (by simp)] at hh
    obtain ⟨hne, hd⟩ := hds
    cases ds with
    | nil => exact hne rfl
    | cons c cs =>
      simp at hh
      subst hh
      obtain ⟨x, hx, _⟩ := hd 16 (by simp)
      simp [digit?] at hx
  · intro hn x hx
    simp only [List.mem_cons] at hx
    rcases hx with h | h
    · omega
    · exact hbytes hn x h

example : readInt ⟨true, true⟩ ⟨8, true⟩ ⟨10, false, none⟩ [45, 49, 50, 56, 46] =
    .ok (-128, [46]) :=
  C08_minus_negates ⟨true, true⟩ ⟨8, true⟩ (by decide) (by decide) 10 (by decide) (by decide)
    (by decide) [49, 50, 56] [46] ⟨by decide, by decide⟩ (by unfold NoDigitFirst; simp; decide)
    (by decide) (by decide)

/-! ### C09: no digits -/

/-- C09. Text that does not begin (after its sign) with a digit of the base is rejected with
    `invalid_scanned_value`; being an error result, no value is stored. -/
theorem C09_no_digits (k : Src) (T : IntTy) (hT : T.Std) (base : Nat) (uo : Bool)
    (hbase : base = 0 ∨ (2 ≤ base ∧ base ≤ 36)) (s : List Nat) (hne : s ≠ [])
    (hd : NoDigitFirst (if base = 0 then 10 else base) (afterSign s))
    (hq : k.contiguous = true → k.narrow = true → (afterSign s).head? ≠ some 16)
    (hbytes : k.narrow = true → ∀ x ∈ s, x < 256) :
    readInt k T ⟨base, uo, none⟩ s = .err .invalidScannedValue := by
  rw [readInt_W k T hT base uo s hbase hq hbytes]
  have hb2 : 2 ≤ (if base = 0 then 10 else base) := by split <;> omega
  have h48 : (afterSign s).head? ≠ some 48 := fun h => hd 48 h (isDigit_zero _ hb2)
  cases s with
  | nil => exact absurd rfl hne
  | cons c cs =>
    have np : ∀ lo up b, ¬ HasPrefix lo up b (afterSign (c :: cs)) := by
      intro lo up b h
      revert h h48
      generalize afterSign (c :: cs) = t
      intro h48 h
      match t, h with
      | [], h => exact h
      | [_], h => exact h
      | [_, _], h => exact h
      | a :: _ :: _ :: _, h => rw [h.1] at h48; exact h48 rfl
    have hcb : chooseBase base (afterSign (c :: cs)) =
        ((if base = 0 then 10 else base), afterSign (c :: cs)) := by
      unfold chooseBase
      simp only [np, if_false, if_neg h48]
      repeat' split
      all_goals simp_all
    unfold scanIntW
    dsimp only
    split
    · rfl
    · have : (if c = 45 ∨ c = 43 then cs else c :: cs) = afterSign (c :: cs) := rfl
      rw [this, hcb]
      exact scanDigitsW_none hd

example : readInt ⟨true, true⟩ ⟨32, true⟩ ⟨8, false, none⟩ [45, 57, 49] =
    .err .invalidScannedValue :=
  C09_no_digits _ _ (by decide) _ _ (by decide) _ (by decide)
    (by unfold NoDigitFirst; simp [afterSign]; decide) (by decide) (by decide)

/-! ### C10: thousands separators -/

/-- C10. With a thousands separator, the value is that of the digit run with the separators
    removed and the whole run is consumed. Missing for the full claim: octal (or detected)
    base with a leading zero, see `C10_counterexample`. -/
theorem C10_thsep_partial (k : Src) (T : IntTy) (hT : T.Std) (base sep : Nat) (uo : Bool) (c : Nat)
    (cs : List Nat) (hbase : base = 0 ∨ (2 ≤ base ∧ base ≤ 36))
    (hoct : base = 0 ∨ base = 8 → (afterSign (c :: cs)).head? ≠ some 48)
    (hq : k.contiguous = true → k.narrow = true → (afterSign (c :: cs)).head? ≠ some 16)
    (hbytes : k.narrow = true → ∀ x ∈ c :: cs, x < 256)
    (hneg : c = 45 → T.signed = true ∧ uo = false) :
    readInt k T ⟨base, uo, some sep⟩ (c :: cs) =
      scanSepW T (c == 45) (chooseBase base (afterSign (c :: cs))).1 sep
        (chooseBase base (afterSign (c :: cs))).2 := by
  rw [readInt_sep k T hT base sep uo c cs (by omega) (by omega) _ hq hbytes, if_neg]
  · rfl
  · rintro ⟨h1, h2⟩
    have := hneg h1
    simp [this.1, this.2] at h2
  · by_cases h : base = 0 ∨ base = 8
    · exact Or.inr (hoct h)
    · left; omega

example : readInt ⟨true, true⟩ ⟨32, true⟩ ⟨10, false, some 44⟩ [45, 49, 44, 50, 51, 52, 32] =
    .ok (-1234, [32]) := by
  rw [C10_thsep_partial _ _ (by decide) _ _ _ _ _ (by decide) (by decide) (by decide) (by decide)
    (by decide)]
  decide +kernel

/-- C10, transparency: in the bases without a prefix, scanning a run with separators gives
    the same outcome (value or error) as scanning it without them. -/
theorem C10_transparent_partial (k : Src) (T : IntTy) (hT : T.Std) (b sep : Nat)
    (hb : 2 ≤ b ∧ b ≤ 36 ∧ b ≠ 2 ∧ b ≠ 8 ∧ b ≠ 16) (d : Nat) (hd : IsDigit b d) (hds : d ≠ sep)
    (run rest : List Nat) (hrun : ∀ c ∈ run, c = sep ∨ IsDigit b c)
    (hrest : ∀ c, rest.head? = some c → ¬ (c = sep ∨ IsDigit b c))
    (hbytes : k.narrow = true → ∀ x ∈ d :: (run ++ rest), x < 256) :
    (readInt k T ⟨b, false, some sep⟩ (d :: (run ++ rest))) =
      (readInt k T ⟨b, false, none⟩ (d :: (run.filter (fun c => c ≠ sep) ++ rest))) := by
  have hd' : d ≠ 45 ∧ d ≠ 43 ∧ d ≠ 16 := by
    refine ⟨?_, ?_, ?_⟩ <;> (rintro rfl; obtain ⟨x, hx, _⟩ := hd; simp [digit?] at hx)
  have has : ∀ t, afterSign (d :: t) = d :: t := fun t => by rw [afterSign, if_neg (by omega)]
  have hrun' : ∀ c ∈ d :: run, c = sep ∨ IsDigit b c := by
    intro c hc
    rcases List.mem_cons.1 hc with rfl | hc
    · exact Or.inr hd
    · exact hrun c hc
  have hdig : ∀ c ∈ d :: run.filter (fun c => c ≠ sep), IsDigit b c := by
    intro c hc
    rcases List.mem_cons.1 hc with rfl | hc
    · exact hd
    · obtain ⟨h1, h2⟩ := List.mem_filter.1 hc
      rcases hrun c h1 with h | h
      · simp [h] at h2
      · exact h
  have hnd : NoDigitFirst b rest := fun c hc hh => hrest c hc (Or.inr hh)
  obtain ⟨e1, e2⟩ := sepRun_of_run sep b (d :: run) rest hrun' hrest
  obtain ⟨f1, f2⟩ := digitRun_numeral b _ rest hdig hnd
  rw [C10_thsep_partial k T hT b sep false d _ (by omega) (by omega), readInt_W k T hT b false]
  · rw [has, chooseBase_id b _ (by omega) (by omega)]
    unfold scanSepW scanIntW
    dsimp only
    rw [if_neg (by simp; omega), if_neg (by omega), chooseBase_id b _ (by omega) (by omega)]
    rw [List.cons_append] at e1 e2 f1 f2
    dsimp only
    rw [e1, e2, List.filter_cons_of_pos (by simpa using hds)]
    obtain ⟨g1, g2⟩ := digitRun_numeral b _ [] hdig (by intro c hc; simp at hc)
    rw [List.append_nil] at g1 g2
    unfold scanDigitsW
    rw [g1, g2, f1, f2]
    repeat' split
    all_goals rfl
  · omega
  · intro _ _; rw [has]; simp; omega
  · intro hn x hx
    apply hbytes hn
    rcases List.mem_cons.1 hx with h | h
    · simp [h]
    · rcases List.mem_append.1 h with h | h
      · simp [(List.mem_filter.1 h).1]
      · simp [h]
  · intro _ _; rw [has]; simp; omega
  · exact hbytes
  · omega

example : readInt ⟨true, true⟩ ⟨32, true⟩ ⟨10, false, some 44⟩ (49 :: ([44, 50, 51, 52] ++ [32])) =
    readInt ⟨true, true⟩ ⟨32, true⟩ ⟨10, false, none⟩ [49, 50, 51, 52, 32] :=
  C10_transparent_partial ⟨true, true⟩ ⟨32, true⟩ (by decide) 10 44 (by decide) 49 (by decide)
    (by decide) [44, 50, 51, 52] [32] (by decide) (by simp; decide) (by decide)

/-- Negation of C10 in octal: "0,17" is read as 0 leaving ",17", while "017" is 15. -/
theorem C10_counterexample :
    readInt ⟨true, true⟩ ⟨32, true⟩ ⟨8, false, some 44⟩ [48, 44, 49, 55] = .ok (0, [44, 49, 55]) ∧
    readInt ⟨true, true⟩ ⟨32, true⟩ ⟨8, false, some 44⟩ [48, 49, 55] = .ok (15, []) := by
  decide +kernel

/-! ### C40: case-insensitive matching -/

theorem sameLetter_iff (x y : Nat) : SameLetter x y ↔ asciiTolower x = asciiTolower y := by
  unfold SameLetter asciiTolower
  repeat' split
  all_goals omega

theorem eqUpToCase_iff (a b : List Nat) :
    EqUpToCase a b ↔ a.map asciiTolower = b.map asciiTolower := by
  induction a generalizing b with
  | nil => cases b <;> simp [EqUpToCase]
  | cons x xs ih =>
    cases b with
    | nil => simp [EqUpToCase]
    | cons y ys => simp [EqUpToCase, ih, sameLetter_iff]

/-- Negation of C40: byte 0x10 "matches" the character '0' of "0x". -/
theorem C40_counterexample :
    fastStreqNocase [16, 88] [48, 120] = true ∧ ¬ EqUpToCase [16, 88] [48, 120] := by
  decide

/-- C40 for texts that consist of lower-case letters (inf, infinity, nan, am, pm, true,
    month and weekday names). Missing for the full claim: texts with non-letters. -/
theorem C40_letters_partial (a b : List Nat) (hl : a.length = b.length)
    (hb : ∀ c ∈ b, 97 ≤ c ∧ c ≤ 122) : fastStreqNocase a b = true ↔ EqUpToCase a b := by
  rw [fastStreqNocase_iff a b hl, eqUpToCase_iff]
  induction a generalizing b with
  | nil => cases b with
    | nil => simp
    | cons y ys => simp at hl
  | cons x xs ih =>
    cases b with
    | nil => simp at hl
    | cons y ys =>
      have hy := hb y (by simp)
      have ih' := ih ys (by simpa using hl) (fun c hc => hb c (by simp [hc]))
      simp only [List.zip_cons_cons, List.mem_cons, forall_eq_or_imp, List.map_cons,
        List.cons.injEq, ih']
      apply and_congr_left
      intro _
      have hx : 32 ^^^ y = y - 32 := by
        have : ∀ k : Fin 26, 32 ^^^ (97 + k.val) = 97 + k.val - 32 := by decide
        have := this ⟨y - 97, by omega⟩
        simpa [show 97 + (y - 97) = y by omega] using this
      rw [hx]
      have : asciiTolower y = y := by unfold asciiTolower; rw [if_pos (by omega)]
      rw [this, asciiTolower_eq x y hy]

example : fastStreqNocase [110, 65, 78] [110, 97, 110] = true :=
  (C40_letters_partial _ _ (by decide) (by decide)).2 (by decide)

/-- C40 in full for the wide / non-contiguous matcher. -/
theorem C40_other_sources (k : Src) (hk : k.contiguous = false ∨ k.narrow = false)
    (s str : List Nat) (hlow : ∀ c ∈ str, ¬ (65 ≤ c ∧ c ≤ 90)) :
    (readMatchingNocase k s str = some (s.drop str.length) ↔
      str.length ≤ s.length ∧ EqUpToCase (s.take str.length) str) := by
  have hk' : (k.contiguous && k.narrow) = false := by
    rcases hk with h | h <;> simp [h]
  have hmap : str.map asciiTolower = str := by
    conv => rhs; rw [← List.map_id str]
    apply List.map_congr_left
    intro c hc
    have := hlow c hc
    unfold asciiTolower; rw [if_pos (by omega)]; rfl
  unfold readMatchingNocase
  rw [hk', eqUpToCase_iff, hmap]
  by_cases h : s.length < str.length
  · rw [if_pos h]; simp; omega
  · rw [if_neg h]
    by_cases h2 : (s.take str.length).map asciiTolower = str
    · rw [if_neg (by simp), if_pos h2]
      exact ⟨fun _ => ⟨by omega, h2⟩, fun _ => rfl⟩
    · rw [if_neg (by simp), if_neg h2]
      exact ⟨fun h => (by cases h), fun h => absurd h.2 h2⟩

example : readMatchingNocase ⟨true, false⟩ [73, 110, 70, 33] [105, 110, 102] = some [33] :=
  (C40_other_sources _ (by decide) _ [105, 110, 102] (by decide)).2
    ⟨by decide, by decide⟩

end Scn
