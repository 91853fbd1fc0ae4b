import Verif.Lemmas.LeadingZeros
import Verif.Lemmas.Advance
import Verif.Lemmas.Widen
import Verif.Spec.MinusSign
/-
Helper lemmas: integers with a minus sign.
-/
namespace Scn
open Spec

theorem std_pow {T : IntTy} (hT : T.Std) : 2 ^ (T.bits - 1) < 2 ^ 64 := by
  rcases hT with h | h | h | h <;> rw [h] <;> decide

theorem inRange_pos {T : IntTy} (hs : T.signed = true) (n : Nat) : InRange T (signed false n) ↔ n < 2 ^ (T.bits - 1) := by
  unfold InRange
  rw [hs, if_pos rfl]
  have h0 : signed false n = (n : Int) := rfl
  have hp : ((2 ^ (T.bits - 1) : Nat) : Int) = (2 : Int) ^ (T.bits - 1) := by rw [Int.natCast_pow]; rfl
  rw [h0, ← hp]
  omega

theorem inRange_neg {T : IntTy} (hs : T.signed = true) (n : Nat) : InRange T (signed true n) ↔ n ≤ 2 ^ (T.bits - 1) := by
  unfold InRange
  rw [hs, if_pos rfl]
  have h0 : signed true n = -(n : Int) := rfl
  have hp : ((2 ^ (T.bits - 1) : Nat) : Int) = (2 : Int) ^ (T.bits - 1) := by rw [Int.natCast_pow]; rfl
  have h1 : 0 < 2 ^ (T.bits - 1) := Nat.two_pow_pos _
  rw [h0, ← hp]
  omega

/-- Digits that are a number are its opposite behind a minus sign. -/
theorem scanDigitsW_minus {T : IntTy} (hT : T.Std) (hs : T.signed = true) {b : Nat} {t r : List Nat} {v : Int} (h : scanDigitsW T false b t = .ok (v, r)) :
    scanDigitsW T true b t = .ok (-v, r) := by
  have hpow := std_pow hT
  unfold scanDigitsW at *
  split at h
  · cases h
  rename_i hne
  rw [if_neg hne]
  simp only [Wraps, inRange_pos hs, inRange_neg hs] at *
  split at h
  · rename_i hr
    cases h
    rw [if_pos (Nat.le_of_lt hr)]; rfl
  rename_i hr
  split at h
  · rename_i hw
    cases h
    rw [if_neg, if_pos ⟨hw.1, hw.2.1, Nat.le_of_lt hw.2.2⟩]
    · rfl
    · intro hle
      have := hw.2.2
      rw [Nat.mod_eq_of_lt (by omega)] at this
      exact hr this
  · cases h

/-- Behind a minus sign, the digits are the opposite of what they are without it, or the least value of the type. -/
theorem scanDigitsW_plain {T : IntTy} (hT : T.Std) (hs : T.signed = true) {b : Nat} {t r : List Nat} {x : Int} (h : scanDigitsW T true b t = .ok (x, r)) :
    scanDigitsW T false b t = .ok (-x, r) ∨ x = -(2 ^ (T.bits - 1)) ∧ scanDigitsW T false b t = .err .valuePositiveOverflow := by
  have hpow := std_pow hT
  have hp : ((2 ^ (T.bits - 1) : Nat) : Int) = (2 : Int) ^ (T.bits - 1) := by rw [Int.natCast_pow]; rfl
  have hnn : ∀ n : Nat, -signed true n = signed false n := fun n => Int.neg_neg (n : Int)
  unfold scanDigitsW at *
  split at h
  · cases h
  rename_i hne
  rw [if_neg hne]
  simp only [Wraps, inRange_pos hs, inRange_neg hs] at *
  generalize hV : value b (digitRun b t) = V at *
  split at h
  · rename_i hr
    cases h
    by_cases hlt : V < 2 ^ (T.bits - 1)
    · rw [if_pos hlt, hnn]; exact Or.inl rfl
    · rw [if_neg hlt, if_neg]
      · refine Or.inr ⟨?_, rfl⟩
        rw [← hp, show V = 2 ^ (T.bits - 1) by omega]; rfl
      · intro hw
        have := hw.2.2
        rw [Nat.mod_eq_of_lt (by omega)] at this
        exact hlt this
  rename_i hr
  split at h
  · rename_i hw
    cases h
    rw [if_neg (by omega)]
    by_cases hlt : V % 2 ^ 64 < 2 ^ (T.bits - 1)
    · rw [if_pos ⟨hw.1, hw.2.1, hlt⟩, hnn]; exact Or.inl rfl
    · rw [if_neg fun hx => hlt hx.2.2]
      refine Or.inr ⟨?_, rfl⟩
      have := hw.2.2
      rw [← hp, show V % 2 ^ 64 = 2 ^ (T.bits - 1) by omega]; rfl
  · cases h

theorem scanDigitsW_opposite {T : IntTy} (hT : T.Std) (hs : T.signed = true) (b : Nat) (t : List Nat) :
    OppositeInt T (scanDigitsW T false b t) (scanDigitsW T true b t) := by
  cases h : scanDigitsW T false b t with
  | ok p => exact scanDigitsW_minus hT hs h
  | ub =>
    unfold scanDigitsW at h
    (repeat' split at h) <;> cases h
  | err x =>
    cases h' : scanDigitsW T true b t with
    | ok p =>
      rcases scanDigitsW_plain hT hs (x := p.1) (r := p.2) h' with h1 | ⟨h1, h2⟩
      · rw [h] at h1; cases h1
      · rw [h] at h2; cases h2
        exact Or.inr ⟨p.2, by rw [← h1]⟩
    | ub =>
      unfold scanDigitsW at h'
      (repeat' split at h') <;> cases h'
    | err y =>
      unfold scanDigitsW at h h'
      split at h
      · rename_i hne
        rw [if_pos hne] at h'
        cases h; cases h'; rfl
      · rename_i hne
        rw [if_neg hne] at h'
        simp only [Bool.false_eq_true, if_false] at h
        simp only [if_true] at h'
        (repeat' split at h) <;> cases h
        (repeat' split at h') <;> cases h'
        exact Or.inl rfl

theorem parseIntegerValue_opposite (narrow : Bool) {T : IntTy} (hT : T.Std) (hs : T.signed = true) (b : Nat) {s : List Nat}
    (hbytes : narrow = true → ∀ c ∈ s, c < 256) : OppositeInt T (parseIntegerValue narrow T .plus b s) (parseIntegerValue narrow T .minus b s) := by
  by_cases hne : s = []
  · subst hne; rfl
  by_cases hb : 2 ≤ b ∧ b ≤ 36
  · rw [scanDigitsW_eq narrow T hT .plus b hb.1 hb.2 (fun _ => rfl) s hne hbytes,
      scanDigitsW_eq narrow T hT .minus b hb.1 hb.2 (fun h => by rw [hs] at h; cases h) s hne hbytes]
    exact scanDigitsW_opposite hT hs b s
  · have hb' : b < 2 ∨ 36 < b := by omega
    cases s with
    | nil => exact absurd rfl hne
    | cons c cs => simp [parseIntegerValue, hs, hb', OppositeInt]

theorem oppositeInt_bind {T : IntTy} {a b : Res (Int × List Nat)} (h : OppositeInt T a b) (f : List Nat → List Nat) :
    OppositeInt T (a.bind fun r => .ok (r.1, f r.2)) (b.bind fun r => .ok (r.1, f r.2)) := by
  cases a with
  | ok p =>
    have h : b = _ := h
    subst h; rfl
  | ub =>
    have h : b = _ := h
    subst h; rfl
  | err x =>
    cases x <;> first
      | (have h : b = _ := h
         subst h; rfl)
      | (rcases h with h | ⟨r, h⟩
         · subst h; exact Or.inl rfl
         · subst h; exact Or.inr ⟨_, rfl⟩)

theorem afterSignPrefix_minus (k : Src) (t : List Nat) (base : Nat) :
    afterSignPrefix k t base .minus = { afterSignPrefix k t base .plus with sign := .minus } := by
  unfold afterSignPrefix
  dsimp only
  (repeat' split) <;> rfl

theorem readInt_refused (k : Src) {T : IntTy} {sp : IntSpecs} (hn : T.signed = false ∨ sp.unsignedOnly = true) {t : List Nat} :
    readInt k T sp (45 :: t) = .err .invalidScannedValue := by
  unfold readInt
  rw [parseIntegerPrefix_eq]
  simp only [true_or, if_true]
  rw [if_pos ⟨afterSignPrefix_sign k t sp.base .minus, hn⟩]

theorem readInt_opposite (k : Src) {T : IntTy} (hT : T.Std) (hs : T.signed = true) {sp : IntSpecs} (hsp : sp.unsignedOnly = false) {c : Nat} {cs : List Nat}
    (hc : c ≠ 43 ∧ c ≠ 45) (hu : k.narrow = true → ∀ x ∈ c :: cs, x < 256) : OppositeInt T (readInt k T sp (c :: cs)) (readInt k T sp (45 :: c :: cs)) := by
  have h1 := parseIntegerPrefix_eq k (c :: cs) sp.base
  have h2 := parseIntegerPrefix_eq k (45 :: c :: cs) sp.base
  simp only [hc.1, hc.2, or_self, if_false] at h1
  simp only [true_or, if_true] at h2
  rw [afterSignPrefix_minus] at h2
  have hsuf := (parseIntegerPrefix_suffix h1).1
  have hsign := afterSignPrefix_sign k (c :: cs) sp.base .plus
  generalize afterSignPrefix k (c :: cs) sp.base .plus = p at *
  obtain ⟨rest, b, sg, z⟩ := p
  dsimp only at hsign hsuf
  subst hsign
  have hr : k.narrow = true → ∀ x ∈ rest, x < 256 := fun hk x hx => hu hk x (hsuf.subset hx)
  unfold readInt
  rw [h1, h2]
  simp only [hs, hsp, Bool.false_eq_true, Bool.true_eq_false, or_self, and_false, if_false]
  cases z with
  | true => rfl
  | false =>
    simp only [Bool.false_eq_true, if_false]
    cases sp.thsep with
    | none =>
      dsimp only
      unfold digitsWithoutThsep
      split
      · cases rest with
        | nil => rfl
        | cons x xs => exact oppositeInt_bind (parseIntegerValue_opposite k.narrow hT hs b hr) fun r => (x :: xs).drop ((x :: xs).length - r.length)
      · cases hd : rest.takeWhile (fun c => charToInt c < b) with
        | nil => rfl
        | cons x xs =>
          refine oppositeInt_bind (parseIntegerValue_opposite k.narrow hT hs b fun hk y hy => ?_) fun r => rest.drop ((x :: xs).length - r.length)
          rw [← hd] at hy
          exact hr hk y ((List.takeWhile_prefix _).subset hy)
    | some sep =>
      dsimp only
      have hm := thsepLoop_mem sep b rest
      cases hd : (thsepLoop sep b rest).2.1 with
      | nil => rfl
      | cons x xs =>
        refine oppositeInt_bind (parseIntegerValue_opposite k.narrow hT hs b fun hk y hy => ?_)
          fun r => rest.drop ((x :: xs).length - r.length + (thsepLoop sep b rest).2.2)
        rw [← hd] at hy
        exact hr hk y (hm y hy)

end Scn
