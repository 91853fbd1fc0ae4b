import Verif.Lemmas.LeadingZeros
import Verif.Spec.LeadingZeros
/-
C116: a plus sign, leading zeros and the prefix of the base make no difference.
The vocabulary is in `Verif/Spec/LeadingZeros.lean` and `Verif/Spec/IntScan.lean`.
-/
namespace Scn
open Spec

/-! ### C116 -/

/-- C116, leading zeros: in any fixed base, with any sign or none, in front of a digit, any number of zeros makes no difference, neither to the
    value nor to what is left nor to the error, whatever follows, on any source. The text behind the zeros must not begin with a prefix. -/
theorem C116_leading_zeros (k : Src) {T : IntTy} (hT : T.Std) {b : Nat} (hb : 2 ≤ b ∧ b ≤ 36) (uo : Bool) {sg : List Nat} (hsg : SignText sg) (n : Nat) {d : Nat}
    {r : List Nat} (hd : IsDigit b d) (hp : Unprefixed b (d :: r)) (hu : k.narrow = true → ∀ c ∈ r, c < 256) :
    readInt k T ⟨b, uo, none⟩ (sg ++ List.replicate n 48 ++ d :: r) = readInt k T ⟨b, uo, none⟩ (sg ++ d :: r) := by
  by_cases hn : n = 0
  · subst hn; rw [List.replicate_zero, List.append_nil]
  have hd' := digit_not_sign hd
  have hdl := digit_not_letter hd
  have hcons : List.replicate n 48 ++ d :: r = 48 :: (List.replicate (n - 1) 48 ++ d :: r) := by
    obtain ⟨m, rfl⟩ : ∃ m, n = m + 1 := ⟨n - 1, by omega⟩
    rfl
  have hd256 : d < 256 := by
    obtain ⟨v, hv, _⟩ := hd
    unfold digit? at hv
    (repeat' split at hv) <;> first | omega | cases hv
  have hsgm : ∀ c ∈ sg, c < 256 := by
    rcases hsg with rfl | rfl | rfl <;> decide
  have hsign : ∀ c cs, c ≠ 43 → c ≠ 45 → afterSign (sg ++ c :: cs) = c :: cs := by
    intro c cs h1 h2
    rcases hsg with rfl | rfl | rfl <;> simp [afterSign, h1, h2]
  rw [readInt_W k T hT b uo _ (Or.inr hb), readInt_W k T hT b uo _ (Or.inr hb), List.append_assoc, hcons, scanIntW_sign T b uo hsg (by decide),
    scanIntW_sign T b uo hsg ⟨hd'.1, hd'.2.1⟩, ← hcons]
  · have hpl := unprefixed_hasPrefix hp
    rw [chooseBase_plain (t := d :: r) (by omega) hpl.1 hpl.2.1 hpl.2.2, chooseBase_plain (t := List.replicate n 48 ++ d :: r) (by omega)]
    · rw [scanDigitsW_zeros T _ hb.1 hd n]
    · intro hx; subst hx; exact zeros_head hn 120 88 ⟨by decide, by decide, hdl.1 rfl⟩
    · intro hx; subst hx; exact zeros_head hn 98 66 ⟨by decide, by decide, hdl.2.1 rfl⟩
    · intro hx; subst hx; exact zeros_head hn 111 79 ⟨by decide, by decide, hdl.2.2 rfl⟩
  · intro _ _ hx
    rw [hsign d r hd'.1 hd'.2.1] at hx
    exact hd'.2.2 (Option.some.inj hx)
  · intro hk c hc
    rcases List.mem_append.1 hc with hc | hc
    · exact hsgm c hc
    · rcases List.mem_cons.1 hc with rfl | hc
      · exact hd256
      · exact hu hk c hc
  · intro _ _ hx
    rw [List.append_assoc, hcons, hsign 48 _ (by decide) (by decide)] at hx
    cases hx
  · intro hk c hc
    simp only [List.mem_append, List.mem_replicate, List.mem_cons] at hc
    rcases hc with (hc | ⟨_, rfl⟩) | rfl | hc
    · exact hsgm c hc
    · decide
    · exact hd256
    · exact hu hk c hc

/-- "-0007f" and "-7f" in base 16. -/
example : SignText [45] ∧ IsDigit 16 55 ∧ Unprefixed 16 [55, 102] ∧
    readInt ⟨true, true⟩ ⟨8, true⟩ ⟨16, false, none⟩ [45, 48, 48, 48, 55, 102] = .ok (-127, []) := by
  refine ⟨Or.inr (Or.inr rfl), by decide, fun p d r h1 h2 h3 => ?_, by decide +kernel⟩
  rcases h1 with rfl | rfl <;> cases (List.cons.inj h3).1

/-- C116, prefixes: in the bases 2, 8 and 16, a prefix of the base in front of a digit makes no difference, with any sign or none, whatever follows,
    on any source. -/
theorem C116_prefix (k : Src) {T : IntTy} (hT : T.Std) {b : Nat} (uo : Bool) {sg p : List Nat} (hsg : SignText sg) (hpre : PrefixOf b p) {d : Nat} {r : List Nat}
    (hd : IsDigit b d) (hp : Unprefixed b (d :: r)) (hu : k.narrow = true → ∀ c ∈ r, c < 256) :
    readInt k T ⟨b, uo, none⟩ (sg ++ p ++ d :: r) = readInt k T ⟨b, uo, none⟩ (sg ++ d :: r) ∧
      readInt k T ⟨0, uo, none⟩ (sg ++ p ++ d :: r) = readInt k T ⟨b, uo, none⟩ (sg ++ d :: r) := by
  have hd' := digit_not_sign hd
  have hd256 : d < 256 := by
    obtain ⟨v, hv, _⟩ := hd
    unfold digit? at hv
    (repeat' split at hv) <;> first | omega | cases hv
  have hsgm : ∀ c ∈ sg, c < 256 := by
    rcases hsg with rfl | rfl | rfl <;> decide
  have hsign : ∀ c cs, c ≠ 43 → c ≠ 45 → afterSign (sg ++ c :: cs) = c :: cs := by
    intro c cs h1 h2
    rcases hsg with rfl | rfl | rfl <;> simp [afterSign, h1, h2]
  obtain ⟨l, rfl, hl, hb⟩ : ∃ l, p = [48, l] ∧ l < 256 ∧ (b = 16 ∧ (l = 120 ∨ l = 88) ∨ b = 2 ∧ (l = 98 ∨ l = 66) ∨ b = 8 ∧ (l = 111 ∨ l = 79)) := by
    unfold PrefixOf at hpre
    split at hpre
    · rcases hpre with rfl | rfl <;> exact ⟨_, rfl, by decide, by decide⟩
    · rcases hpre with rfl | rfl <;> exact ⟨_, rfl, by decide, by decide⟩
    · rcases hpre with rfl | rfl <;> exact ⟨_, rfl, by decide, by decide⟩
    · exact hpre.elim
  have hb36 : 2 ≤ b ∧ b ≤ 36 := by omega
  have hbytes : k.narrow = true → ∀ c ∈ sg ++ [48, l] ++ d :: r, c < 256 := by
    intro hk c hc
    simp only [List.mem_append, List.mem_cons, List.not_mem_nil, or_false] at hc
    rcases hc with (hc | rfl | rfl) | rfl | hc
    · exact hsgm c hc
    · decide
    · exact hl
    · exact hd256
    · exact hu hk c hc
  have hq : k.contiguous = true → k.narrow = true → (afterSign (sg ++ [48, l] ++ d :: r)).head? ≠ some 16 := by
    intro _ _ hx
    rw [List.append_assoc, show [48, l] ++ d :: r = 48 :: l :: d :: r from rfl, hsign 48 _ (by decide) (by decide)] at hx
    cases hx
  have hplain : readInt k T ⟨b, uo, none⟩ (sg ++ d :: r) = scanIntW T b uo (sg ++ d :: r) := by
    refine readInt_W k T hT b uo _ (Or.inr hb36) ?_ ?_
    · intro _ _ hx
      rw [hsign d r hd'.1 hd'.2.1] at hx
      exact hd'.2.2 (Option.some.inj hx)
    · intro hk c hc
      rcases List.mem_append.1 hc with hc | hc
      · exact hsgm c hc
      · rcases List.mem_cons.1 hc with rfl | hc
        · exact hd256
        · exact hu hk c hc
  have hpl := unprefixed_hasPrefix hp
  have hc0 := chooseBase_plain (t := d :: r) (by omega) hpl.1 hpl.2.1 hpl.2.2
  have hcb : chooseBase b (48 :: l :: d :: r) = (b, d :: r) ∧ chooseBase 0 (48 :: l :: d :: r) = (b, d :: r) := by
    have hH : ∀ lo up B, HasPrefix lo up B (48 :: l :: d :: r) ↔ ((l = lo ∨ l = up) ∧ IsDigit B d) := fun lo up B =>
      ⟨fun h => ⟨h.2.1, h.2.2⟩, fun h => ⟨rfl, h.1, h.2⟩⟩
    rcases hb with ⟨rfl, hl'⟩ | ⟨rfl, hl'⟩ | ⟨rfl, hl'⟩
    · have h1 : HasPrefix 120 88 16 (48 :: l :: d :: r) := (hH _ _ _).2 ⟨hl', hd⟩
      constructor
      · unfold chooseBase; rw [if_pos rfl, if_pos h1]; rfl
      · unfold chooseBase; rw [if_neg (by decide), if_neg (by decide), if_neg (by decide), if_pos rfl, if_pos h1]; rfl
    · have h0 : ¬ HasPrefix 120 88 16 (48 :: l :: d :: r) := fun h => by have := ((hH _ _ _).1 h).1; omega
      have h1 : HasPrefix 98 66 2 (48 :: l :: d :: r) := (hH _ _ _).2 ⟨hl', hd⟩
      constructor
      · unfold chooseBase; rw [if_neg (by decide), if_pos rfl, if_pos h1]; rfl
      · unfold chooseBase; rw [if_neg (by decide), if_neg (by decide), if_neg (by decide), if_pos rfl, if_neg h0, if_pos h1]; rfl
    · have h0 : ¬ HasPrefix 120 88 16 (48 :: l :: d :: r) := fun h => by have := ((hH _ _ _).1 h).1; omega
      have h0' : ¬ HasPrefix 98 66 2 (48 :: l :: d :: r) := fun h => by have := ((hH _ _ _).1 h).1; omega
      have h1 : HasPrefix 111 79 8 (48 :: l :: d :: r) := (hH _ _ _).2 ⟨hl', hd⟩
      constructor
      · unfold chooseBase; rw [if_neg (by decide), if_neg (by decide), if_pos rfl, if_pos h1]; rfl
      · unfold chooseBase; rw [if_neg (by decide), if_neg (by decide), if_neg (by decide), if_pos rfl, if_neg h0, if_neg h0', if_pos h1]; rfl
  have happ : sg ++ [48, l] ++ d :: r = sg ++ 48 :: l :: d :: r := by rw [List.append_assoc]; rfl
  rw [readInt_W k T hT b uo _ (Or.inr hb36) hq hbytes, readInt_W k T hT 0 uo _ (Or.inl rfl) hq hbytes, hplain, happ, scanIntW_sign T b uo hsg (by decide),
    scanIntW_sign T 0 uo hsg (by decide), scanIntW_sign T b uo hsg ⟨hd'.1, hd'.2.1⟩, hcb.1, hcb.2, hc0]
  exact ⟨rfl, rfl⟩

/-- "-0X7f" and "-7f" in base 16, and "0b1" and "1" in base 2. -/
example : PrefixOf 16 [48, 88] ∧ PrefixOf 2 [48, 98] ∧ IsDigit 2 49 ∧ Unprefixed 2 [49] ∧ Unprefixed 16 [55, 102] ∧
    readInt ⟨true, true⟩ ⟨8, true⟩ ⟨0, false, none⟩ [45, 48, 88, 55, 102] = .ok (-127, []) := by
  refine ⟨Or.inr rfl, Or.inl rfl, by decide, fun p d r h1 h2 h3 => ?_, fun p d r h1 h2 h3 => ?_, by decide +kernel⟩
  · rcases h1 with rfl | rfl <;> cases (List.cons.inj h3).1
  · rcases h1 with rfl | rfl <;> cases (List.cons.inj h3).1

/-- C116, plus signs: in any base or with the base chosen by the prefix, with and without `L`, a plus sign in front of a text without a sign makes
    no difference, for any type, on any source, well-formed or not. -/
theorem C116_plus (k : Src) (T : IntTy) (sp : IntSpecs) {c : Nat} {cs : List Nat} (hc : c ≠ 43 ∧ c ≠ 45) :
    readInt k T sp (43 :: c :: cs) = readInt k T sp (c :: cs) := by
  have h1 : parseNumericSign (43 :: c :: cs) = some (c :: cs, some .plus) := rfl
  have h2 : parseNumericSign (c :: cs) = some (c :: cs, none) := by simp [parseNumericSign, hc.1, hc.2]
  have h3 : parseIntegerPrefix k (43 :: c :: cs) sp.base = parseIntegerPrefix k (c :: cs) sp.base := by
    unfold parseIntegerPrefix
    rw [h1, h2]
    rfl
  unfold readInt
  rw [h3]

/-- "+0x1g" and "0x1g", into an unsigned type, with the base chosen by the prefix. -/
example : (48 : Nat) ≠ 43 ∧ (48 : Nat) ≠ 45 ∧
    readInt ⟨true, true⟩ ⟨16, false⟩ ⟨0, true, none⟩ [43, 48, 120, 49, 103] = .ok (1, [103]) ∧
    readInt ⟨true, true⟩ ⟨16, false⟩ ⟨0, true, none⟩ [48, 120, 49, 103] = .ok (1, [103]) := by
  refine ⟨by decide, by decide, by decide +kernel, by decide +kernel⟩

/-- C116 for floating-point numbers: a plus sign in front of a text without a sign makes no difference, in any presentation, on any source, whatever the
    conversions do. -/
theorem C116_plus_float {V : Type} (cv : FloatConv V) (e : Enc) (k : Src) (seg : Bool) (ty : Pres) {c : Nat} {cs : List Nat} (hc : c ≠ 43 ∧ c ≠ 45) :
    readFloatAs cv e k seg .classic ty (43 :: c :: cs) = readFloatAs cv e k seg .classic ty (c :: cs) := by
  unfold readFloatAs
  cases floatOptions ty with
  | none => rfl
  | some o =>
    dsimp only
    have h1 : parseNumericSign (43 :: c :: cs) = some (c :: cs, some .plus) := rfl
    have h2 : parseNumericSign (c :: cs) = some (c :: cs, none) := by simp [parseNumericSign, hc.1, hc.2]
    rw [readFloat_eval' cv e k seg o h1, readFloat_eval' cv e k seg o h2]
    cases evalFloat cv e k seg o (c :: cs) with
    | ub => rfl
    | err x => cases x <;> rfl
    | ok p => rfl

/-- "+info" and "info" are an infinity, and "o" is left. -/
example : (105 : Nat) ≠ 43 ∧ (105 : Nat) ≠ 45 ∧ readFloatAs exConv .utf8 ⟨true, true⟩ false .classic .none [43, 105, 110, 102, 111] = .ok ([105], [111]) ∧
    readFloatAs exConv .utf8 ⟨true, true⟩ false .classic .none [105, 110, 102, 111] = .ok ([105], [111]) :=
  ⟨by decide, by decide, rfl, rfl⟩

/-- C116 is about fixed bases: with the base chosen by the prefix, a leading zero means base 8. -/
theorem C116_fixed_base_needed :
    readInt ⟨true, true⟩ ⟨32, true⟩ ⟨0, false, none⟩ [49, 48] = .ok (10, []) ∧ readInt ⟨true, true⟩ ⟨32, true⟩ ⟨0, false, none⟩ [48, 49, 48] = .ok (8, []) := by
  refine ⟨by decide +kernel, by decide +kernel⟩

end Scn
