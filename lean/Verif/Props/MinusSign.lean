import Verif.Lemmas.MinusSign
import Verif.Spec.MinusSign
/-
C117: a minus sign negates the number behind it.
The vocabulary is in `Verif/Spec/MinusSign.lean` and `Verif/Spec/IntScan.lean`.
-/
namespace Scn
open Spec

/-! ### C117 -/

/-- C117, integers of a signed type: in any base, fixed or chosen by the prefix, with and without `L`, on any source, a text behind a minus sign is read as
    the opposite of what it is without: the opposite number, with the same text left; or the same error, but that what is too large becomes too small,
    or the least value of the type. -/
theorem C117_opposite (k : Src) {T : IntTy} (hT : T.Std) (hs : T.signed = true) {sp : IntSpecs} (hsp : sp.unsignedOnly = false) {c : Nat} {cs : List Nat}
    (hc : c ≠ 43 ∧ c ≠ 45) (hu : k.narrow = true → ∀ x ∈ c :: cs, x < 256) : OppositeInt T (readInt k T sp (c :: cs)) (readInt k T sp (45 :: c :: cs)) :=
  readInt_opposite k hT hs hsp hc hu

/-- "127" and "-127", "128" and "-128", "129" and "-129" into 8 bits; "1,0,0" and "-1,0,0" with thousands separators. -/
example : (let rd := readInt ⟨true, true⟩ ⟨8, true⟩ ⟨10, false, none⟩
    rd [49, 50, 55, 33] = .ok (127, [33]) ∧ rd [45, 49, 50, 55, 33] = .ok (-127, [33]) ∧
    rd [49, 50, 56] = .err .valuePositiveOverflow ∧ rd [45, 49, 50, 56] = .ok (-128, []) ∧
    rd [49, 50, 57] = .err .valuePositiveOverflow ∧ rd [45, 49, 50, 57] = .err .valueNegativeOverflow) ∧
    readInt ⟨true, true⟩ ⟨8, true⟩ ⟨10, false, some 44⟩ [49, 44, 48, 44, 48] = .ok (100, []) ∧
    readInt ⟨true, true⟩ ⟨8, true⟩ ⟨10, false, some 44⟩ [45, 49, 44, 48, 44, 48] = .ok (-100, []) := by
  refine ⟨⟨by decide +kernel, by decide +kernel, by decide +kernel, by decide +kernel, by decide +kernel, by decide +kernel⟩, by decide +kernel, by decide +kernel⟩

/-- C117, backwards: if a text with a minus sign is read as a number, the type is signed, the specification is not `u`, and the text behind the sign is read
    as the opposite number, and the same is left, but for the least value of the type, the opposite of which is reported as too large. -/
theorem C117_behind_minus (k : Src) {T : IntTy} (hT : T.Std) {sp : IntSpecs} {c : Nat} {cs r : List Nat} {x : Int} (hc : c ≠ 43 ∧ c ≠ 45)
    (hu : k.narrow = true → ∀ x ∈ c :: cs, x < 256) (h : readInt k T sp (45 :: c :: cs) = .ok (x, r)) :
    T.signed = true ∧ sp.unsignedOnly = false ∧ (readInt k T sp (c :: cs) = .ok (-x, r) ∨
      x = -(2 ^ (T.bits - 1)) ∧ readInt k T sp (c :: cs) = .err .valuePositiveOverflow) := by
  by_cases hn : T.signed = false ∨ sp.unsignedOnly = true
  · rw [readInt_refused k hn] at h; cases h
  have hs : T.signed = true ∧ sp.unsignedOnly = false := by
    cases h1 : T.signed <;> cases h2 : sp.unsignedOnly <;> simp [h1, h2] at hn ⊢
  refine ⟨hs.1, hs.2, ?_⟩
  have ho := readInt_opposite k hT hs.1 hs.2 hc hu
  rw [h] at ho
  cases hp : readInt k T sp (c :: cs) with
  | ok p =>
    rw [hp] at ho
    have ho : Res.ok (x, r) = Res.ok (-p.1, p.2) := ho
    injection ho with ho
    injection ho with ho1 ho2
    subst ho1; subst ho2
    rw [Int.neg_neg]
    exact Or.inl rfl
  | ub => rw [hp] at ho; cases ho
  | err y =>
    rw [hp] at ho
    cases y with
    | valuePositiveOverflow =>
      rcases ho with ho | ⟨r', ho⟩
      · cases ho
      · injection ho with ho
        exact Or.inr ⟨(Prod.mk.inj ho).1, rfl⟩
    | _ => cases ho

/-- "-128" into 8 bits, where "128" is too large, and "-0x10" into 32 bits. -/
example : readInt ⟨true, true⟩ ⟨8, true⟩ ⟨10, false, none⟩ [45, 49, 50, 56] = .ok (-128, []) ∧
    readInt ⟨true, true⟩ ⟨8, true⟩ ⟨10, false, none⟩ [49, 50, 56] = .err .valuePositiveOverflow ∧
    readInt ⟨true, true⟩ ⟨32, true⟩ ⟨0, false, none⟩ [45, 48, 120, 49, 48] = .ok (-16, []) ∧
    readInt ⟨true, true⟩ ⟨32, true⟩ ⟨0, false, none⟩ [48, 120, 49, 48] = .ok (16, []) := by
  refine ⟨by decide +kernel, by decide +kernel, by decide +kernel, by decide +kernel⟩

/-- C117, where a minus sign is refused: for unsigned types and for `u` the error is `invalid_scanned_value`, whatever follows, even zero. -/
theorem C117_refused (k : Src) {T : IntTy} {sp : IntSpecs} (hn : T.signed = false ∨ sp.unsignedOnly = true) (t : List Nat) :
    readInt k T sp (45 :: t) = .err .invalidScannedValue :=
  readInt_refused k hn

/-- "-0" into an unsigned type. -/
example : readInt ⟨true, true⟩ ⟨8, false⟩ ⟨10, false, none⟩ [45, 48] = .err .invalidScannedValue := by decide +kernel

/-- C117 for floating-point numbers: with a minus sign in front of it, a text without a sign is read as the same number with its sign set, the same is left,
    and errors are those of the other side, in any presentation, on any source, whatever the conversions do. `copysign` must set the sign of a number
    whatever its sign was. -/
theorem C117_float {V : Type} (cv : FloatConv V) (hcs : ∀ v, cv.copysign true (cv.copysign false v) = cv.copysign true v) (e : Enc) (k : Src) (seg : Bool)
    (ty : Pres) {c : Nat} {cs : List Nat} (hc : c ≠ 43 ∧ c ≠ 45) :
    OppositeOutcome (cv.copysign true) (readFloatAs cv e k seg .classic ty (c :: cs)) (readFloatAs cv e k seg .classic ty (45 :: c :: cs)) := by
  unfold readFloatAs
  cases floatOptions ty with
  | none => rfl
  | some o =>
    dsimp only
    have h1 : parseNumericSign (45 :: c :: cs) = some (c :: cs, some .minus) := rfl
    have h2 : parseNumericSign (c :: cs) = some (c :: cs, none) := by simp [parseNumericSign, hc.1, hc.2]
    rw [readFloat_eval' cv e k seg o h1, readFloat_eval' cv e k seg o h2]
    cases evalFloat cv e k seg o (c :: cs) with
    | ub => rfl
    | err x => cases x <;> exact ⟨_, rfl, rfl⟩
    | ok p =>
      show Res.ok (cv.copysign true p.1, _) = Res.ok (cv.copysign true (cv.copysign false p.1), _)
      rw [hcs]
      rfl

/-- A conversion with a sign in front of its values: "-info" is the opposite of "info", and "o" is left. -/
example : let cv : FloatConv (List Nat) := { exConv with copysign := fun n v => if n then 45 :: v.filter (· ≠ 45) else v.filter (· ≠ 45) }
    (∀ v, cv.copysign true (cv.copysign false v) = cv.copysign true v) ∧ (105 : Nat) ≠ 43 ∧ (105 : Nat) ≠ 45 ∧
    readFloatAs cv .utf8 ⟨true, true⟩ false .classic .none [105, 110, 102, 111] = .ok ([105], [111]) ∧
    readFloatAs cv .utf8 ⟨true, true⟩ false .classic .none [45, 105, 110, 102, 111] = .ok ([45, 105], [111]) :=
  ⟨fun v => by simp, by decide, by decide, rfl, rfl⟩

end Scn
