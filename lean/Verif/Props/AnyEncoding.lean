import Verif.Lemmas.AnyEncoding
/-
C113: a scan call does the same in every encoding.
The vocabulary is in `Verif/Spec/AnyEncoding.lean` and `Verif/Spec/Calls.lean`.
-/
namespace Scn
open Spec

/-! ### C113 -/

/-- C113, for sources without U+0010 and below 64 arguments: a scan call does the same in every encoding. With the same arguments (strings being
    of the encoding of the source), the same format string and the same source, each in the encoding at hand, the call is undefined at the same
    time, reports the same error, or leaves the same rest of the source, and has stored the same values in the same arguments, as one in
    UTF-32. For integers of any size, `bool`, code points, strings, pointers and floating-point numbers, any specifications without a set,
    a regular expression or `L` that are accepted in every encoding, literal texts of ASCII and whitespace without braces, and contiguous sources.
    Neither the locale nor what was in the arguments has an influence on either side. -/
theorem C113_encodings_partial {ks : List Common} (hk : ∀ k ∈ ks, k.Ok) (h64 : ks.length < 64) {auto : Bool} {xs : List CommonField} (hx : ∀ x ∈ xs, x.Ok ks)
    (hn : Numbered auto (xs.map fun x => x.id) ks.length) {last : List Nat} (hlast : ∀ c ∈ last, (isSpace c = true ∨ c < 128) ∧ IsScalar c ∧ c ≠ 123 ∧ c ≠ 125)
    {src : List Nat} (hsrc : ∀ c ∈ src, IsScalar c ∧ c ≠ 16) (e wide wide' : Enc) (cfg cfg' : RegexCfg) (loc loc' : LocaleData) (old old' : Nat) :
    (vscan (stdEnv e wide cfg loc old (ks.map (Common.dest e))) (callFormat auto (xs.map (CommonField.written e)) (encodes e last)) (encodes e src)).map
        (fun r => (r.1, stored r.2)) =
      (vscan (stdEnv .utf32 wide' cfg' loc' old' (ks.map (Common.dest .utf32))) (callFormat auto (xs.map (CommonField.written .utf32)) last) src).map
        (fun r => resultIn e (r.1, stored r.2)) := by
  have hex : ∀ x, ∃ R, x ∈ xs → ReadsAny R (fieldRead ks x) := by
    intro x
    by_cases hm : x ∈ xs
    · obtain ⟨R, h⟩ := field_any hk (hx x hm)
      exact ⟨R, fun _ => h⟩
    · exact ⟨fun _ => .ub, fun h => absurd h hm⟩
  obtain ⟨R, hR⟩ := Classical.axiomOfChoice hex
  rw [vscan_any hk h64 hx hn hlast hsrc hR e wide cfg loc old]
  have h := vscan_any hk h64 hx hn hlast hsrc hR .utf32 wide' cfg' loc' old'
  rw [encodes_utf32, encodes_utf32, show resultIn Enc.utf32 = id from funext resultIn_utf32, Option.map_id] at h
  rw [← show _ = cpResult _ last src from h, Option.map_map]
  rfl

/-- The fields of "{} {:x}, {:*>6}". -/
def anyFields : List CommonField :=
  [⟨[], 0, none⟩, ⟨[32], 1, some { letter := some 120 }⟩, ⟨[44, 32], 2, some { align := some (some 42, 62), width := some 6 }⟩]

/-- The arguments: a string, an `int` and a `bool`. -/
def anyArgs : List Common := [.string, .int ⟨32, true⟩ .int, .bool]

/-- "{} {:x}, {:*>6}" for a string, an `int` and a `bool`. "é 1F, **true" is read to its end in UTF-8. -/
example : (∀ k ∈ anyArgs, k.Ok) ∧ (∀ x ∈ anyFields, x.Ok anyArgs) ∧ Numbered true (anyFields.map fun x => x.id) anyArgs.length ∧
    callFormat true (anyFields.map (CommonField.written .utf8)) [] = [123, 125, 32, 123, 58, 120, 125, 44, 32, 123, 58, 42, 62, 54, 125] ∧
    (∀ c ∈ [233, 32, 49, 70, 44, 32, 42, 42, 116, 114, 117, 101], IsScalar c ∧ c ≠ 16) ∧
    (((vscan (stdEnv .utf8 .utf32 ⟨false, false, false⟩ ⟨44, 46, [], [], fun _ _ _ _ => .none⟩ 0 (anyArgs.map (Common.dest .utf8)))
      (callFormat true (anyFields.map (CommonField.written .utf8)) []) (encodes .utf8 [233, 32, 49, 70, 44, 32, 42, 42, 116, 114, 117, 101])).map
      fun r => r.1.toOption) = some (some [])) := by
  refine ⟨?_, ?_, ⟨by decide, by decide, by decide, by decide⟩, by decide +kernel, by unfold IsScalar; decide, by decide +kernel⟩
  · intro k hk
    simp only [anyArgs, List.mem_cons, List.not_mem_nil, or_false] at hk
    rcases hk with rfl | rfl | rfl
    · trivial
    · exact ⟨by unfold IntTy.Std; decide, Or.inl rfl⟩
    · trivial
  · intro x hx
    simp only [anyFields, List.mem_cons, List.not_mem_nil, or_false] at hx
    rcases hx with rfl | rfl | rfl
    · exact ⟨fun c hc => (by cases hc), fun w hw => (by cases hw)⟩
    · refine ⟨by unfold IsScalar; decide, fun w hw => ?_⟩
      cases hw
      refine ⟨rfl, fun e => ⟨by cases e <;> decide +kernel, fun k _ => ⟨fun f a h => (by cases h), fun n h => (by cases h), fun n h => (by cases h), fun h => (by cases h), fun c h => ?_, fun h => ?_⟩⟩⟩
      · cases h; exact ⟨_, rfl⟩
      · exact absurd h (by cases e <;> decide +kernel)
    · refine ⟨by unfold IsScalar; decide, fun w hw => ?_⟩
      cases hw
      refine ⟨rfl, fun e => ⟨by cases e <;> decide +kernel, fun k _ => ⟨fun f a h => ?_, fun n h => ?_, fun n h => (by cases h), fun h => (by cases h), fun c h => (by cases h), fun h => ?_⟩⟩⟩
      · cases h
        refine ⟨by decide, fun cp h => ?_⟩
        cases h
        exact ⟨by unfold IsScalar; decide, by decide, by decide, fun _ => by decide⟩
      · cases h; decide
      · exact absurd h (by cases e <;> decide +kernel)

/-- C113 is violated for U+0010: "{:x}" reads 31 from it and "x1F" in a narrow source, as the code looks for the digit 0 of a prefix with
    `| 0x20`, but fails in a wide one. -/
theorem C113_violated_dle :
    (((vscan (stdEnv .utf8 .utf32 ⟨false, false, false⟩ ⟨44, 46, [], [], fun _ _ _ _ => .none⟩ 0 [.int ⟨32, true⟩ .int]) [123, 58, 120, 125] [16, 120, 49, 70]).map
      fun r => r.1.toOption) = some (some [])) ∧
    (((vscan (stdEnv .utf32 .utf32 ⟨false, false, false⟩ ⟨44, 46, [], [], fun _ _ _ _ => .none⟩ 0 [.int ⟨32, true⟩ .int]) [123, 58, 120, 125] [16, 120, 49, 70]).map
      fun r => r.1.toOption) = some none) := by
  refine ⟨?_, ?_⟩ <;> decide +kernel

/-- C113 is violated for literal texts of several code units: "é{}" matches "é5" in UTF-32, but not in UTF-8 (C24). -/
theorem C113_violated_literal :
    (((vscan (stdEnv .utf8 .utf32 ⟨false, false, false⟩ ⟨44, 46, [], [], fun _ _ _ _ => .none⟩ 0 [.int ⟨32, true⟩ .int])
      (encodes .utf8 [233, 123, 125]) (encodes .utf8 [233, 53])).map fun r => r.1.toOption) = some none) ∧
    (((vscan (stdEnv .utf32 .utf32 ⟨false, false, false⟩ ⟨44, 46, [], [], fun _ _ _ _ => .none⟩ 0 [.int ⟨32, true⟩ .int])
      [233, 123, 125] [233, 53]).map fun r => r.1.toOption) = some (some [])) := by
  refine ⟨?_, ?_⟩ <;> decide +kernel

end Scn
