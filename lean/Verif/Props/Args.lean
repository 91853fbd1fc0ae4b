import Verif.Lemmas.Args
/-
C52 and C53: looking up arguments, and error conditions.
-/
namespace Scn

/-- C52: whatever the number and the types of the destinations (there is no destination of type `none`),
    looking up `id` is defined and yields the type and the address of destination `id`, and "no argument" if
    there is none, in each of the three representations; the size is the number of destinations. -/
theorem C52_lookup (as : List (ArgTy × Nat)) (ht : ∀ a ∈ as, a.1 ≠ .none) (hn : as.length < 2 ^ 62) :
    ∃ desc, storeDesc (as.map Prod.fst) = some desc ∧ argsSize desc = as.length ∧
      ∀ id, argsGet desc (storeData as) id = some ((as[id]?).map fun a => (a.1.code, a.2)) := by
  obtain ⟨ts, hts⟩ : ∃ ts, ts = as.map Prod.fst := ⟨_, rfl⟩
  have hlen : ts.length = as.length := by rw [hts]; simp
  have hget : ∀ id : Nat, ts[id]? = (as[id]?).map Prod.fst := by intro id; rw [hts]; simp
  by_cases hbig : ts.length > maxPackedArgs
  · -- unpacked
    have hk : storeKind ts = .unpacked := by unfold storeKind; rw [if_pos hbig]
    have hp : isPacked (ts.length ||| isUnpackedBit) = false := by
      rw [isPacked_eq, Nat.testBit_or, show isUnpackedBit.testBit 63 = true by decide, Bool.or_true]; rfl
    have hmax := maxSize_unpacked ts.length (by omega)
    refine ⟨ts.length ||| isUnpackedBit, by rw [← hts]; unfold storeDesc; rw [hk], ?_, ?_⟩
    · unfold argsSize; rw [if_pos hp, hmax, hlen]
    · intro id
      have hd : storeData as = .args as := by unfold storeData; rw [← hts, hk]
      unfold argsGet
      rw [if_pos hp, hmax, hd]
      by_cases hid : id < ts.length
      · rw [if_pos hid]
        have : id < as.length := by omega
        simp [ArgData.argAt, this]
      · rw [if_neg hid, List.getElem?_eq_none (by omega)]; rfl
  · -- packed
    have hsmall : ts.length ≤ maxPackedArgs := by omega
    have h11 : ts.length ≤ 11 := hsmall
    obtain ⟨he, hlt⟩ := encodeTypes_eq ts hsmall
    have hnone : ∀ id : Nat, ((ts[id]?).map ArgTy.code).getD 0 = 0 → as[id]? = none := by
      intro id h
      rw [hget] at h
      cases ha : as[id]? with
      | none => rfl
      | some a =>
        rw [ha] at h
        have h' : a.1.code = ArgTy.none.code := h
        exact absurd (code_inj _ _ h') (ht a (List.mem_of_getElem? ha))
    have key : ∀ (hi : Nat), (∃ k, hi = k * 32 ^ 12) → ∀ desc, desc = ts.length + 32 * packed ts + hi → isPacked desc = true →
        (∀ (id : Nat) a, as[id]? = some a → (if isOnlyBuiltin desc = true then
            ((storeData as).builtinAt id).map (fun x => some (typeCode desc id, x))
          else ((storeData as).valueAt id).map fun x => some (typeCode desc id, x)) = some (some (typeCode desc id, a.2))) →
        argsSize desc = as.length ∧ ∀ id, argsGet desc (storeData as) id = some ((as[id]?).map fun a => (a.1.code, a.2)) := by
      rintro hi ⟨k, rfl⟩ desc hdesc hpk hdata
      have htc : ∀ i : Nat, i < 11 → typeCode desc i = ((ts[i]?).map ArgTy.code).getD 0 := by
        intro i hi
        rw [hdesc, typeCode_eq _ _ _ (by omega) ⟨k, rfl⟩ i hi, packed_digit]
      refine ⟨?_, ?_⟩
      · unfold argsSize
        rw [if_neg (by simp [hpk]), show 1 <<< packedArgBits - 1 = 2 ^ 5 - 1 by decide, Nat.and_two_pow_sub_one_eq_mod, hdesc]
        omega
      · intro id
        unfold argsGet
        rw [if_neg (by simp [hpk])]
        by_cases hid : id ≥ maxPackedArgs
        · rw [if_pos hid, List.getElem?_eq_none (by omega)]; rfl
        · have hid' : id < 11 := by have : maxPackedArgs = 11 := rfl; omega
          rw [if_neg hid]
          by_cases hz : typeCode desc id = ArgTy.none.code
          · rw [if_pos hz]
            rw [htc id hid'] at hz
            rw [hnone id hz]; rfl
          · rw [if_neg hz]
            cases ha : as[id]? with
            | none =>
              rw [htc id hid', hget, ha] at hz
              exact absurd rfl hz
            | some a =>
              rw [hdata id a ha, htc id hid', hget, ha]; rfl
    by_cases hall : ts.all (fun t => decide (t ≠ .custom)) = true
    · have hk : storeKind ts = .builtin := by unfold storeKind; rw [if_neg hbig, if_pos hall]
      have hd : storeData as = .builtins (as.map Prod.snd) := by unfold storeData; rw [← hts, hk]
      have hb62 : (ts.length + 32 * packed ts).testBit 62 = false := testBit_of_lt hlt (by decide)
      have hb63 : (ts.length + 32 * packed ts).testBit 63 = false := testBit_of_lt hlt (by decide)
      refine ⟨ts.length + 32 * packed ts, by rw [← hts]; unfold storeDesc; rw [hk]; exact he, ?_⟩
      refine key 0 ⟨0, by omega⟩ _ (by omega) (by rw [isPacked_eq, hb63]; rfl) ?_
      intro id a ha
      rw [if_pos (by rw [isOnlyBuiltin_eq, hb62]; rfl), hd]
      simp [ArgData.builtinAt, ha]
    · have hk : storeKind ts = .packed := by unfold storeKind; rw [if_neg hbig, if_neg hall]
      have hd : storeData as = .values (as.map Prod.snd) := by unfold storeData; rw [← hts, hk]
      have hsum : ts.length + 32 * packed ts ||| hasCustomTypesBit = ts.length + 32 * packed ts + 4 * 32 ^ 12 := by
        rw [Nat.or_comm, show hasCustomTypesBit = 1 <<< 62 by decide,
          ← Nat.shiftLeft_add_eq_or_of_lt (Nat.lt_of_lt_of_le hlt (by decide))]
        have : (1 <<< 62 : Nat) = 4 * 32 ^ 12 := by decide
        omega
      have hb62 : (ts.length + 32 * packed ts ||| hasCustomTypesBit).testBit 62 = true := by
        rw [Nat.testBit_or, show hasCustomTypesBit.testBit 62 = true by decide, Bool.or_true]
      have hb63 : (ts.length + 32 * packed ts ||| hasCustomTypesBit).testBit 63 = false := by
        rw [Nat.testBit_or, show hasCustomTypesBit.testBit 63 = false by decide]
        have : (ts.length + 32 * packed ts).testBit 63 = false := testBit_of_lt hlt (by decide)
        rw [this]; rfl
      refine ⟨ts.length + 32 * packed ts ||| hasCustomTypesBit, by
        rw [← hts]; unfold storeDesc; rw [hk]; dsimp only; rw [he]; rfl, ?_⟩
      refine key (4 * 32 ^ 12) ⟨4, rfl⟩ _ hsum (by rw [isPacked_eq, hb63]; rfl) ?_
      intro id a ha
      rw [if_neg (by rw [isOnlyBuiltin_eq, hb62]; decide), hd]
      simp [ArgData.valueAt, ha]

/-- Eleven arguments fit the packed form, with a custom one among them; a twelfth does not. -/
example : storeKind (ArgTy.custom :: List.replicate 10 .int) = .packed ∧ storeKind (List.replicate 12 ArgTy.int) = .unpacked ∧
    storeKind [.int, .double] = .builtin ∧
    (∀ a ∈ [(ArgTy.custom, 1000), (.int, 1008)], a.1 ≠ .none) ∧
    argsGet ((storeDesc [.custom, .int]).getD 0) (storeData [(.custom, 1000), (.int, 1008)]) 1 = some (some (ArgTy.int.code, 1008)) ∧
    argsGet ((storeDesc [.custom, .int]).getD 0) (storeData [(.custom, 1000), (.int, 1008)]) 2 = some none := by decide +kernel

/-- C52: the enumerator values tell the types apart. -/
theorem C52_type_codes (t u : ArgTy) : t.code = u.code ↔ t = u := ⟨code_inj t u, fun h => by rw [h]⟩

/-- The conditions by what the documentation of the codes says (/repo/include/scn/scan.h:3688-3734): a value
    out of range, a source in an invalid state, anything else. -/
def Spec.isRangeError : Err → Prop
  | .valuePositiveOverflow | .valueNegativeOverflow | .valuePositiveUnderflow | .valueNegativeUnderflow => True
  | _ => False

/-- C53: every error code has a condition: `result_out_of_range` exactly for the codes "value out of range",
    `io_error` exactly for "source range is in an invalid state", `invalid_argument` for all others. -/
theorem C53_conditions (e : Err) :
    (e.toErrc = .resultOutOfRange ↔ Spec.isRangeError e) ∧ (e.toErrc = .ioError ↔ e = .invalidSourceState) ∧
      (e.toErrc = .invalidArgument ↔ ¬ Spec.isRangeError e ∧ e ≠ .invalidSourceState) := by
  cases e <;> simp [Err.toErrc, Spec.isRangeError]

example : Spec.isRangeError .valuePositiveUnderflow ∧ ¬ Spec.isRangeError .invalidFill := ⟨trivial, id⟩

end Scn
