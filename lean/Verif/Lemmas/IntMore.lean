import Verif.Lemmas.IntReader
/-
Helper lemmas: digits with separators and the unchecked decimal parser.
-/
namespace Scn
open Spec

theorem thsepLoop_eq (sep b : Nat) (hb : b ≤ 255) (s : List Nat) :
    thsepLoop sep b s = (afterSepRun sep b s, (sepRun sep b s).filter (fun c => c ≠ sep),
      (sepRun sep b s).length - ((sepRun sep b s).filter (fun c => c ≠ sep)).length) := by
  induction s with
  | nil => rfl
  | cons c cs ih =>
    unfold afterSepRun sepRun at *
    rw [thsepLoop, ih]
    have hle := List.length_filter_le (fun c => decide (c ≠ sep))
      (cs.takeWhile (fun c => decide (c = sep ∨ IsDigit b c)))
    by_cases h1 : c = sep
    · rw [if_pos h1, List.dropWhile_cons_of_pos (by simp [h1]),
        List.takeWhile_cons_of_pos (by simp [h1]), List.filter_cons_of_neg (by simp [h1]),
        List.length_cons]
      simp only [Prod.mk.injEq, true_and]
      omega
    · rw [if_neg h1]
      by_cases h2 : charToInt c < b
      · have h3 := (charToInt_lt_iff b c hb).1 h2
        rw [if_neg (by omega), List.dropWhile_cons_of_pos (by simp [h3]),
          List.takeWhile_cons_of_pos (by simp [h3]), List.filter_cons_of_pos (by simp [h1]),
          List.length_cons, List.length_cons]
        simp only [Prod.mk.injEq, true_and]
        omega
      · have h3 : ¬ IsDigit b c := fun h => h2 ((charToInt_lt_iff b c hb).2 h)
        rw [if_pos (by omega), List.dropWhile_cons_of_neg (by simp [h1, h3]),
          List.takeWhile_cons_of_neg (by simp [h1, h3])]
        rfl

theorem mem_sepRun {sep b c : Nat} {s : List Nat} (h : c ∈ sepRun sep b s) :
    c = sep ∨ IsDigit b c := by
  unfold sepRun at h
  induction s with
  | nil => simp at h
  | cons x xs ih =>
    by_cases hx : x = sep ∨ IsDigit b x
    · rw [List.takeWhile_cons_of_pos (by simpa using hx)] at h
      rcases List.mem_cons.1 h with rfl | h
      · exact hx
      · exact ih h
    · rw [List.takeWhile_cons_of_neg (by simpa using hx)] at h
      simp at h

theorem sepRun_append (sep b : Nat) (s : List Nat) :
    sepRun sep b s ++ afterSepRun sep b s = s := List.takeWhile_append_dropWhile

theorem sepRun_of_run (sep b : Nat) (run rest : List Nat)
    (h : ∀ c ∈ run, c = sep ∨ IsDigit b c)
    (hr : ∀ c, rest.head? = some c → ¬ (c = sep ∨ IsDigit b c)) :
    sepRun sep b (run ++ rest) = run ∧ afterSepRun sep b (run ++ rest) = rest := by
  unfold sepRun afterSepRun
  induction run with
  | nil =>
    cases rest with
    | nil => simp
    | cons c cs =>
      have := hr c rfl
      rw [List.nil_append, List.takeWhile_cons_of_neg (by simpa using this),
        List.dropWhile_cons_of_neg (by simpa using this)]
      exact ⟨rfl, rfl⟩
  | cons c cs ih =>
    have hc := h c (by simp)
    obtain ⟨h1, h2⟩ := ih (fun x hx => h x (by simp [hx]))
    rw [List.cons_append, List.takeWhile_cons_of_pos (by simpa using hc),
      List.dropWhile_cons_of_pos (by simpa using hc), h1, h2]
    exact ⟨rfl, rfl⟩

/-- What is done after the prefix with a separator. -/
def readSep (k : Src) (T : IntTy) (sign : Sign) (base sep : Nat) (rest : List Nat) :
    Res (Int × List Nat) :=
  let d := thsepLoop sep base rest
  match d.2.1 with
  | [] => .err .invalidScannedValue
  | ds =>
    (parseIntegerValue k.narrow T sign base ds).bind fun r =>
      .ok (r.1, rest.drop (ds.length - r.2.length + d.2.2))

theorem readSep_spec (k : Src) (T : IntTy) (hT : T.Std) (sign : Sign) (b sep : Nat)
    (h2 : 2 ≤ b) (h36 : b ≤ 36) (hsign : T.signed = false → sign = .plus)
    (s : List Nat) (hbytes : k.narrow = true → ∀ c ∈ s, c < 256) :
    readSep k T sign b sep s = scanSepW T (sign = .minus) b sep s := by
  unfold readSep scanSepW
  rw [thsepLoop_eq sep b (by omega)]
  dsimp only
  have hdig : ∀ c ∈ (sepRun sep b s).filter (fun c => c ≠ sep), IsDigit b c := by
    intro c hc
    rw [List.mem_filter] at hc
    rcases mem_sepRun hc.1 with h | h
    · simp [h] at hc
    · exact h
  have hle := List.length_filter_le (fun c => decide (c ≠ sep)) (sepRun sep b s)
  have hby : k.narrow = true → ∀ c ∈ (sepRun sep b s).filter (fun c => c ≠ sep), c < 256 := by
    intro hn c hc
    apply hbytes hn
    rw [← sepRun_append sep b s]
    exact List.mem_append_left _ (List.mem_filter.1 hc).1
  have happ := sepRun_append sep b s
  generalize hds : (sepRun sep b s).filter (fun c => c ≠ sep) = ds at *
  cases ds with
  | nil => rfl
  | cons c cs =>
    dsimp only
    rw [scanDigitsW_eq k.narrow T hT sign b h2 h36 hsign _ (by simp) hby]
    have hrun := digitRun_numeral b (c :: cs) [] hdig (by intro c hc; simp at hc)
    rw [List.append_nil] at hrun
    cases hr : scanDigitsW T (decide (sign = .minus)) b (c :: cs) with
    | err e => rfl
    | ub => rfl
    | ok r =>
      have := scanDigitsW_rest hr
      rw [hrun.2] at this
      rw [Res.bind_ok, Res.map_ok, this, List.length_nil, Nat.sub_zero,
        show (c :: cs).length + ((sepRun sep b s).length - (c :: cs).length) =
          (sepRun sep b s).length by omega]
      conv => lhs; rw [← happ]
      rw [show (sepRun sep b (sepRun sep b s ++ afterSepRun sep b s)).length =
        (sepRun sep b s).length by rw [happ], List.drop_left]

theorem readInt_sep_eq (k : Src) (T : IntTy) (base sep : Nat) (uo : Bool) (s : List Nat) :
    readInt k T ⟨base, uo, some sep⟩ s =
      match parseIntegerPrefix k s base with
      | none => .err .endOfInput
      | some p =>
        if p.sign = .minus ∧ (T.signed = false ∨ uo = true) then .err .invalidScannedValue
        else if p.isZero then .ok (0, p.rest.drop 1)
        else readSep k T p.sign p.base sep p.rest := by
  unfold readInt readSep
  rfl

/-- The prefix step for the bases that are not octal. -/
theorem afterSignPrefix_simple (k : Src) (t : List Nat) (base : Nat) (sg : Sign)
    (hq : NoQuirk k t) (hb : base ≤ 36)
    (h : (base ≠ 0 ∧ base ≠ 8) ∨ t.head? ≠ some 48) :
    afterSignPrefix k t base sg =
      ⟨(chooseBase base t).2, (chooseBase base t).1, sg, false⟩ := by
  have hnone : t.head? ≠ some 48 → ∀ l, l = 98 ∨ l = 120 ∨ l = 111 →
      readMatchingNocase k t [48, l] = none ∧ ∀ b, ¬ HasPrefix l (l - 32) b t := by
    intro hh l hl
    have : readMatchingNocase k t [48, l] = none := by
      rw [match2_noquirk k t l hl hq]
      match t, hh with
      | [], _ => rfl
      | [_], _ => rfl
      | a :: c :: t, hh =>
        unfold match2
        dsimp only
        rw [if_neg]
        rintro ⟨rfl, _⟩
        exact hh rfl
    exact ⟨this, fun b => not_hasPrefix_of_none hl hq this⟩
  unfold afterSignPrefix basePrefix chooseBase
  by_cases h2 : base = 2
  · subst h2
    have hp := prefixed k t 98 2 (by simp) hq (by decide)
    simp only [if_true, Bool.false_eq_true, if_false, show ¬ (2 = 16) by decide, binPrefix]
    rw [hp]
  by_cases h16 : base = 16
  · subst h16
    have hp := prefixed k t 120 16 (by simp) hq (by decide)
    simp only [if_true, Bool.false_eq_true, if_false, show ¬ (16 = 2) by decide,
      show ¬ (16 = 8) by decide, hexPrefix]
    rw [hp]
  by_cases h8 : base = 8
  · subst h8
    have hh : t.head? ≠ some 48 := by rcases h with h | h; exact absurd rfl h.2; exact h
    obtain ⟨ho, hp⟩ := hnone hh 111 (by simp)
    have : octPrefix k t = none := by
      unfold octPrefix
      rw [ho]
      cases t with
      | nil => rfl
      | cons c cs =>
        dsimp only
        rw [if_neg]
        rintro rfl; exact hh rfl
    simp only [if_true, show ¬ (8 = 2) by decide, show ¬ (8 = 16) by decide, if_false, this,
      Bool.false_eq_true, backtrack, ite_self, if_neg (hp 8)]
  by_cases h0 : base = 0
  · subst h0
    have hh : t.head? ≠ some 48 := by rcases h with h | h; exact absurd rfl h.1; exact h
    obtain ⟨ho, hp⟩ := hnone hh 111 (by simp)
    obtain ⟨ho2, hp2⟩ := hnone hh 98 (by simp)
    obtain ⟨ho3, hp3⟩ := hnone hh 120 (by simp)
    have : octPrefix k t = none := by
      unfold octPrefix
      rw [ho]
      cases t with
      | nil => rfl
      | cons c cs =>
        dsimp only
        rw [if_neg]
        rintro rfl; exact hh rfl
    simp only [h2, h8, h16, if_false, if_true, basePrefixDetect, hexPrefix, ho3, binPrefix, ho2,
      this, Bool.false_eq_true, backtrack, ite_self, if_neg (hp 8), if_neg (hp2 2),
      if_neg (hp3 16), if_neg hh]
  · simp only [h2, h8, h16, h0, if_false, Bool.false_eq_true, backtrack, ite_self]

theorem chooseBase_bounds (base : Nat) (t : List Nat) (h2 : 2 ≤ base ∨ base = 0)
    (h36 : base ≤ 36) : 2 ≤ (chooseBase base t).1 ∧ (chooseBase base t).1 ≤ 36 := by
  unfold chooseBase
  repeat' split
  all_goals (dsimp only; omega)

theorem chooseBase_mem {base : Nat} {t : List Nat} {x : Nat} (hx : x ∈ (chooseBase base t).2) :
    x ∈ t := by
  unfold chooseBase at hx
  revert hx
  repeat' split
  all_goals first | exact fun h => List.mem_of_mem_drop h | exact fun h => h

theorem readInt_sep (k : Src) (T : IntTy) (hT : T.Std) (base sep : Nat) (uo : Bool) (c : Nat)
    (cs : List Nat) (h2 : 2 ≤ base ∨ base = 0) (h36 : base ≤ 36)
    (hoct : (base ≠ 0 ∧ base ≠ 8) ∨ (if c = 45 ∨ c = 43 then cs else c :: cs).head? ≠ some 48)
    (hq : k.contiguous = true → k.narrow = true → (afterSign (c :: cs)).head? ≠ some 16)
    (hbytes : k.narrow = true → ∀ x ∈ c :: cs, x < 256) :
    readInt k T ⟨base, uo, some sep⟩ (c :: cs) =
      if c = 45 ∧ (T.signed = false ∨ uo = true) then .err .invalidScannedValue
      else scanSepW T (c == 45) (chooseBase base (if c = 45 ∨ c = 43 then cs else c :: cs)).1 sep
        (chooseBase base (if c = 45 ∨ c = 43 then cs else c :: cs)).2 := by
  rw [readInt_sep_eq, parseIntegerPrefix_eq]
  dsimp only
  rw [afterSignPrefix_simple k (if c = 45 ∨ c = 43 then cs else c :: cs) base _ hq h36 hoct]
  dsimp only
  have hneg : (decide ((if c = 45 then Sign.minus else Sign.plus) = Sign.minus)) = (c == 45) := by
    by_cases h : c = 45 <;> simp [h]
  by_cases hbad : c = 45 ∧ (T.signed = false ∨ uo = true)
  · rw [if_pos hbad, if_pos]
    rw [if_pos hbad.1]; exact ⟨rfl, hbad.2⟩
  · rw [if_neg hbad, if_neg, if_neg (by simp), readSep_spec k T hT, hneg]
    · exact (chooseBase_bounds base _ h2 h36).1
    · exact (chooseBase_bounds base _ h2 h36).2
    · intro hs
      rw [if_neg (fun h => hbad ⟨h, Or.inl hs⟩)]
    · intro hn x hx
      apply hbytes hn
      have hx := chooseBase_mem hx
      revert hx
      split
      · intro h; simp [h]
      · exact fun h => h
    · by_cases h : c = 45
      · rw [if_pos h]; exact fun hh => hbad ⟨h, hh.2⟩
      · rw [if_neg h]; simp

/-! ### The unchecked parser -/

theorem loopEightValid_spec (s : List Nat) (acc : Nat) (hacc : acc < 2 ^ 64)
    (hd : ∀ c ∈ s, IsDigit 10 c) :
    ∃ v r, loopEightValid s acc = some (v, r) ∧
      tailValid r v = some (valueFrom 10 acc s % 2 ^ 64) := by
  induction hn : s.length using Nat.strongRecOn generalizing s acc with
  | _ n ih =>
    rw [loopEightValid]
    by_cases h8 : 8 ≤ s.length
    · rw [dif_pos h8]
      have hl : (s.take 8).length = 8 := by simp; omega
      have hd8 : ∀ c ∈ s.take 8, 48 ≤ c ∧ c ≤ 57 := fun c hc =>
        (isDigit10_iff c).1 (hd c (List.mem_of_mem_take hc))
      have hw : isEightDigits (word8 (s.take 8)) = true := by
        rw [isEightDigits_iff _ hl (fun c hc => by have := hd8 c hc; omega)]
        exact hd8
      rw [if_pos hw, parseEight_value _ hl hd8]
      obtain ⟨v, r, h1, h2⟩ := ih (s.drop 8).length (by simp; omega) (s.drop 8)
        ((acc * 100000000 + value 10 (s.take 8)) % 2 ^ 64) (Nat.mod_lt _ (by decide))
        (fun c hc => hd c (List.mem_of_mem_drop hc)) rfl
      refine ⟨v, r, h1, ?_⟩
      rw [h2, valueFrom_mod]
      congr 2
      conv => rhs; rw [← List.take_append_drop 8 s]
      rw [valueFrom_append]
      congr 1
      rw [valueFrom_eq 10 acc, hl, value_eq]
    · rw [dif_neg h8]
      refine ⟨acc, s, rfl, ?_⟩
      clear ih hn h8
      induction s generalizing acc with
      | nil => simp [tailValid, Nat.mod_eq_of_lt hacc]
      | cons c cs ih =>
        have hc := hd c (by simp)
        rw [tailValid, if_pos ((charToInt_lt_iff 10 c (by decide)).2 hc),
          ih _ (Nat.mod_lt _ (by decide)) (fun x hx => hd x (by simp [hx])), valueFrom_mod,
          valueFrom_cons, charToInt_of_digit hc, Nat.mul_comm 10]

theorem exhaustive_core (T : IntTy) (hT : T.Std) (neg : Bool) (hs : neg = true → T.signed = true)
    (ds : List Nat) (hds : IsNumeral 10 ds)
    (hfit : InRange T (signed neg (value 10 ds)))
    (hz : ds.length ≤ 19 ∨ ds.head? ≠ some 48) :
    parseExhaustiveValid T ((if neg then [45] else []) ++ ds) = .ok (signed neg (value 10 ds)) := by
  obtain ⟨c, cs, rfl⟩ : ∃ c cs, ds = c :: cs := by
    cases ds with
    | nil => exact absurd rfl hds.1
    | cons c cs => exact ⟨c, cs, rfl⟩
  have hc := hds.2 c (by simp)
  have hc' := (isDigit10_iff c).1 hc
  obtain ⟨v, r, h1, h2⟩ := loopEightValid_spec (c :: cs) 0 (by decide) hds.2
  have hle := (inRange_iff T hT _ neg hs).1 hfit
  have hlt := max_neg_lt T hT neg hs
  rw [← value_eq, Nat.mod_eq_of_lt (by omega)] at h2
  have hchk : checkOverflow T (value 10 (c :: cs)) (c :: cs).length 10 neg = false := by
    have hm : maxdigits 10 = 20 := by decide +kernel
    have hms : minSafe 10 = 10 ^ 19 := by decide +kernel
    unfold checkOverflow
    rw [hm, hms, Nat.mod_eq_of_lt hlt]
    rcases hz with hz | hz
    · rw [if_neg (by omega), if_neg (by omega), if_neg (by omega)]
    · have hc0 : c ≠ 48 := by simpa using hz
      have hlo := value_ge 10 c cs hc hc0
      have hl : (c :: cs).length ≤ 20 := by
        apply Nat.le_of_not_lt
        intro h
        have : 10 ^ 20 ≤ 10 ^ cs.length := Nat.pow_le_pow_right (by decide) (by simp at h; omega)
        omega
      rw [if_neg (by omega), if_neg, if_neg (by omega)]
      rintro ⟨h20, hv⟩
      have : cs.length = 19 := by simpa using h20
      rw [this] at hlo
      omega
  have hn0 : ∀ x : Nat, charToInt c ≥ 10 → False := fun _ h => by
    have := (charToInt_lt_iff 10 c (by decide)).2 hc; omega
  have hstore := storeResult_correct T hT _ neg hs hle
  unfold parseExhaustiveValid
  cases neg with
  | false =>
    have : (T.signed && (c == 45)) = false := by
      rw [Bool.and_eq_false_iff]; right; simp; omega
    simp only [Bool.false_eq_true, if_false, List.nil_append, this]
    rw [if_neg (hn0 0), h1]
    dsimp only
    rw [h2]
    dsimp only
    rw [hchk, if_neg (by simp), hstore]
  | true =>
    simp only [if_true, List.singleton_append, hs rfl, Bool.true_and, beq_self_eq_true,
      List.drop_succ_cons, List.drop_zero]
    rw [if_neg (hn0 0), h1]
    dsimp only
    rw [h2]
    dsimp only
    rw [hchk, if_neg (by simp), hstore]

end Scn
