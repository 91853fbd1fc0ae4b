import Verif.Lemmas.Boundary2
/-
The readers of numbers take characters of one unit.
-/
namespace Scn
open Spec
variable {V : Type}

theorem runningDiff_ascii : ∀ {a b : List Nat}, a.length = b.length → runningDiff a b < 128 → (∀ x ∈ b, x < 128) → ∀ x ∈ a, x < 128
  | [], _, _, _, _ => by simp
  | x :: as, [], h, _, _ => by cases h
  | x :: as, y :: bs, h, hd, hb => by
    have hd' : (x ^^^ y) ||| runningDiff as bs < 128 := hd
    have h1 : x ^^^ y < 2 ^ 7 := Nat.lt_of_le_of_lt Nat.left_le_or hd'
    have h2 : runningDiff as bs < 128 := Nat.lt_of_le_of_lt Nat.right_le_or hd'
    intro z hz
    rcases List.mem_cons.1 hz with rfl | hz
    · have : z = (z ^^^ y) ^^^ y := by rw [Nat.xor_assoc, Nat.xor_self, Nat.xor_zero]
      rw [this]
      exact Nat.xor_lt_two_pow h1 (n := 7) (hb y (by simp))
    · exact runningDiff_ascii (by simpa using h) h2 (fun w hw => hb w (by simp [hw])) z hz

theorem nocase_dropped {e : Enc} {k : Src} {s str r : List Nat} (hstr : ∀ b ∈ str, b < 128) (h : readMatchingNocase k s str = some r) :
    Dropped e s r := by
  unfold readMatchingNocase at h
  split at h
  · cases h
  · rename_i hlen
    have hl : (s.take str.length).length = str.length := by rw [List.length_take]; omega
    split at h
    · split at h
      · rename_i hq
        cases h
        refine dropped_drop _ fun u hu => single_ascii e ?_
        refine runningDiff_ascii hl ?_ hstr u hu
        unfold fastStreqNocase at hq
        simp only [Bool.or_eq_true, beq_iff_eq] at hq
        omega
      · cases h
    · split at h
      · rename_i hq
        cases h
        refine dropped_drop _ fun u hu => single_ascii e ?_
        have : asciiTolower u ∈ str := by rw [← hq]; exact List.mem_map.2 ⟨u, hu, rfl⟩
        have := hstr _ this
        unfold asciiTolower at this
        split at this <;> omega
      · cases h

theorem octPrefix_dropped {e : Enc} {k : Src} {s r : List Nat} {z : Bool} (h : octPrefix k s = some (r, z)) : Dropped e s r := by
  unfold octPrefix at h
  split at h
  · rename_i hm
    cases h
    exact nocase_dropped (by decide) hm
  · split at h
    · split at h
      · rename_i hc
        cases h
        exact Dropped.cons (single_ascii e (by omega))
      · cases h
    · cases h

theorem basePrefix_dropped (e : Enc) (k : Src) (s : List Nat) (base : Nat) : Dropped e s (basePrefix k s base).1 := by
  unfold basePrefix
  have hb : Dropped e s ((binPrefix k s).getD s) := by
    cases h : binPrefix k s with
    | none => exact Dropped.refl _ _
    | some r => exact nocase_dropped (by decide) h
  have hx : Dropped e s ((hexPrefix k s).getD s) := by
    cases h : hexPrefix k s with
    | none => exact Dropped.refl _ _
    | some r => exact nocase_dropped (by decide) h
  split
  · exact hb
  · split
    · split
      · rename_i h; exact octPrefix_dropped h
      · exact Dropped.refl _ _
    · split
      · exact hx
      · split
        · unfold basePrefixDetect
          split
          · rename_i h; exact nocase_dropped (by decide) h
          · split
            · rename_i h; exact nocase_dropped (by decide) h
            · split
              · rename_i h; exact octPrefix_dropped h
              · exact Dropped.refl _ _
        · exact Dropped.refl _ _

theorem sign_dropped {e : Enc} {s t : List Nat} {sg : Option Sign} (h : parseNumericSign s = some (t, sg)) : Dropped e s t := by
  unfold parseNumericSign at h
  split at h
  · cases h
  · split at h
    · cases h; exact Dropped.cons (single_ascii e (by omega))
    · split at h
      · cases h; exact Dropped.cons (single_ascii e (by omega))
      · cases h; exact Dropped.refl _ _

/-- The prefix of an integer, and a zero that was taken for one. -/
theorem parseIntegerPrefix_dropped {e : Enc} {k : Src} {s : List Nat} {base : Nat} {p : PrefixResult} (h : parseIntegerPrefix k s base = some p) :
    Dropped e s p.rest ∧ (p.isZero = true → Dropped e s (p.rest.drop 1)) := by
  unfold parseIntegerPrefix at h
  split at h
  · cases h
  · rename_i t sign hs
    have ht : Dropped e s t := sign_dropped hs
    have h1 := basePrefix_dropped e k t base
    have h2 : (basePrefix k t base).2.2 = true → Dropped e t (t.drop 1) := by
      intro hz
      have oct : ∀ r, octPrefix k t = some (r, true) → Dropped e t (t.drop 1) := by
        intro r h
        unfold octPrefix at h
        split at h
        · cases h
        · split at h
          · split at h
            · cases h
              exact Dropped.cons (single_ascii e (by omega))
            · cases h
          · cases h
      unfold basePrefix at hz
      split at hz
      · cases hz
      · split at hz
        · split at hz
          · rename_i h
            dsimp only at hz
            subst hz
            exact oct _ h
          · cases hz
        · split at hz
          · cases hz
          · split at hz
            · unfold basePrefixDetect at hz
              split at hz
              · cases hz
              · split at hz
                · cases hz
                · split at hz
                  · rename_i h
                    dsimp only at hz
                    subst hz
                    exact oct _ h
                  · cases hz
            · cases hz
    generalize basePrefix k t base = q at h h1 h2
    obtain ⟨d, b, z⟩ := q
    dsimp only at h h1 h2
    repeat' split at h
    all_goals
      simp only [Option.some.injEq] at h
      rw [← h]
    · rename_i hz _; exact ⟨ht, fun _ => ht.trans (h2 hz)⟩
    · exact ⟨ht.trans h1, by simp⟩
    · exact ⟨ht, by simp⟩
    · exact ⟨ht.trans h1, by simp⟩

theorem digitValue_ascii {c b : Nat} (hb : b ≤ 36) (h : charToInt c < b) : c < 128 := by
  apply Classical.byContradiction
  intro hc
  have : charToInt c = 255 := by
    unfold charToInt
    by_cases h2 : c < 256
    · have key : ∀ k, k < 256 → 128 ≤ k → charToIntTable.getD k 255 = 255 := by decide +kernel
      exact key c h2 (by omega)
    · rw [List.getD_eq_getElem?_getD, List.getElem?_eq_none]
      · rfl
      · show charToIntTable.length ≤ c
        have : charToIntTable.length = 256 := by decide +kernel
        omega
  omega

theorem digitLoop_dropped (e : Enc) {b : Nat} (hb : b ≤ 36) : ∀ (s : List Nat) (v : Nat), Dropped e s (digitLoop b s v).2
  | [], _ => Dropped.refl _ _
  | c :: cs, v => by
    unfold digitLoop
    split
    · exact Dropped.refl _ _
    · rename_i h
      exact (Dropped.cons (single_ascii e (digitValue_ascii hb (by omega)))).trans (digitLoop_dropped e hb cs _)

theorem loopEight_dropped (e : Enc) (n : Nat) : ∀ (s : List Nat) (v : Nat), s.length ≤ n → (∀ c ∈ s, c < 256) → Dropped e s (loopEight s v).2 := by
  induction n with
  | zero =>
    intro s v hn hs
    unfold loopEight
    rw [dif_neg (by omega)]
    exact Dropped.refl _ _
  | succ n ih =>
    intro s v hn hs
    unfold loopEight
    split
    · rename_i h
      have hd := (isEightDigits_iff (s.take 8) (by rw [List.length_take]; omega) (fun b hb => hs b (List.mem_of_mem_take hb))).1 h.2
      refine (dropped_drop 8 fun u hu => single_ascii e ?_).trans (ih _ _ (by simp; omega) (fun c hc => hs c (List.mem_of_mem_drop hc)))
      have := hd u hu
      omega
    · exact Dropped.refl _ _

/-- The digits of an integer. -/
theorem parseIntegerValue_dropped {e : Enc} {narrow : Bool} {T : IntTy} {sg : Sign} {b : Nat} {s r : List Nat} {v : Int}
    (hn : narrow = true → ∀ c ∈ s, c < 256) (h : parseIntegerValue narrow T sg b s = .ok (v, r)) : Dropped e s r := by
  unfold parseIntegerValue at h
  split at h
  · cases h
  · rename_i c cs
    split at h
    · cases h
    · split at h
      · cases h
      · rename_i hb
        split at h
        · cases h
        · have hz : Dropped e (c :: cs) ((c :: cs).dropWhile (· = 48)) := by
            refine ⟨(c :: cs).takeWhile (· = 48), (List.takeWhile_append_dropWhile).symm, fun u hu => single_ascii e ?_⟩
            have : ∀ l : List Nat, u ∈ l.takeWhile (· = 48) → u = 48 := by
              intro l
              induction l with
              | nil => simp
              | cons x xs ih =>
                rw [List.takeWhile_cons]
                split
                · rename_i hx
                  intro hm
                  rcases List.mem_cons.1 hm with rfl | hm
                  · simpa using hx
                  · exact ih hm
                · simp
            have := this _ hu
            omega
          have hm : ∀ x ∈ (c :: cs).dropWhile (· = 48), x ∈ c :: cs := fun x hx => (List.dropWhile_suffix _).subset hx
          dsimp only at h
          generalize hd : (c :: cs).dropWhile (· = 48) = st at h hz hm
          cases st with
          | nil => cases h; exact hz
          | cons d ds =>
            dsimp only at h
            split at h
            · cases h; exact hz
            · split at h
              · rename_i hnb
                unfold parseDecimalFast at h
                dsimp only at h
                split at h
                · cases h
                · cases h
                  refine hz.trans ?_
                  unfold parseDecimalFastImpl
                  dsimp only
                  exact (loopEight_dropped e _ _ _ (Nat.le_refl _) (fun x hx => hn hnb.1 x (hm x hx))).trans (digitLoop_dropped e (by omega) _ _)
              · unfold parseRegular at h
                dsimp only at h
                split at h
                · cases h
                · cases h
                  exact hz.trans (digitLoop_dropped e (by omega) _ _)

/-- Digits and separators. -/
theorem thsepLoop_run {e : Enc} {sep b : Nat} (hsep : Single e sep) (hb : b ≤ 36) : ∀ s : List Nat, ∃ a,
    s = a ++ (thsepLoop sep b s).1 ∧ (∀ u ∈ a, Single e u) ∧ a.length = (thsepLoop sep b s).2.1.length + (thsepLoop sep b s).2.2
  | [] => ⟨[], rfl, by simp, rfl⟩
  | c :: cs => by
    obtain ⟨a, h1, h2, h3⟩ := thsepLoop_run hsep hb cs
    unfold thsepLoop
    split
    · rename_i hc
      subst hc
      refine ⟨c :: a, by simp only [List.cons_append]; rw [← h1], fun u hu => ?_, by simp only [List.length_cons]; omega⟩
      rcases List.mem_cons.1 hu with rfl | hu
      · exact hsep
      · exact h2 u hu
    · split
      · exact ⟨[], rfl, by simp, rfl⟩
      · rename_i hd
        refine ⟨c :: a, by simp only [List.cons_append]; rw [← h1], fun u hu => ?_, by simp only [List.length_cons]; omega⟩
        rcases List.mem_cons.1 hu with rfl | hu
        · exact single_ascii e (digitValue_ascii hb (by omega))
        · exact h2 u hu

/-- An integer is read from characters of one unit. -/
theorem readInt_dropped {e : Enc} {k : Src} {T : IntTy} {sp : IntSpecs} {s r : List Nat} {v : Int} (hbase : sp.base = 0 ∨ (2 ≤ sp.base ∧ sp.base ≤ 36))
    (hsep : ∀ c, sp.thsep = some c → Single e c) (hn : k.narrow = true → ∀ c ∈ s, c < 256) (h : readInt k T sp s = .ok (v, r)) : Dropped e s r := by
  unfold readInt at h
  split at h
  · cases h
  · rename_i p hp
    obtain ⟨h1, h2⟩ := parseIntegerPrefix_dropped (e := e) hp
    have hb := (parseIntegerPrefix_suffix hp).2 hbase
    have hm : ∀ c ∈ p.rest, c ∈ s := fun c hc => (parseIntegerPrefix_suffix hp).1.subset hc
    split at h
    · cases h
    · split at h
      · rename_i hz
        cases h
        exact h2 hz
      · split at h
        · cases hd : digitsWithoutThsep k p.rest p.base with
          | ub => rw [hd] at h; cases h
          | err x => rw [hd] at h; cases h
          | ok buf =>
            rw [hd, Res.bind_ok] at h
            have hbuf : buf <+: p.rest := by
              unfold digitsWithoutThsep at hd
              split at hd
              · split at hd
                · cases hd
                · cases hd; exact List.prefix_refl _
              · split at hd
                · cases hd
                · cases hd; exact List.takeWhile_prefix _
            cases hv : parseIntegerValue k.narrow T p.sign p.base buf with
            | ub => rw [hv] at h; cases h
            | err x => rw [hv] at h; cases h
            | ok x =>
              rw [hv, Res.bind_ok] at h
              cases h
              refine h1.trans ?_
              obtain ⟨a, ha, hs⟩ := parseIntegerValue_dropped (e := e) (r := x.2) (v := x.1) (fun hn' c hc => hn hn' c (hm c (hbuf.subset hc))) hv
              obtain ⟨t, ht⟩ := hbuf
              refine dropped_run (a := a) (b := x.2 ++ t) ?_ hs ?_
              · rw [← ht, ha, List.append_assoc]
              · rw [ha]; simp
        · rename_i sep hsp
          dsimp only at h
          obtain ⟨a, ha, hs, hl⟩ := thsepLoop_run (hsep sep hsp) hb.2 p.rest
          split at h
          · cases h
          · rename_i ds _
            cases hv : parseIntegerValue k.narrow T p.sign p.base (thsepLoop sep p.base p.rest).2.1 with
            | ub => rw [hv] at h; cases h
            | err x => rw [hv] at h; cases h
            | ok x =>
              rw [hv, Res.bind_ok] at h
              cases h
              exact h1.trans (dropped_run ha hs (by omega))

theorem utf8_narrow {e : Enc} {l : Layout} (h : (srcOf e l).narrow = true) : e = .utf8 := by simpa [srcOf] using h

theorem readInt_keeps {e : Enc} {T : IntTy} {sp : IntSpecs} (hbase : sp.base = 0 ∨ (2 ≤ sp.base ∧ sp.base ≤ 36))
    (hsep : ∀ c, sp.thsep = some c → Single e c) : Keeps e (fun l s => readInt (srcOf e l) T sp s) := fun _ _ hs _ _ h =>
  Dropped.between hs (readInt_dropped hbase hsep (fun hn => encodes_unitsOk e hs (utf8_narrow hn)) h)

end Scn
