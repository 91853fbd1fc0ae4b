import Verif.Lemmas.Defined2
/-
What the format string parser guarantees about the specifications it accepts: a fill character, and
a character set that can be parsed again from its own text.
-/
namespace Scn
open Spec

/-! ### Parsing the text of a character set again -/

theorem setCodePoint_again {σ : Type} {H : SetHandler σ} {e : Enc} {st st1 : σ} {s s1 : List Nat} {cp : Nat}
    (h : setCodePoint H e st s = some (st1, some cp, s1)) :
    st1 = st ∧ ∃ c u, s = c :: u ++ s1 ∧ ∀ (τ : Type) (H' : SetHandler τ) (st' : τ) (X : List Nat),
      setCodePoint H' e st' (c :: u ++ X) = some (st', some cp, X) := by
  cases s with
  | nil => simp [setCodePoint] at h
  | cons c cs =>
    simp only [setCodePoint] at h
    split at h
    · simp at h
    · rename_i hl
      split at h
      · simp at h
      · rename_i cp' hd
        split at h
        · simp at h
        · rename_i hv
          simp only [Option.some.injEq, Prod.mk.injEq] at h
          obtain ⟨rfl, rfl, rfl⟩ := h
          have h0 : cpLength e c ≠ 0 := fun h => hl (Or.inl h)
          have h1 : cpLength e c ≤ (c :: cs).length := Nat.le_of_not_lt fun h => hl (Or.inr h)
          obtain ⟨m, hm⟩ : ∃ m, cpLength e c = m + 1 := ⟨cpLength e c - 1, by omega⟩
          rw [hm] at hd h1
          rw [List.take_succ_cons] at hd
          simp only [List.length_cons] at h1
          refine ⟨rfl, c, cs.take m, ?_, ?_⟩
          · rw [hm, List.drop_succ_cons, List.cons_append, List.take_append_drop]
          · intro τ H' st' X
            have hlen : (cs.take m).length = m := by rw [List.length_take]; omega
            have ht : (c :: (cs.take m ++ X)).take (m + 1) = c :: cs.take m := by
              rw [List.take_succ_cons, List.take_append_of_le_length (by omega), List.take_of_length_le (by omega)]
            have hd2 : (c :: (cs.take m ++ X)).drop (m + 1) = X := by
              rw [List.drop_succ_cons, List.drop_append_of_le_length (by omega), List.drop_of_length_le (by omega), List.nil_append]
            simp only [List.cons_append, setCodePoint]
            rw [hm, if_neg (by simp only [List.length_cons, List.length_append]; omega), ht, hd, hd2]
            simp only
            rw [if_neg hv]

theorem setCodePoint_failed {σ : Type} {H : SetHandler σ} {e : Enc} {st st1 : σ} {s s1 : List Nat}
    (h : setCodePoint H e st s = some (st1, none, s1)) : st1 = H.error st := by
  cases s with
  | nil => simp [setCodePoint] at h
  | cons c cs =>
    simp only [setCodePoint] at h
    split at h
    · simp only [Option.some.injEq, Prod.mk.injEq] at h; exact h.1.symm
    · split at h
      · simp at h
      · split at h
        · simp only [Option.some.injEq, Prod.mk.injEq] at h; exact h.1.symm
        · simp at h

theorem nonAscii_range_ok (st : NonAscii) (b e : Nat) : (st.onRange b e).err = st.err := by unfold NonAscii.onRange; split <;> rfl

/-- One element of a character set accepted by one handler is accepted by the handler of the extra
    ranges, also when the text ends with the closing bracket of the set. -/
theorem setLiteral_again {σ : Type} {H : SetHandler σ} (hE : ∀ st, H.failed (H.error st) = true) {e : Enc} {st st1 : σ}
    {s s1 : List Nat} (h : setLiteral H e st s = some (st1, s1)) (hf : H.failed st1 = false) :
    ∃ c u, s = c :: u ++ s1 ∧ ∀ t rest, s1 = t ++ 93 :: rest → ∀ st2 : NonAscii, st2.err = false →
      ∃ st3, setLiteral nonAsciiSet e st2 (c :: u ++ (t ++ [93])) = some (st3, t ++ [93]) ∧ st3.err = false := by
  unfold setLiteral at h
  split at h
  · cases h
  · rename_i st' s' h1
    cases h
    rw [setCodePoint_failed h1, hE] at hf
    cases hf
  · rename_i st' first s' h1
    obtain ⟨rfl, c, u, hs, hagain⟩ := setCodePoint_again h1
    split at h
    · rename_i d rest'
      split at h
      · rename_i hd
        split at h
        · cases h
        · rename_i st'' s'' h2
          cases h
          rw [setCodePoint_failed h2, hE] at hf
          cases hf
        · rename_i st'' second s'' h2
          obtain ⟨rfl, c2, u2, hs2, hagain2⟩ := setCodePoint_again h2
          have hc2 : d = c2 := by rw [List.cons_append] at hs2; exact (List.cons.inj hs2).1
          subst hc2
          split at h
          · cases h; rw [hE] at hf; cases hf
          · rename_i hlt
            cases hr : H.range st'' first (second + 1) with
            | none => rw [hr] at h; simp at h
            | some st4 =>
              rw [hr] at h
              simp only [Option.map_some, Option.some.injEq, Prod.mk.injEq] at h
              obtain ⟨_, rfl⟩ := h
              refine ⟨c, u ++ 45 :: d :: u2, ?_, ?_⟩
              · rw [hs, hs2]; simp
              · intro t rest ht st2 hst2
                have e1 : c :: (u ++ 45 :: d :: u2) ++ (t ++ [93]) = c :: u ++ (45 :: d :: (u2 ++ (t ++ [93]))) := by simp
                rw [e1]
                unfold setLiteral
                rw [hagain NonAscii nonAsciiSet st2]
                simp only
                rw [if_pos hd]
                have e2 : d :: (u2 ++ (t ++ [93])) = d :: u2 ++ (t ++ [93]) := rfl
                rw [e2, hagain2 NonAscii nonAsciiSet st2]
                simp only
                rw [if_neg hlt]
                refine ⟨_, rfl, ?_⟩
                rw [nonAscii_range_ok]; exact hst2
      · rename_i hd
        have hd' : d = 93 := Classical.not_not.1 hd
        subst hd'
        cases h
        refine ⟨c, u, hs, ?_⟩
        intro t rest ht st2 hst2
        obtain ⟨t', rfl⟩ : ∃ t', t = 45 :: t' := by
          cases t with
          | nil => simp at ht
          | cons a t' => exact ⟨t', by rw [List.cons_append] at ht; rw [(List.cons.inj ht).1]⟩
        obtain ⟨w, hw⟩ : ∃ w, t' ++ [93] = 93 :: w := by
          cases t' with
          | nil => exact ⟨[], rfl⟩
          | cons a t'' =>
            simp only [List.cons_append] at ht
            have := (List.cons.inj (List.cons.inj ht).2).1
            exact ⟨t'' ++ [93], by rw [← this]; rfl⟩
        unfold setLiteral
        rw [hagain NonAscii nonAsciiSet st2]
        simp only [List.cons_append, hw]
        rw [if_neg (by simp)]
        refine ⟨_, rfl, ?_⟩
        show (NonAscii.onRange st2 first (first + 1)).err = false
        rw [nonAscii_range_ok]; exact hst2
    · rename_i hno
      cases h
      refine ⟨c, u, hs, ?_⟩
      intro t rest ht st2 hst2
      unfold setLiteral
      rw [hagain NonAscii nonAsciiSet st2]
      simp only
      refine ⟨nonAsciiSet.single st2 first, ?_, by
        show (NonAscii.onRange st2 first (first + 1)).err = false
        rw [nonAscii_range_ok]; exact hst2⟩
      split
      · rename_i d r heq
        exfalso
        cases t with
        | nil => simp at heq
        | cons a t' =>
          rw [List.cons_append] at heq
          have ha := (List.cons.inj heq).1
          subst ha
          cases t' with
          | nil => exact hno 93 rest (by rw [ht]; rfl)
          | cons b t'' => exact hno b (t'' ++ 93 :: rest) (by rw [ht]; rfl)
      · rfl

theorem setLoop_again {σ : Type} {H : SetHandler σ} (hE : ∀ st, H.failed (H.error st) = true) {e : Enc} (n : Nat) :
    ∀ {st st1 : σ} {s rest : List Nat}, setLoop H e n st s = some (st1, true, rest) →
    ∃ t, s = t ++ 93 :: rest ∧ ∀ n2 (st2 : NonAscii), st2.err = false → t.length < n2 →
      ∃ st3, setLoop nonAsciiSet e n2 st2 (t ++ [93]) = some (st3, true, []) ∧ st3.err = false := by
  induction n with
  | zero => intro st st1 s rest h; cases s <;> simp [setLoop] at h
  | succ n ih =>
    intro st st1 s rest h
    cases s with
    | nil => simp [setLoop] at h
    | cons c cs =>
      simp only [setLoop] at h
      split at h
      · simp at h
      · split at h
        · rename_i hc
          subst hc
          simp only [Option.some.injEq, Prod.mk.injEq, true_and] at h
          obtain ⟨_, rfl⟩ := h
          refine ⟨[], rfl, fun n2 st2 hst2 hn => ?_⟩
          cases n2 with
          | zero => simp at hn
          | succ n2 =>
            refine ⟨st2, ?_, hst2⟩
            show (if st2.err = true then _ else _) = _
            rw [if_neg (by simp [hst2])]
            rfl
        · rename_i hc
          split at h
          · cases h
          · rename_i st' s' hl
            obtain ⟨t, hs', hloop⟩ := ih h
            have hf : H.failed st' = false := by
              cases hff : H.failed st' with
              | false => rfl
              | true =>
                exfalso
                cases n with
                | zero => cases s' <;> simp [setLoop] at h
                | succ n => cases s' <;> simp [setLoop, hff] at h
            obtain ⟨c', u, hs, hlit⟩ := setLiteral_again hE hl hf
            have hcc : c = c' := by rw [List.cons_append] at hs; exact (List.cons.inj hs).1
            subst hcc
            refine ⟨c :: u ++ t, by rw [hs, hs', List.append_assoc], fun n2 st2 hst2 hn => ?_⟩
            cases n2 with
            | zero => simp at hn
            | succ n2 =>
              obtain ⟨st3, h3, h3e⟩ := hlit t rest hs' st2 hst2
              obtain ⟨st4, h4, h4e⟩ := hloop n2 st3 h3e (by simp only [List.cons_append, List.length_cons, List.length_append] at hn; omega)
              refine ⟨st4, ?_, h4e⟩
              rw [List.append_assoc]
              simp only [List.cons_append, setLoop] at h3 ⊢
              have hf2 : nonAsciiSet.failed st2 = false := hst2
              rw [hf2, if_neg (by simp), if_neg hc, h3]
              exact h4

theorem setFinish_true {σ : Type} {H : SetHandler σ} (hE : ∀ st, H.failed (H.error st) = true) {s view rest : List Nat} {st : σ}
    {r : Option (σ × Bool × List Nat)} (h : setFinish H s r = some (st, view, rest)) (hf : H.failed st = false) :
    r = some (st, true, rest) ∧ view = s.take (s.length - rest.length) := by
  unfold setFinish at h
  split at h
  · cases h
  · simp only [Option.some.injEq, Prod.mk.injEq] at h
    obtain ⟨rfl, rfl, rfl⟩ := h
    exact ⟨rfl, rfl⟩
  · simp only [Option.some.injEq, Prod.mk.injEq] at h
    obtain ⟨rfl, _, _⟩ := h
    rw [hE] at hf; cases hf

theorem take_front (a b : List Nat) : (a ++ b).take ((a ++ b).length - b.length) = a := by
  rw [List.length_append, Nat.add_sub_cancel, List.take_left]

/-- A character set accepted by the format string parser can be parsed from its own text: the
    `SCN_ENSURE`s of `handle_nonascii` hold. -/
theorem parseSet_again {e : Enc} {st st1 : Setter} {s view rest : List Nat}
    (h : parseSet setterSet e st s = some (st1, view, rest)) (hf : st1.err = false) (hv : 2 < view.length) :
    ∃ st3, parseSet nonAsciiSet e ⟨[], false⟩ view = some (st3, view, []) ∧ st3.err = false := by
  have hE : ∀ st, setterSet.failed (setterSet.error st) = true := fun _ => rfl
  have fin : ∀ (pre t : List Nat) (r : Option (NonAscii × Bool × List Nat)) (st3 : NonAscii), r = some (st3, true, []) →
      setFinish nonAsciiSet (pre ++ (t ++ [93])) r = some (st3, pre ++ (t ++ [93]), []) := by
    intro pre t r st3 hr
    subst hr
    simp only [setFinish, List.length_nil, Nat.sub_zero, List.take_length]
  unfold parseSet at h
  split at h
  · rename_i s1
    split at h
    · cases h; simp at hv
    · rename_i s2
      dsimp only at h
      split at h
      · cases h; simp at hv
      · rename_i s3
        obtain ⟨h1, rfl⟩ := setFinish_true hE h hf
        obtain ⟨t, rfl, hloop⟩ := setLoop_again hE _ h1
        have e1 : 91 :: 94 :: 93 :: (t ++ 93 :: rest) = ([91, 94, 93] ++ (t ++ [93])) ++ rest := by simp
        rw [e1, take_front]
        obtain ⟨st3, h3, h3e⟩ := hloop ((t ++ [93]).length + 1) (nonAsciiSet.single ⟨[], false⟩ 93)
          (by show (NonAscii.onRange _ _ _).err = false; rw [nonAscii_range_ok]) (by simp; omega)
        exact ⟨st3, fin [91, 94, 93] t _ st3 h3, h3e⟩
      · rename_i hne1 hne2
        obtain ⟨h1, rfl⟩ := setFinish_true hE h hf
        obtain ⟨t, rfl, hloop⟩ := setLoop_again hE _ h1
        have e1 : 91 :: 94 :: (t ++ 93 :: rest) = ([91, 94] ++ (t ++ [93])) ++ rest := by simp
        rw [e1, take_front]
        obtain ⟨st3, h3, h3e⟩ := hloop ((t ++ [93]).length + 1) ⟨[], false⟩ rfl (by simp; omega)
        refine ⟨st3, ?_, h3e⟩
        cases t with
        | nil => exact absurd rfl (hne2 rest)
        | cons a t' =>
          have ha : a ≠ 93 := fun ha => hne2 (t' ++ 93 :: rest) (by rw [ha]; rfl)
          show parseSet nonAsciiSet e ⟨[], false⟩ (91 :: 94 :: a :: (t' ++ [93])) = _
          simp only [parseSet]
          split
          · rename_i heq; cases heq
          · rename_i heq; exact absurd (List.cons.inj heq).1 ha
          · exact fin [91, 94] (a :: t') _ st3 h3
    · cases h; simp at hv
    · rename_i hn1 hn2 hn3
      obtain ⟨h1, rfl⟩ := setFinish_true hE h hf
      obtain ⟨t, rfl, hloop⟩ := setLoop_again hE _ h1
      have e1 : 91 :: (t ++ 93 :: rest) = ([91] ++ (t ++ [93])) ++ rest := by simp
      rw [e1, take_front]
      obtain ⟨st3, h3, h3e⟩ := hloop ((t ++ [93]).length + 1) ⟨[], false⟩ rfl (by simp; omega)
      refine ⟨st3, ?_, h3e⟩
      cases t with
      | nil => exact absurd rfl (hn3 rest)
      | cons a t' =>
        have ha : a ≠ 93 := fun ha => hn3 (t' ++ 93 :: rest) (by rw [ha]; rfl)
        have ha2 : a ≠ 94 := fun ha => hn2 (t' ++ 93 :: rest) (by rw [ha]; rfl)
        show parseSet nonAsciiSet e ⟨[], false⟩ (91 :: a :: (t' ++ [93])) = _
        simp only [parseSet]
        split
        · rename_i heq; cases heq
        · rename_i heq; exact absurd (List.cons.inj heq).1 ha2
        · rename_i heq; exact absurd (List.cons.inj heq).1 ha
        · exact fin [91] (a :: t') _ st3 h3
  · cases h

end Scn
