import Verif.Lemmas.Driver4
/-
Format strings without fields.
-/
namespace Scn
open Spec
variable {V : Type}

theorem encode_ascii (e : Enc) (c : Nat) (h : c < 128) : encode e c = [c] := by
  cases e with
  | utf8 =>
    rcases utf8_cases c with ⟨h1, hx⟩ | ⟨h1, hx⟩ | ⟨h1, hx⟩ | ⟨h1, hx⟩
    · exact hx
    all_goals omega
  | utf16 => simp only [encode, utf16]; rw [if_pos (by omega)]
  | utf32 => rfl

theorem encode_mem_ascii (e : Enc) (cp c : Nat) (h : IsScalar cp) (hc : c ∈ encode e cp) (hl : c < 128) : cp = c := by
  have hs := h.2
  cases e with
  | utf8 =>
    have hc : c ∈ utf8 cp := hc
    rcases utf8_cases cp with ⟨h1, hx⟩ | ⟨h1, hx⟩ | ⟨h1, hx⟩ | ⟨h1, hx⟩ <;> rw [hx] at hc <;> simp at hc <;> omega
  | utf16 =>
    simp only [encode, utf16] at hc
    split at hc
    · simp at hc; omega
    · simp at hc; omega
  | utf32 => simp [encode] at hc; omega

theorem encodes_noBrace {e : Enc} {u : List Nat} (hs : ∀ cp ∈ u, IsScalar cp) (hb : NoBrace u) :
    NoBrace (encodes e u) := by
  intro c hc
  obtain ⟨cp, h1, h2⟩ := List.mem_flatMap.1 hc
  cases hx : isBrace c with
  | false => rfl
  | true =>
    have : c = 123 ∨ c = 125 := by simpa [isBrace] using hx
    have := encode_mem_ascii e cp c (hs cp h1) h2 (by omega)
    subst this
    rw [hb cp h1] at hx; cases hx

theorem onLiteral_spec (env : Env V)
    (hsk : ∀ cps : List Nat, (∀ cp ∈ cps, IsScalar cp) →
      env.skip (encodes env.enc cps) = some (encodes env.enc (cps.dropWhile isSpace)))
    (st : FH V) (t s : List Nat) (ht : ∀ cp ∈ t, Simple env.enc cp) (hs : ∀ cp ∈ s, IsScalar cp)
    (hsrc : st.src = encodes env.enc s) (he : st.err = none ∨ st.err = some .invalidLiteral) :
    ∃ st' r, FH.onLiteral env st (encodes env.enc t) = some st' ∧ st'.src = encodes env.enc r ∧
      (∀ cp ∈ r, IsScalar cp) ∧ st'.lower = st.lower ∧ (st'.err = none ∨ st'.err = some .invalidLiteral) ∧
      (st'.err = none → st.err = none ∧ matchText t s = some r) ∧
      (st.err = none → ∀ r', matchText t s = some r' → r' ≠ [] ∨ EndsInText t → st'.err = none) := by
  obtain ⟨r, f, h1, h2, h3, h4, h5⟩ := litLoop_spec env hsk (encodes env.enc t).length t s ht hs (Nat.le_refl _)
  unfold FH.onLiteral
  rw [hsrc, h1]
  cases f with
  | none =>
    exact ⟨_, r, rfl, rfl, h2, rfl, he, fun h => ⟨h, h4 rfl⟩, fun h _ _ _ => h⟩
  | some x =>
    have hx : x = .invalidLiteral := by simpa using h3
    subst hx
    refine ⟨_, r, rfl, rfl, h2, rfl, Or.inr rfl, fun h => by simp [FH.onError] at h, ?_⟩
    intro _ r' hr' hor
    have := h5 r' hr' hor
    simp at this

theorem EndsInText.right {a b : List Nat} (h : EndsInText (a ++ b)) : EndsInText b := by
  intro c hc
  apply h
  rw [List.getLast?_append, hc]; rfl

theorem isSpace_brace {c : Nat} (h : c = 123 ∨ c = 125) : isSpace c = false := by
  rcases h with rfl | rfl <;> decide

theorem simple_scalar {e : Enc} {t : List Nat} (h : ∀ cp ∈ t, Simple e cp) : ∀ cp ∈ t, IsScalar cp :=
  fun cp hcp => (h cp hcp).1

theorem simple_brace (e : Enc) {c : Nat} (h : c = 123 ∨ c = 125) : Simple e c :=
  ⟨⟨by omega, by omega⟩, Or.inr (by rw [encode_ascii e c (by omega)]; rfl)⟩

theorem loop_literal (env : Env V)
    (hsk : ∀ cps : List Nat, (∀ cp ∈ cps, IsScalar cp) →
      env.skip (encodes env.enc cps) = some (encodes env.enc (cps.dropWhile isSpace))) (t : List Nat) :
    ∀ (n : Nat) (st : FH V) (u s : List Nat), (∀ cp ∈ t, Simple env.enc cp) → (∀ cp ∈ u, Simple env.enc cp) →
      NoBrace u → (∀ cp ∈ s, IsScalar cp) → st.src = encodes env.enc s →
      (st.err = none ∨ st.err = some .invalidLiteral) → t.length < n →
      ∃ st' r, parseLoop (runHandler env) n st (encodes env.enc (u ++ escape t)) = some st' ∧
        st'.lower = st.lower ∧ (st'.err = none ∨ st'.err = some .invalidLiteral) ∧
        (st'.err = none → st.err = none ∧ matchText (u ++ t) s = some r ∧ st'.src = encodes env.enc r) ∧
        (st.err = none → ∀ r', matchText (u ++ t) s = some r' → r' ≠ [] ∨ EndsInText (u ++ t) → st'.err = none) := by
  induction t with
  | nil =>
    intro n st u s _ hu hnb hs hsrc he hn
    cases n with
    | zero => omega
    | succ n =>
    simp only [escape, List.append_nil]
    rw [parseLoop_end _ n st (encodes_noBrace (simple_scalar hu) hnb)]
    obtain ⟨st', r, h1, h2, h3, h4, h5, h6, h7⟩ := onLiteral_spec env hsk st u s hu hs hsrc he
    exact ⟨st', r, h1, h4, h5, fun h => ⟨(h6 h).1, (h6 h).2, h2⟩, h7⟩
  | cons c t ih =>
    intro n st u s ht hu hnb hs hsrc he hn
    have htS : ∀ cp ∈ t, Simple env.enc cp := fun cp hcp => ht cp (by simp [hcp])
    by_cases hb : c = 123 ∨ c = 125
    · cases n with
      | zero => omega
      | succ n =>
      have hcs := simple_brace env.enc hb
      have henc : encodes env.enc (u ++ escape (c :: t)) =
          encodes env.enc u ++ c :: c :: encodes env.enc (escape t) := by
        rw [encodes_append]
        simp only [escape, if_pos hb, encodes_cons, encode_ascii env.enc c (by omega)]
        rfl
      rw [henc]
      have hspc := isSpace_brace hb
      -- the specification of the text in two parts
      have hnil : ∀ (a r' : List Nat), matchText (c :: a) [] ≠ some r' := by
        intro a r'; simp [matchText, hspc]
      rcases hb with rfl | rfl
      · rw [parseLoop_open _ n st (encodes_noBrace (simple_scalar hu) hnb)]
        obtain ⟨st1, r1, h1, h2, h3, h4, h5, h6, h7⟩ := onLiteral_spec env hsk st u s hu hs hsrc he
        have h1' : (runHandler env).onLiteral st (encodes env.enc u) = some st1 := h1
        rw [h1']; simp only
        rw [parseField_escape]
        obtain ⟨st2, r2, g1, g2, g3, g4, g5, g6, g7⟩ := onLiteral_spec env hsk st1 [123] r1
          (by intro cp hcp; simp at hcp; rw [hcp]; exact hcs) h3 h2 h5
        have hb1 : encodes env.enc [123] = [123] := by
          rw [encodes_cons, encode_ascii env.enc 123 (by omega)]; rfl
        rw [hb1] at g1
        have g1' : (runHandler env).onLiteral st1 [123] = some st2 := g1
        rw [g1']; simp only [Option.map_some]
        by_cases hse : st2.err = none
        · rw [if_neg (by simp [runHandler, hse])]
          obtain ⟨st3, r3, k1, k2, k3, k4, k5⟩ := ih n st2 [] r2 htS (by simp) NoBrace.nil g3 g2 g5 (by simp at hn; omega)
          simp only [List.nil_append] at k1 k4 k5
          obtain ⟨m1, m2⟩ := g6 hse
          obtain ⟨m3, m4⟩ := h6 m1
          have hsplit : matchText (u ++ 123 :: t) s = matchText t r2 := by
            rw [matchText_append, m4, Option.bind_some, show 123 :: t = [123] ++ t from rfl, matchText_append, m2]; rfl
          refine ⟨st3, r3, k1, by rw [k2, g4, h4], k3, ?_, ?_⟩
          · intro h; exact ⟨m3, by rw [hsplit]; exact (k4 h).2.1, (k4 h).2.2⟩
          · intro _ r' hr' hor
            rw [hsplit] at hr'
            refine k5 hse r' hr' (hor.imp id fun h => ?_)
            have := h.right
            exact EndsInText.tail this
        · rw [if_pos (by simp only [runHandler]; exact Option.isSome_iff_ne_none.2 hse)]
          refine ⟨st2, [], rfl, by rw [g4, h4], g5, fun h => absurd h hse, ?_⟩
          intro he0 r' hr' hor
          exfalso
          rw [matchText_append] at hr'
          cases hm : matchText u s with
          | none => rw [hm] at hr'; simp at hr'
          | some w =>
            rw [hm, Option.bind_some] at hr'
            have hw : w ≠ [] := by rintro rfl; exact hnil t r' hr'
            have e1 := h7 he0 w hm (Or.inl hw)
            obtain ⟨_, m4⟩ := h6 e1
            rw [hm] at m4
            simp only [Option.some.injEq] at m4
            subst m4
            rw [show 123 :: t = [123] ++ t from rfl, matchText_append] at hr'
            cases hm2 : matchText [123] w with
            | none => rw [hm2] at hr'; simp at hr'
            | some w2 =>
              exact hse (g7 e1 w2 hm2 (Or.inr (by intro x hx; simp at hx; subst hx; exact hspc)))
      · rw [parseLoop_close _ n st (encodes_noBrace (simple_scalar hu) hnb)]
        have hu1 : ∀ cp ∈ u ++ [125], Simple env.enc cp := by
          intro cp hcp
          rcases List.mem_append.1 hcp with h | h
          · exact hu cp h
          · simp at h; rw [h]; exact hcs
        obtain ⟨st1, r1, h1, h2, h3, h4, h5, h6, h7⟩ := onLiteral_spec env hsk st (u ++ [125]) s hu1 hs hsrc he
        have hb1 : encodes env.enc (u ++ [125]) = encodes env.enc u ++ [125] := by
          rw [encodes_append, encodes_cons, encode_ascii env.enc 125 (by omega)]; rfl
        rw [hb1] at h1
        have h1' : (runHandler env).onLiteral st (encodes env.enc u ++ [125]) = some st1 := h1
        rw [h1']; simp only
        obtain ⟨st3, r3, k1, k2, k3, k4, k5⟩ := ih n st1 [] r1 htS (by simp) NoBrace.nil h3 h2 h5 (by simp at hn; omega)
        simp only [List.nil_append] at k1 k4 k5
        have happ : u ++ 125 :: t = (u ++ [125]) ++ t := by simp
        have hends : EndsInText (u ++ [125]) := by
          intro x hx; simp at hx; subst hx; exact hspc
        refine ⟨st3, r3, k1, by rw [k2, h4], k3, ?_, ?_⟩
        · intro h
          obtain ⟨q1, q2, q3⟩ := k4 h
          obtain ⟨q4, q5⟩ := h6 q1
          refine ⟨q4, ?_, q3⟩
          rw [happ, matchText_append, q5]; exact q2
        · intro he0 r' hr' hor
          rw [happ, matchText_append] at hr'
          cases hm : matchText (u ++ [125]) s with
          | none => rw [hm] at hr'; simp at hr'
          | some w =>
            rw [hm, Option.bind_some] at hr'
            have e1 := h7 he0 w hm (Or.inr hends)
            obtain ⟨_, m4⟩ := h6 e1
            rw [hm] at m4
            simp only [Option.some.injEq] at m4
            subst m4
            refine k5 e1 r' hr' (hor.imp id fun h => ?_)
            rw [happ] at h
            exact h.right
    · have hc1 : ∀ cp ∈ u ++ [c], Simple env.enc cp := by
        intro cp hcp
        rcases List.mem_append.1 hcp with h | h
        · exact hu cp h
        · simp at h; rw [h]; exact ht c (by simp)
      have := ih n st (u ++ [c]) s htS hc1 (hnb.snoc hb) hs hsrc he (by simp at hn; omega)
      simp only [List.append_assoc, List.cons_append, List.nil_append] at this
      simp only [escape, if_neg hb]
      exact this

/-- A scan call without arguments: the format is literal text. -/
theorem vscan_literal (env : Env V) (hc : env.count = 0)
    (hsk : ∀ cps : List Nat, (∀ cp ∈ cps, IsScalar cp) →
      env.skip (encodes env.enc cps) = some (encodes env.enc (cps.dropWhile isSpace)))
    (t s : List Nat) (ht : ∀ cp ∈ t, Simple env.enc cp) (hs : ∀ cp ∈ s, IsScalar cp) :
    ∃ evs res, vscan env (encodes env.enc (escape t)) (encodes env.enc s) = some (res, evs) ∧
      ((res = .error .invalidLiteral ∧ ∀ r', matchText t s = some r' → r' = [] ∧ ¬ EndsInText t) ∨
        ∃ r, res = .ok (encodes env.enc r) ∧ matchText t s = some r) := by
  have hlen : ∀ l : List Nat, l.length ≤ (encodes env.enc (escape l)).length := by
    intro l
    induction l with
    | nil => simp
    | cons c l ih =>
      have hne : ∀ x, 1 ≤ (encode env.enc x).length := fun x => List.length_pos_iff.2 (encode_ne_nil env.enc x)
      have := hne c
      simp only [escape]
      split
      · simp only [encodes_cons, List.length_append, List.length_cons]; omega
      · simp only [encodes_cons, List.length_append, List.length_cons]; omega
  obtain ⟨st, r, h1, h2, h3, h4, h5⟩ := loop_literal env hsk t
    (parseFuel env.count (encodes env.enc (escape t)))
    (FH.init env.count (encodes env.enc (escape t)) (encodes env.enc s)) [] s ht (by simp) NoBrace.nil hs rfl
    (Or.inl rfl) (by
      have := hlen t
      rw [hc]; unfold parseFuel; omega)
  simp only [List.nil_append] at h1 h4 h5
  unfold vscan
  rw [if_neg (by rw [hc]; simp)]
  unfold vscanGeneral
  rw [h1]
  simp only
  rw [checkExhausted_cases (by rw [hc]; decide), h2]
  simp only [hc, FH.init, Option.map_some, if_true]
  rcases h3 with h3 | h3
  · obtain ⟨_, h7, h8⟩ := h4 h3
    refine ⟨_, _, rfl, Or.inr ⟨r, ?_, h7⟩⟩
    rw [h3, h8]
  · refine ⟨_, _, rfl, Or.inl ⟨by rw [h3], ?_⟩⟩
    intro r' hr'
    have := fun hor => h5 rfl r' hr' hor
    rw [h3] at this
    simp only [reduceCtorEq, imp_false, not_or] at this
    exact ⟨Classical.not_not.1 this.1, this.2⟩

end Scn
