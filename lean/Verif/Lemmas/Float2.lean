import Verif.Lemmas.Float
/-
Infinities, NaNs and conversions.
-/
namespace Scn
open Spec

/-! ### Words -/

theorem lower_eq {c l : Nat} (hl : 97 ≤ l ∧ l ≤ 122) : lower c = l ↔ c = l ∨ c = l - 32 := by
  unfold lower; split <;> omega

theorem xor32_lower {l : Nat} (hl : 97 ≤ l ∧ l ≤ 122) : 32 ^^^ l = l - 32 := by
  have : ∀ l < 123, 97 ≤ l → 32 ^^^ l = l - 32 := by decide
  exact this l (by omega) hl.1

theorem zip_all_iff {l : List Nat} (hl : ∀ c ∈ l, 97 ≤ c ∧ c ≤ 122) : ∀ {a : List Nat}, a.length = l.length →
    ((∀ p ∈ a.zip l, p.1 = p.2 ∨ p.1 = 32 ^^^ p.2) ↔ a.map lower = l) := by
  induction l with
  | nil => intro a h; cases a with | nil => simp | cons => cases h
  | cons x l ih =>
    intro a h
    cases a with
    | nil => cases h
    | cons y a =>
      have := ih (fun c hc => hl c (by simp [hc])) (a := a) (by simpa using h)
      rw [List.zip_cons_cons, List.map_cons, List.cons.injEq, ← this]
      simp only [List.mem_cons, forall_eq_or_imp]
      rw [lower_eq (hl x (by simp)), xor32_lower (hl x (by simp))]

/-- A word is matched in any case, on all sources. -/
theorem readMatching_word (k : Src) (s : List Nat) {w : List Nat} (hw : ∀ c ∈ w, 97 ≤ c ∧ c ≤ 122) (r : List Nat) :
    readMatchingNocase k s w = some r ↔ ∃ a, s = a ++ r ∧ a.map lower = w := by
  have hm : (s.take w.length).map asciiTolower = (s.take w.length).map lower := by
    congr 1; funext c; unfold asciiTolower lower; split <;> split <;> omega
  have hlen : ∀ a : List Nat, a.map lower = w → a.length = w.length := fun a h => by rw [← h, List.length_map]
  have hiff : readMatchingNocase k s w = some r ↔ (w.length ≤ s.length ∧ (s.take w.length).map lower = w ∧ s.drop w.length = r) := by
    unfold readMatchingNocase
    by_cases h : s.length < w.length
    · rw [if_pos h]
      constructor
      · intro h; cases h
      · intro h'; omega
    · rw [if_neg h, hm]
      have hb : fastStreqNocase (s.take w.length) w = true ↔ (s.take w.length).map lower = w := by
        have hl : (s.take w.length).length = w.length := by rw [List.length_take]; omega
        rw [fastStreqNocase_iff _ _ hl, zip_all_iff hw hl]
      by_cases h' : (s.take w.length).map lower = w
      · rw [if_pos (hb.2 h'), if_pos h']
        simp only [ite_self, Option.some.injEq]
        constructor
        · intro h2; exact ⟨by omega, h', h2⟩
        · intro h2; exact h2.2.2
      · rw [if_neg (fun h2 => h' (hb.1 h2)), if_neg h']
        simp only [ite_self]
        constructor
        · intro h2; cases h2
        · intro h2; exact absurd h2.2.1 h'
  rw [hiff]
  constructor
  · rintro ⟨h1, h2, h3⟩
    exact ⟨s.take w.length, by rw [← h3, List.take_append_drop], h2⟩
  · rintro ⟨a, rfl, h⟩
    have := hlen a h
    refine ⟨by rw [List.length_append]; omega, ?_, ?_⟩
    · rw [List.take_left' this]; exact h
    · rw [List.drop_left' this]

theorem word_prefix_eq {w a b r s : List Nat} (h1 : a.map lower = w) (h2 : b.map lower = w) (h3 : a ++ r = b ++ s) : a = b ∧ r = s := by
  apply List.append_inj h3
  have := congrArg List.length h1
  have h := congrArg List.length h2
  rw [List.length_map] at this h
  omega

theorem wI : ∀ c ∈ [105, 110, 102], 97 ≤ c ∧ c ≤ 122 := by decide
theorem wI2 : ∀ c ∈ [105, 110, 105, 116, 121], 97 ≤ c ∧ c ≤ 122 := by decide
theorem wN : ∀ c ∈ [110, 97, 110], 97 ≤ c ∧ c ≤ 122 := by decide

/-- Texts that begin with a letter that no numeral begins with. -/
theorem number_head {ty : Pres} {t : List Nat} (h : NumberText ty t) : ∃ c cs, t = c :: cs ∧ (IsDigit 16 c ∨ c = 46) := by
  have sig : ∀ base, base ≤ 16 → ∀ m x, Significand base m → ∃ c cs, m ++ x = c :: cs ∧ (IsDigit 16 c ∨ c = 46) := by
    rintro base hb m x ⟨i, f, rfl, h1, h2, h3⟩
    cases i with
    | cons c i =>
      obtain ⟨d, hd, hlt⟩ := h1 c (by simp)
      exact ⟨c, i ++ f ++ x, by simp, Or.inl ⟨d, hd, by omega⟩⟩
    | nil =>
      rcases h2 with rfl | ⟨ds, rfl, _⟩
      · simp at h3
      · exact ⟨46, ds ++ x, by simp, Or.inr rfl⟩
  have dec : ∀ f s, DecText f s t → ∃ c cs, t = c :: cs ∧ (IsDigit 16 c ∨ c = 46) := by
    rintro f s ⟨m, x, rfl, hm, _⟩
    exact sig 10 (by decide) m x hm
  have ph : PrefixedHex t → ∃ c cs, t = c :: cs ∧ (IsDigit 16 c ∨ c = 46) := by
    rintro ⟨x, h, rfl, _⟩
    exact ⟨48, _, rfl, Or.inl (by decide)⟩
  cases ty <;> try exact h.elim
  · rcases h with h | h
    · exact dec _ _ h
    · exact ph h
  · rcases h with h | ⟨m, x, rfl, hm, _⟩
    · exact ph h
    · exact sig 16 (by decide) m x hm
  · exact dec _ _ h
  · exact dec _ _ h
  · exact dec _ _ h

theorem lower_head {a r : List Nat} {l : Nat} {w : List Nat} (hl : 97 ≤ l ∧ l ≤ 122) (h : a.map lower = l :: w) : ∃ c cs, a ++ r = c :: cs ∧ (c = l ∨ c = l - 32) := by
  cases a with
  | nil => cases h
  | cons c a =>
    rw [List.map_cons, List.cons.injEq] at h
    exact ⟨c, a ++ r, rfl, (lower_eq hl).1 h.1⟩

theorem inf_head {t : List Nat} (h : InfText t) : ∃ c cs, t = c :: cs ∧ (c = 105 ∨ c = 73) := by
  rcases h with h | h
  · obtain ⟨c, cs, h1, h2⟩ := lower_head (r := []) (by decide) h
    exact ⟨c, cs, by simpa using h1, h2⟩
  · obtain ⟨c, cs, h1, h2⟩ := lower_head (r := []) (by decide) h
    exact ⟨c, cs, by simpa using h1, h2⟩

theorem nan_head {t : List Nat} (h : NanText t) : ∃ c cs, t = c :: cs ∧ (c = 110 ∨ c = 78) := by
  obtain ⟨a, p, rfl, h, _⟩ := h
  exact lower_head (by decide) h

theorem not_number_of_letter {ty : Pres} {t s : List Nat} {c : Nat} {cs : List Nat} (h : NumberText ty t) (hp : t <+: s) (hs : s = c :: cs) :
    c ≠ 105 ∧ c ≠ 73 ∧ c ≠ 110 ∧ c ≠ 78 := by
  obtain ⟨c', cs', rfl, h'⟩ := number_head h
  obtain ⟨v, hv⟩ := hp
  rw [hs] at hv
  obtain ⟨rfl, _⟩ := List.cons.inj hv
  rcases h' with h | rfl
  · have : ∀ x, IsDigit 16 x → x ≠ 105 ∧ x ≠ 73 ∧ x ≠ 110 ∧ x ≠ 78 := by
      intro x hx
      refine ⟨?_, ?_, ?_, ?_⟩ <;> (rintro rfl; revert hx; decide)
    exact this _ h
  · decide

/-- `readInf` finds infinities, and the longest text of one. -/
theorem readInf_some {k : Src} {s : List Nat} {kd : FloatKind} (h : readInf k s = some kd) (ty : Pres) :
    ∃ t, InfText t ∧ Longest (FloatText ty) s t ∧ (kd = .infShort ∧ t.length = 3 ∨ kd = .infLong ∧ t.length = 8) := by
  unfold readInf at h
  cases h1 : readMatchingNocase k s [105, 110, 102] with
  | none => rw [h1] at h; cases h
  | some r =>
    rw [h1] at h
    simp only [Option.map_some, Option.some.injEq] at h
    obtain ⟨a, rfl, ha⟩ := (readMatching_word k s wI r).1 h1
    have hal : a.length = 3 := by have := congrArg List.length ha; simpa using this
    obtain ⟨c, cs, hs, hc⟩ := lower_head (r := r) (by decide) ha
    have hno : ∀ q, FloatText ty q → q <+: a ++ r → InfText q := by
      rintro q (h | h | h) hq
      · exact h
      · obtain ⟨c', cs', rfl, h'⟩ := nan_head h
        obtain ⟨v, hv⟩ := hq
        rw [hs] at hv
        obtain ⟨rfl, _⟩ := List.cons.inj hv
        omega
      · have := not_number_of_letter h hq hs
        omega
    cases h2 : readMatchingNocase k r [105, 110, 105, 116, 121] with
    | some r' =>
      rw [h2] at h
      obtain ⟨b, rfl, hb⟩ := (readMatching_word k r wI2 r').1 h2
      have hbl : b.length = 5 := by have := congrArg List.length hb; simpa using this
      have hi : InfText (a ++ b) := Or.inr (by rw [List.map_append, ha, hb]; rfl)
      refine ⟨a ++ b, hi, ⟨Or.inl hi, ⟨r', by simp⟩, ?_⟩, Or.inr ⟨by simpa using h.symm, by simp [hal, hbl]⟩⟩
      intro q hq hp
      rcases hno q hq hp with h | h
      all_goals (have := congrArg List.length h; simp at this; simp; omega)
    | none =>
      rw [h2] at h
      have hi : InfText a := Or.inl ha
      refine ⟨a, hi, ⟨Or.inl hi, ⟨r, rfl⟩, ?_⟩, Or.inl ⟨by simpa using h.symm, hal⟩⟩
      intro q hq hp
      rcases hno q hq hp with h | h
      · have := congrArg List.length h; simp at this; omega
      · exfalso
        obtain ⟨v, hv⟩ := hp
        have h3 : (q.take 3).map lower = [105, 110, 102] := by rw [List.map_take, h]; rfl
        have h4 : (q.drop 3).map lower = [105, 110, 105, 116, 121] := by rw [List.map_drop, h]; rfl
        have h5 : q.take 3 ++ (q.drop 3 ++ v) = a ++ r := by rw [← List.append_assoc, List.take_append_drop, hv]
        have := (word_prefix_eq h3 ha h5).2
        have := (readMatching_word k r wI2 v).2 ⟨q.drop 3, this.symm, h4⟩
        rw [h2] at this
        cases this

theorem readInf_none {k : Src} {s : List Nat} (h : readInf k s = none) : ∀ q, InfText q → ¬ q <+: s := by
  unfold readInf at h
  rw [Option.map_eq_none_iff] at h
  rintro q hq ⟨v, rfl⟩
  have : ∃ v', q.take 3 ++ v' = q ++ v ∧ (q.take 3).map lower = [105, 110, 102] := by
    rcases hq with hq | hq
    · exact ⟨q.drop 3 ++ v, by rw [← List.append_assoc, List.take_append_drop], by rw [List.map_take, hq]; rfl⟩
    · exact ⟨q.drop 3 ++ v, by rw [← List.append_assoc, List.take_append_drop], by rw [List.map_take, hq]; rfl⟩
  obtain ⟨v', h1, h2⟩ := this
  rw [(readMatching_word k _ wI v').2 ⟨_, h1.symm, h2⟩] at h
  cases h

theorem payload_iff (c : Nat) : isPayloadChar c = true ↔ IsWordChar c := by
  unfold isPayloadChar IsWordChar
  simp only [Bool.or_eq_true, Bool.and_eq_true, decide_eq_true_eq, beq_iff_eq]
  omega

/-- `readNan` finds NaNs, and the longest text of one. -/
theorem readNan_ok {k : Src} {s : List Nat} {pl : Option (List Nat)} (h : readNan k s = some (.ok pl)) (ty : Pres) :
    ∃ t, NanText t ∧ Longest (FloatText ty) s t ∧ (pl = none ∧ t.length = 3 ∨ ∃ p, pl = some p ∧ t.length = 5 + p.length) := by
  unfold readNan at h
  cases h1 : readMatchingNocase k s [110, 97, 110] with
  | none => rw [h1] at h; cases h
  | some r =>
    rw [h1] at h
    simp only [Option.map_some, Option.some.injEq] at h
    obtain ⟨a, rfl, ha⟩ := (readMatching_word k s wN r).1 h1
    have hal : a.length = 3 := by have := congrArg List.length ha; simpa using this
    obtain ⟨c, cs, hs, hc⟩ := lower_head (r := r) (by decide) ha
    have hno : ∀ q, FloatText ty q → q <+: a ++ r → ∃ p, q = a ++ p ∧ p <+: r ∧ (p = [] ∨ ∃ q', p = 40 :: (q' ++ [41]) ∧ ∀ c ∈ q', IsWordChar c) := by
      rintro q (h | h | h) hq
      · obtain ⟨c', cs', rfl, h'⟩ := inf_head h
        obtain ⟨v, hv⟩ := hq
        rw [hs] at hv
        obtain ⟨rfl, _⟩ := List.cons.inj hv
        omega
      · obtain ⟨a', p, rfl, h3, h4⟩ := h
        obtain ⟨v, hv⟩ := hq
        rw [List.append_assoc] at hv
        obtain ⟨rfl, h5⟩ := word_prefix_eq h3 ha hv
        exact ⟨p, rfl, ⟨v, h5⟩, h4⟩
      · have := not_number_of_letter h hq hs
        omega
    have hna : NanText a := ⟨a, [], by simp, ha, Or.inl rfl⟩
    have short : pl = none → (∀ p, p <+: r → ∀ q', p = 40 :: (q' ++ [41]) → False) → ∃ t, NanText t ∧ Longest (FloatText ty) (a ++ r) t ∧ (pl = none ∧ t.length = 3 ∨ ∃ p, pl = some p ∧ t.length = 5 + p.length) := by
      intro h0 hr
      refine ⟨a, hna, ⟨Or.inr (Or.inl hna), ⟨r, rfl⟩, ?_⟩, Or.inl ⟨h0, hal⟩⟩
      intro q hq hp
      obtain ⟨p, rfl, hp, rfl | ⟨q', h3, h4⟩⟩ := hno q hq hp
      · simp
      · exact (hr p hp q' h3).elim
    cases r with
    | nil =>
      refine short (by cases h; rfl) ?_
      rintro p ⟨v, hv⟩ q' rfl
      cases hv
    | cons d r =>
      dsimp only at h
      by_cases hd : d = 40
      · subst hd
        rw [if_pos rfl] at h
        split at h
        · rename_i r' hr'
          cases h
          have hpre : r.takeWhile isPayloadChar <+: r := List.takeWhile_prefix _
          have hr := drop_of_prefix hpre
          rw [hr'] at hr
          generalize hw : r.takeWhile isPayloadChar = w at hr hpre
          have hww : ∀ c ∈ w, IsWordChar c := by rw [← hw]; exact fun c hc => (payload_iff c).1 (mem_takeWhile_true hc)
          have hn : NanText (a ++ 40 :: (w ++ [41])) := ⟨a, _, rfl, ha, Or.inr ⟨w, rfl, hww⟩⟩
          refine ⟨a ++ 40 :: (w ++ [41]), hn, ⟨Or.inr (Or.inl hn), ?_, ?_⟩, Or.inr ⟨w, rfl, by simp [hal]; omega⟩⟩
          · exact ⟨r', by rw [← hr]; simp⟩
          · intro q hq hp
            obtain ⟨p, rfl, ⟨v, hv⟩, rfl | ⟨q', rfl, h4⟩⟩ := hno q hq hp
            · simp
            · have hv2 : q' ++ (41 :: v) = r := by have := (List.cons.inj hv).2; rw [← this]; simp
              have : w = q' := by
                rw [← hw, ← hv2, takeWhile_all_append (fun c hc => (payload_iff c).2 (h4 c hc)), List.takeWhile_cons, if_neg (by decide)]
                simp
              rw [this]
              exact Nat.le_refl _
        · cases h
      · rw [if_neg hd] at h
        refine short (by cases h; rfl) ?_
        rintro p ⟨v, hv⟩ q' rfl
        exact hd (List.cons.inj hv).1.symm

theorem readNan_none {k : Src} {s : List Nat} (h : readNan k s = none) : ∀ q, NanText q → ¬ q <+: s := by
  unfold readNan at h
  rw [Option.map_eq_none_iff] at h
  rintro q ⟨a, p, rfl, ha, _⟩ ⟨v, rfl⟩
  rw [(readMatching_word k _ wN (p ++ v)).2 ⟨a, by simp, ha⟩] at h
  cases h

theorem readNan_cases {k : Src} {s : List Nat} {x : Res (Option (List Nat))} (h : readNan k s = some x) : (∃ pl, x = .ok pl) ∨ x = .err .invalidScannedValue := by
  unfold readNan at h
  cases h1 : readMatchingNocase k s [110, 97, 110] with
  | none => rw [h1] at h; cases h
  | some r =>
    rw [h1] at h
    simp only [Option.map_some, Option.some.injEq] at h
    subst h
    cases r with
    | nil => exact Or.inl ⟨none, rfl⟩
    | cons d r =>
      dsimp only
      split
      · split
        · exact Or.inl ⟨_, rfl⟩
        · exact Or.inr rfl
      · exact Or.inl ⟨none, rfl⟩

/-- Texts that begin with a digit are no words. -/
theorem readInf_digit {k : Src} {c : Nat} {cs : List Nat} (hc : IsDigit 16 c) : readInf k (c :: cs) = none := by
  cases h : readInf k (c :: cs) with
  | none => rfl
  | some kd =>
    obtain ⟨t, ht, ⟨_, ⟨v, hv⟩, _⟩, _⟩ := readInf_some h .none
    obtain ⟨c', cs', rfl, h'⟩ := inf_head ht
    obtain ⟨rfl, _⟩ := List.cons.inj hv
    rcases h' with rfl | rfl <;> exact absurd hc (by decide)

theorem readNan_digit {k : Src} {c : Nat} {cs : List Nat} (hc : IsDigit 16 c) : readNan k (c :: cs) = none := by
  unfold readNan
  rw [Option.map_eq_none_iff]
  cases h : readMatchingNocase k (c :: cs) [110, 97, 110] with
  | none => rfl
  | some r =>
    obtain ⟨a, h1, ha⟩ := (readMatching_word k _ wN r).1 h
    obtain ⟨c', cs', h2, h'⟩ := lower_head (r := r) (by decide) ha
    rw [h2] at h1
    obtain ⟨rfl, _⟩ := List.cons.inj h1
    rcases h' with rfl | rfl <;> exact absurd hc (by decide)

/-! ### Conversions -/

/-- What a conversion gives. -/
def roundOutcome {V : Type} (r : Rounded V) (n : Nat) : Res (V × Nat) :=
  match r with
  | .finite v => .ok (v, n)
  | .tooLarge => .err .valuePositiveOverflow
  | .tooSmall => .err .valuePositiveUnderflow

theorem strtodImpl_input {V : Type} {cv : FloatConv V} {round : List Nat → Rounded V} (hcv : ConvOk cv round) {e : Enc} {kind : FloatKind} {b : FloatBuffer}
    {c : Nat} {t' p : List Nat} (ht : strtodInput e b = some (c :: t')) (hc : IsDigit 10 c) (hpl : p ≠ [])
    (hL : Longest StrtodText ((if kind = .hexWithout then [48, 120] else []) ++ (c :: t')) ((if kind = .hexWithout then [48, 120] else []) ++ p)) :
    strtodImpl cv e kind b = roundOutcome (round ((if kind = .hexWithout then [48, 120] else []) ++ p)) p.length := by
  have hform : ∀ pre : List Nat, pre = (if kind = .hexWithout then [48, 120] else []) →
      ∃ d ds, pre ++ (c :: t') = d :: ds ∧ IsDigit 10 d ∧ (if kind = .hexWithout then 48 :: 120 :: (c :: t') else c :: t') = d :: ds := by
    rintro pre rfl
    by_cases h : kind = .hexWithout
    · rw [if_pos h, if_pos h]; exact ⟨48, 120 :: c :: t', rfl, by decide, rfl⟩
    · rw [if_neg h, if_neg h]; exact ⟨c, t', rfl, hc, rfl⟩
  obtain ⟨d, ds, h1, h2, h3⟩ := hform _ rfl
  generalize hpre : (if kind = .hexWithout then [48, 120] else []) = pre at *
  have hL' : Longest StrtodText (d :: ds) (pre ++ p) := by
    rw [← h1]
    exact hL
  have hs := hcv.strtod d ds (pre ++ p) h2 hL'
  unfold strtodImpl
  rw [ht]
  dsimp only
  rw [h3]
  have hread : (cv.strtod (d :: ds)).read ≠ 0 := by
    rw [hs.1, List.length_append]
    have : p.length ≠ 0 := fun h => hpl (List.eq_nil_of_length_eq_zero h)
    omega
  have hn : (if kind = .hexWithout ∧ (cv.strtod (d :: ds)).read ≥ 2 then (cv.strtod (d :: ds)).read - 2 else (cv.strtod (d :: ds)).read) = p.length := by
    rw [hs.1, List.length_append]
    by_cases h : kind = .hexWithout
    · have : pre.length = 2 := by rw [← hpre, if_pos h]; rfl
      rw [if_pos ⟨h, by omega⟩]; omega
    · have : pre.length = 0 := by rw [← hpre, if_neg h]; rfl
      rw [if_neg (fun h' => h h'.1)]; omega
  rw [hn, if_neg (by simp [hread])]
  have h4 := hs.2
  cases hr : round (pre ++ p) with
  | finite v =>
    rw [hr] at h4
    dsimp only at h4
    obtain ⟨h5, h6, h7⟩ := h4
    rw [h5, if_neg (by
      intro h
      rw [Bool.and_eq_true] at h
      rw [h7 h.2] at h
      exact absurd h.1 (by decide)), h6, if_neg (by decide)]
    rfl
  | tooLarge =>
    rw [hr] at h4
    dsimp only at h4
    rw [h4.1, h4.2, if_neg (by simp), if_pos rfl]
    rfl
  | tooSmall =>
    rw [hr] at h4
    dsimp only at h4
    rw [h4.1, h4.2, if_pos (by decide)]
    rfl

theorem strtodImpl_eq {V : Type} {cv : FloatConv V} {round : List Nat → Rounded V} (hcv : ConvOk cv round) (e : Enc) (kind : FloatKind) (stores : Bool)
    {c : Nat} {cs p : List Nat} (hc : IsDigit 10 c) (hp : p <+: c :: cs) (hpl : p ≠ [])
    (hL : Longest StrtodText ((if kind = .hexWithout then [48, 120] else []) ++ (c :: cs)) ((if kind = .hexWithout then [48, 120] else []) ++ p))
    (hb : e = .utf8 → ∀ u ∈ c :: cs, u < 256) :
    strtodImpl cv e kind ⟨if stores then some (c :: cs) else none, c :: cs, 0⟩ = roundOutcome (round ((if kind = .hexWithout then [48, 120] else []) ++ p)) p.length := by
  -- the text
  obtain ⟨t, ht, htp, hpt⟩ : ∃ t, strtodInput e ⟨if stores then some (c :: cs) else none, c :: cs, 0⟩ = some t ∧ t <+: c :: cs ∧ p <+: t := by
    cases stores with
    | true => exact ⟨c :: cs, rfl, List.prefix_refl _, hp⟩
    | false =>
      obtain ⟨r, hr⟩ := hp
      have hplain : ∀ u ∈ p, PlainUnit u := fun u hu => plain_strtod hL.1 u (by simp [hu])
      obtain ⟨q, h1, ⟨w, hw⟩⟩ := untilSpace_plain e r hplain (by rw [hr]; exact hb)
      rw [hr] at h1
      refine ⟨p ++ w, ?_, ?_, ⟨w, rfl⟩⟩
      · show (readUntilSpace e .contiguous (c :: cs)).map _ = _
        rw [h1, Option.map_some, ← hr, ← hw]
        congr 1
        rw [show p ++ (w ++ q) = (p ++ w) ++ q by simp, List.length_append, Nat.add_sub_cancel, List.take_left]
      · rw [← hr, ← hw]; exact ⟨q, by simp⟩
  obtain ⟨t', rfl⟩ : ∃ t', t = c :: t' := by
    cases p with
    | nil => exact absurd rfl hpl
    | cons d p =>
      obtain ⟨a, ha⟩ := hpt
      obtain ⟨b, hb'⟩ := htp
      cases t with
      | nil => cases ha
      | cons x t => exact ⟨t, by rw [(List.cons.inj hb').1]⟩
  exact strtodImpl_input hcv ht hc hpl (longest_mono hL ((List.prefix_append_right_inj _).2 hpt) ((List.prefix_append_right_inj _).2 htp))

/-- Kinds of decimal numbers. -/
def DecKind (kd : FloatKind) : Prop := kd = .generic ∨ kd = .fixed ∨ kd = .scientific

theorem charToInt_ge {c : Nat} (hc : IsDigit 10 c) : ¬ charToInt c ≥ 10 := by
  have := (charToInt_lt_iff 10 c (by decide)).2 hc; omega

theorem charToInt_ge16 {c : Nat} (hc : IsDigit 10 c) : ¬ charToInt c ≥ 16 := by
  have := (charToInt_lt_iff 10 c (by decide)).2 hc; omega

theorem dispatch_view {V : Type} {cv : FloatConv V} {round : List Nat → Rounded V} (hcv : ConvOk cv round) {e : Enc} {o : FloatOpts} {kd : FloatKind} (hk : DecKind kd)
    {b : FloatBuffer} {c : Nat} {cs p pl : List Nat} (hv : b.view = c :: cs) (hc : IsDigit 10 c) (hf : Longest (DecText o.fixed o.sci) (c :: cs) p)
    (hs : strtodImpl cv e kd b = roundOutcome (round p) p.length) : floatDispatch cv e o kd b pl = roundOutcome (round p) p.length := by
  have hd : floatDispatch cv e o kd b pl =
      if cv.useFast then (match cv.fast o.fixed o.sci (c :: cs) with
          | .invalid => .err .invalidScannedValue
          | .outOfRange => strtodImpl cv e kd b
          | .ok v n => .ok (v, n)) else strtodImpl cv e kd b := by
    rcases hk with rfl | rfl | rfl <;>
    · unfold floatDispatch
      rw [hv]
      dsimp only
      rw [if_neg (by simp), if_neg (charToInt_ge hc)]
      split
      · rw [if_neg (by simp)]
        cases cv.fast o.fixed o.sci (c :: cs) <;> rfl
      · rfl
  rw [hd, hs]
  split
  · rcases hcv.fast o.fixed o.sci c cs p hc hf with h | ⟨v, h1, h2⟩
    · rw [h]
    · rw [h2, h1]; rfl
  · rfl

theorem dispatch_dec {V : Type} {cv : FloatConv V} {round : List Nat → Rounded V} (hcv : ConvOk cv round) (e : Enc) (o : FloatOpts) {kd : FloatKind} (hk : DecKind kd)
    (stores : Bool) {c : Nat} {cs p pl : List Nat} (hc : IsDigit 10 c) (hf : Longest (DecText o.fixed o.sci) (c :: cs) p) (hL : Longest StrtodText (c :: cs) p)
    (hb : e = .utf8 → ∀ u ∈ c :: cs, u < 256) :
    floatDispatch cv e o kd ⟨if stores then some (c :: cs) else none, c :: cs, 0⟩ pl = roundOutcome (round p) p.length := by
  have hpl : p ≠ [] := by
    obtain ⟨m, x, rfl, ⟨i, f, rfl, _, _, h⟩, _⟩ := hf.1
    rcases h with h | h
    · simp [h]
    · intro h'; simp at h'; rw [h'.2.1] at h; simp at h
  have hkh : kd ≠ .hexWithout := by rcases hk with rfl | rfl | rfl <;> decide
  refine dispatch_view hcv hk rfl hc hf ?_
  have := strtodImpl_eq hcv e kd stores hc hL.2.1 hpl (by rw [if_neg hkh]; exact hL) hb
  rw [if_neg hkh] at this
  exact this

theorem dispatch_hex {V : Type} {cv : FloatConv V} {round : List Nat → Rounded V} (hcv : ConvOk cv round) (e : Enc) (o : FloatOpts) {kd : FloatKind}
    (hk : kd = .hexWith ∨ kd = .hexWithout) (stores : Bool) {c : Nat} {cs p pl : List Nat} (hc : IsDigit 10 c) (hp : p <+: c :: cs) (hpl : p ≠ [])
    (hL : Longest StrtodText ((if kd = .hexWithout then [48, 120] else []) ++ (c :: cs)) ((if kd = .hexWithout then [48, 120] else []) ++ p))
    (hb : e = .utf8 → ∀ u ∈ c :: cs, u < 256) :
    floatDispatch cv e o kd ⟨if stores then some (c :: cs) else none, c :: cs, 0⟩ pl = roundOutcome (round ((if kd = .hexWithout then [48, 120] else []) ++ p)) p.length := by
  have hs := strtodImpl_eq hcv e kd stores hc hp hpl hL hb
  have hd : floatDispatch cv e o kd ⟨if stores then some (c :: cs) else none, c :: cs, 0⟩ pl =
      strtodImpl cv e kd ⟨if stores then some (c :: cs) else none, c :: cs, 0⟩ := by
    rcases hk with rfl | rfl
    · unfold floatDispatch
      dsimp only
      rw [if_neg (by simp), if_neg (charToInt_ge hc), if_pos (Or.inr rfl)]
      exact ite_self _
    · unfold floatDispatch
      dsimp only
      rw [if_neg (fun h => charToInt_ge16 hc h.2), if_neg (charToInt_ge hc), if_pos (Or.inl rfl)]
      exact ite_self _
  rw [hd, hs]

end Scn
