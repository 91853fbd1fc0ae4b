import Verif.Lemmas.Unicode
/-
Validation and transcoding lemmas.
-/
namespace Scn
open Spec

theorem decodeCp_valid (e : Enc) (s : List Nat) (cp : Nat) (h : decodeCp e s = some cp)
    (hc : cp < invalidCp) : decodeCpValid e s = some cp := by
  cases e with
  | utf8 =>
    simp only [decodeCp, decodeCpValid] at *
    match s with
    | [] => simp [decodeUtf8] at h
    | [a] =>
      simp only [decodeUtf8, Option.some.injEq] at h
      simp only [decodeUtf8Valid]
      by_cases ha : a ≥ 0x80
      · rw [if_pos ha] at h; omega
      · rw [if_neg ha] at h; rw [if_pos (by omega), h]
    | [a, b] =>
      simp only [decodeUtf8, Option.some.injEq] at h
      simp only [decodeUtf8Valid]
      by_cases h1 : a &&& 0xe0 ≠ 0xc0
      · rw [if_pos h1] at h; omega
      · rw [if_neg h1] at h
        by_cases h2 : ¬ isTrailing b
        · rw [if_pos h2] at h; omega
        · rw [if_neg h2] at h
          rw [if_pos ⟨Decidable.not_not.1 h1, Decidable.not_not.1 h2⟩, h]
    | [a, b, c] =>
      simp only [decodeUtf8, Option.some.injEq] at h
      simp only [decodeUtf8Valid]
      by_cases h1 : a &&& 0xf0 ≠ 0xe0
      · rw [if_pos h1] at h; omega
      · rw [if_neg h1] at h
        by_cases h2 : ¬ isTrailing b ∨ ¬ isTrailing c
        · rw [if_pos h2] at h; omega
        · rw [if_neg h2] at h
          rw [if_pos ⟨Decidable.not_not.1 h1, by simpa using h2⟩, h]
    | [a, b, c, d] =>
      simp only [decodeUtf8, Option.some.injEq] at h
      simp only [decodeUtf8Valid]
      by_cases h1 : a &&& 0xf8 ≠ 0xf0
      · rw [if_pos h1] at h; omega
      · rw [if_neg h1] at h
        by_cases h3 : a > 0xf4
        · rw [if_pos h3] at h; omega
        · rw [if_neg h3] at h
          by_cases h2 : ¬ isTrailing b ∨ ¬ isTrailing c ∨ ¬ isTrailing d
          · rw [if_pos h2] at h; omega
          · rw [if_neg h2] at h
            rw [if_pos ⟨Decidable.not_not.1 h1, by omega, by simpa using h2⟩, h]
    | _ :: _ :: _ :: _ :: _ :: _ => simp [decodeUtf8] at h
  | utf16 =>
    simp only [decodeCp, decodeCpValid] at *
    match s with
    | [] => simp [decodeUtf16] at h
    | [a] => exact h
    | [a, b] =>
      simp only [decodeUtf16, Option.some.injEq] at h
      simp only [decodeUtf16Valid]
      by_cases h1 : a < 0xd800 ∨ a > 0xdbff ∨ b < 0xdc00 ∨ b > 0xdfff
      · rw [if_pos h1] at h; omega
      · rw [if_neg h1] at h; rw [if_pos (by omega), h]
    | _ :: _ :: _ :: _ => simp [decodeUtf16] at h
  | utf32 =>
    match s with
    | [] => simp [decodeCp] at h
    | [a] =>
      simp only [decodeCp, Option.some.injEq, decodeCpValid] at *
      by_cases ha : a ≥ invalidCp
      · rw [if_pos ha] at h; omega
      · rw [if_neg ha] at h; exact h
    | _ :: _ :: _ => simp [decodeCp] at h

theorem getNext_to_valid (e : Enc) (s rest : List Nat) (cp : Nat) (h : getNext e s = some (rest, cp))
    (hc : cp < invalidCp) : getNextValid e s = some (rest, cp) := by
  cases s with
  | nil => simp [getNext] at h
  | cons c cs =>
    simp only [getNext] at h
    simp only [getNextValid]
    by_cases h0 : cpLength e c = 0
    · rw [if_pos h0] at h; simp only [Option.some.injEq, Prod.mk.injEq] at h; omega
    · rw [if_neg h0] at h
      by_cases h1 : cpLength e c > (c :: cs).length
      · rw [if_pos h1] at h; simp only [Option.some.injEq, Prod.mk.injEq] at h; omega
      · rw [if_neg h1] at h
        rw [if_neg h1]
        cases hd : decodeCp e ((c :: cs).take (cpLength e c)) with
        | none => simp [hd] at h
        | some v =>
          rw [hd] at h
          simp only [Option.map_some, Option.some.injEq, Prod.mk.injEq] at h
          obtain ⟨g1, rfl⟩ := h
          rw [decodeCp_valid _ _ _ hd hc, Option.map_some, g1]

theorem validateAux_mono (e : Enc) (n m : Nat) (s : List Nat) (h : s.length ≤ n) (h' : s.length ≤ m) :
    validateAux e n s = validateAux e m s := by
  induction n generalizing s m with
  | zero =>
    cases s with
    | nil => simp [validateAux]
    | cons c cs => simp at h
  | succ n ih =>
    cases s with
    | nil => simp [validateAux]
    | cons c cs =>
      cases m with
      | zero => simp at h'
      | succ m =>
        rw [validateAux, validateAux]
        by_cases h0 : cpLength e c = 0
        · simp only [h0, if_true]
        · have hd : ((c :: cs).drop (cpLength e c)).length ≤ cs.length := by
            rw [List.length_drop, List.length_cons]; omega
          simp only [List.length_cons] at h h'
          rw [ih m _ (by omega) (by omega)]

/-- Validation in terms of `getNext`. -/
theorem validate_step (e : Enc) (c : Nat) (cs : List Nat) :
    validateUnicode e (c :: cs) =
      if cpLength e c = 0 ∨ (c :: cs).length < cpLength e c then some false
      else match decodeCp e ((c :: cs).take (cpLength e c)) with
        | none => none
        | some cp => if cp ≥ invalidCp then some false
            else validateUnicode e ((c :: cs).drop (cpLength e c)) := by
  unfold validateUnicode
  rw [List.length_cons, validateAux]
  by_cases h0 : cpLength e c = 0
  · simp only [h0, true_or, if_true]
  · by_cases h1 : (c :: cs).length < cpLength e c
    · simp only [List.length_cons] at h1
      simp only [List.length_cons, h0, h1, or_true, if_true, if_false]
    · simp only [List.length_cons] at h1
      simp only [List.length_cons, h0, h1, or_self, if_false]
      rw [validateAux_mono e cs.length _ ((c :: cs).drop (cpLength e c))
        (by rw [List.length_drop, List.length_cons]; omega) (Nat.le_refl _)]
      cases decodeCp e ((c :: cs).take (cpLength e c)) <;> rfl

theorem validate_nil (e : Enc) : validateUnicode e [] = some true := by
  simp [validateUnicode, validateAux]

theorem validate_total_aux (e : Enc) (n : Nat) (s : List Nat) (h : s.length ≤ n) :
    ∃ b, validateUnicode e s = some b := by
  induction n generalizing s with
  | zero =>
    cases s with
    | nil => exact ⟨true, validate_nil e⟩
    | cons c cs => simp at h
  | succ n ih =>
    cases s with
    | nil => exact ⟨true, validate_nil e⟩
    | cons c cs =>
      rw [validate_step]
      by_cases h0 : cpLength e c = 0 ∨ (c :: cs).length < cpLength e c
      · exact ⟨false, if_pos h0⟩
      · rw [if_neg h0]
        obtain ⟨cp, hcp⟩ := decodeCp_total e c ((c :: cs).take (cpLength e c)) (by omega)
          (by rw [List.length_take]; omega)
        simp only [hcp]
        split
        · exact ⟨false, rfl⟩
        · exact ih _ (by rw [List.length_drop]; simp only [List.length_cons] at *; omega)

/-- What one accepted step of validation gives. -/
theorem validate_true_cons {e : Enc} {c : Nat} {cs : List Nat}
    (h : validateUnicode e (c :: cs) = some true) :
    cpLength e c ≠ 0 ∧ cpLength e c ≤ (c :: cs).length ∧
      ∃ cp, cp < invalidCp ∧ decodeCp e ((c :: cs).take (cpLength e c)) = some cp ∧
        validateUnicode e ((c :: cs).drop (cpLength e c)) = some true := by
  rw [validate_step] at h
  by_cases h0 : cpLength e c = 0 ∨ (c :: cs).length < cpLength e c
  · rw [if_pos h0] at h; simp at h
  · rw [if_neg h0] at h
    refine ⟨by omega, by omega, ?_⟩
    cases hd : decodeCp e ((c :: cs).take (cpLength e c)) with
    | none => simp [hd] at h
    | some cp =>
      simp only [hd] at h
      by_cases hc : cp ≥ invalidCp
      · rw [if_pos hc] at h; simp at h
      · rw [if_neg hc] at h
        exact ⟨cp, by omega, rfl, h⟩

theorem forEachCpValidAux_mono (e : Enc) (n m : Nat) (s : List Nat) (h : s.length ≤ n) (h' : s.length ≤ m)
    (hv : validateUnicode e s = some true) :
    forEachCpValidAux e n s = forEachCpValidAux e m s := by
  induction n generalizing s m with
  | zero =>
    cases s with
    | nil => simp [forEachCpValidAux]
    | cons c cs => simp at h
  | succ n ih =>
    cases s with
    | nil => simp [forEachCpValidAux]
    | cons c cs =>
      cases m with
      | zero => simp at h'
      | succ m =>
        obtain ⟨h0, h1, cp, hc, hd, hv'⟩ := validate_true_cons hv
        rw [forEachCpValidAux, forEachCpValidAux]
        have hn : getNextValid e (c :: cs) = some ((c :: cs).drop (cpLength e c), cp) := by
          simp only [getNextValid, if_neg (Nat.not_lt.2 h1), decodeCp_valid e _ cp hd hc, Option.map_some]
        rw [hn]
        dsimp only
        simp only [List.length_cons] at h h'
        rw [ih m _ (by rw [List.length_drop, List.length_cons]; omega)
          (by rw [List.length_drop, List.length_cons]; omega) hv']

/-- On validated input the unchecked decoders meet their preconditions and agree with the
    checked ones; all values are code points. -/
theorem valid_agree_aux (e : Enc) (n : Nat) (s : List Nat) (hl : s.length ≤ n)
    (h : validateUnicode e s = some true) :
    ∃ cps, forEachCp e s = some cps ∧ forEachCpValid e s = some cps ∧ ∀ cp ∈ cps, cp < invalidCp := by
  induction n generalizing s with
  | zero =>
    cases s with
    | nil => exact ⟨[], forEachCp_nil e, by simp [forEachCpValid, forEachCpValidAux], by simp⟩
    | cons c cs => simp at hl
  | succ n ih =>
    cases s with
    | nil => exact ⟨[], forEachCp_nil e, by simp [forEachCpValid, forEachCpValidAux], by simp⟩
    | cons c cs =>
      obtain ⟨h0, h1, cp, hc, hd, hv⟩ := validate_true_cons h
      have hn : getNextValid e (c :: cs) = some ((c :: cs).drop (cpLength e c), cp) := by
        simp only [getNextValid, if_neg (Nat.not_lt.2 h1), decodeCp_valid e _ cp hd hc, Option.map_some]
      have hlen : ((c :: cs).drop (cpLength e c)).length ≤ cs.length := by
        rw [List.length_drop, List.length_cons]; omega
      obtain ⟨cps, i1, i2, i3⟩ := ih _ (by simp only [List.length_cons] at hl; omega) hv
      refine ⟨cp :: cps, ?_, ?_, ?_⟩
      · rw [forEachCp_step e _ _ cp (getNext_of rfl h0 h1 hd), i1]; rfl
      · rw [forEachCpValid, List.length_cons, forEachCpValidAux, hn]
        dsimp only
        rw [forEachCpValidAux_mono e cs.length _ _ hlen (Nat.le_refl _) hv]
        rw [forEachCpValid] at i2
        rw [i2]; rfl
      · intro x hx
        rcases List.mem_cons.1 hx with rfl | hx
        · exact hc
        · exact i3 x hx

/-- One accepted UTF-8 element is a loose element and conversely. -/
theorem loose_iff (c : Nat) (cs : List Nat) (hb : ∀ b ∈ c :: cs, b < 256) :
    (∃ p r, LooseUnit p ∧ c :: cs = p ++ r) ↔
      (cpLength8 c ≠ 0 ∧ cpLength8 c ≤ (c :: cs).length ∧
        ∃ cp, cp < invalidCp ∧ decodeUtf8 ((c :: cs).take (cpLength8 c)) = some cp) := by
  have hc : c < 256 := hb c (by simp)
  constructor
  · rintro ⟨p, r, hp, he⟩
    match p, hp with
    | [a], hp =>
      simp only [LooseUnit] at hp
      simp only [List.cons_append, List.nil_append, List.cons.injEq] at he
      obtain ⟨rfl, rfl⟩ := he
      have hL : cpLength8 c = 1 := by rw [cpLength8_eq c hc, if_pos (by omega)]
      rw [hL]
      refine ⟨by decide, by simp, c, by unfold invalidCp; omega, ?_⟩
      simp only [List.take_succ_cons, List.take_zero]
      rw [dec1, if_pos (by omega)]
    | [a, b], hp =>
      simp only [LooseUnit] at hp
      simp only [List.cons_append, List.nil_append, List.cons.injEq] at he
      obtain ⟨rfl, rfl⟩ := he
      have hL : cpLength8 c = 2 := by
        rw [cpLength8_eq c hc, if_neg (by omega), if_neg (by omega), if_pos (by omega)]
      rw [hL]
      refine ⟨by decide, by simp, (c - 192) * 64 + (b - 128), by unfold invalidCp; omega, ?_⟩
      simp only [List.take_succ_cons, List.take_zero]
      rw [dec2 _ _ hc, if_pos (by omega)]
    | [a, b, d], hp =>
      simp only [LooseUnit] at hp
      simp only [List.cons_append, List.nil_append, List.cons.injEq] at he
      obtain ⟨rfl, rfl⟩ := he
      have hL : cpLength8 c = 3 := by
        rw [cpLength8_eq c hc, if_neg (by omega), if_neg (by omega), if_neg (by omega), if_pos (by omega)]
      rw [hL]
      refine ⟨by decide, by simp, (c - 224) * 4096 + (b - 128) * 64 + (d - 128),
        by unfold invalidCp; omega, ?_⟩
      simp only [List.take_succ_cons, List.take_zero]
      rw [dec3 _ _ _ hc, if_pos (by omega)]
    | [a, b, d, f], hp =>
      simp only [LooseUnit] at hp
      simp only [List.cons_append, List.nil_append, List.cons.injEq] at he
      obtain ⟨rfl, rfl⟩ := he
      have hL : cpLength8 c = 4 := by
        rw [cpLength8_eq c hc, if_neg (by omega), if_neg (by omega), if_neg (by omega), if_neg (by omega),
          if_pos (by omega)]
      rw [hL]
      refine ⟨by decide, by simp, (c - 240) * 262144 + (b - 128) * 4096 + (d - 128) * 64 + (f - 128),
        by unfold invalidCp; omega, ?_⟩
      simp only [List.take_succ_cons, List.take_zero]
      rw [dec4 _ _ _ _ hc, if_pos (by omega)]
  · rintro ⟨h0, h1, cp, hcp, hd⟩
    refine ⟨(c :: cs).take (cpLength8 c), (c :: cs).drop (cpLength8 c), ?_,
      (List.take_append_drop _ _).symm⟩
    rw [cpLength8_eq c hc] at h0 h1 hd ⊢
    by_cases c1 : c < 128
    · simp only [if_pos c1] at *
      simp only [List.take_succ_cons, List.take_zero, LooseUnit]
      exact c1
    · simp only [if_neg c1] at *
      by_cases c2 : c < 192
      · simp only [if_pos c2] at h0; exact absurd rfl h0
      · simp only [if_neg c2] at *
        by_cases c3 : c < 224
        · simp only [if_pos c3] at *
          match cs, h1 with
          | b :: r, _ =>
            simp only [List.take_succ_cons, List.take_zero, LooseUnit] at *
            rw [dec2 _ _ hc, Option.some.injEq] at hd
            split at hd
            · omega
            · omega
        · simp only [if_neg c3] at *
          by_cases c4 : c < 240
          · simp only [if_pos c4] at *
            match cs, h1 with
            | b :: d :: r, _ =>
              simp only [List.take_succ_cons, List.take_zero, LooseUnit] at *
              rw [dec3 _ _ _ hc, Option.some.injEq] at hd
              split at hd
              · omega
              · omega
          · simp only [if_neg c4] at *
            by_cases c5 : c < 248
            · simp only [if_pos c5] at *
              match cs, h1 with
              | b :: d :: f :: r, _ =>
                simp only [List.take_succ_cons, List.take_zero, LooseUnit] at *
                rw [dec4 _ _ _ _ hc, Option.some.injEq] at hd
                unfold invalidCp at *
                split at hd
                · omega
                · omega
            · simp only [if_neg c5] at h0; exact absurd rfl h0

/-- A loose element is determined as a prefix. -/
theorem loose_prefix (p r : List Nat) (hp : LooseUnit p) (hb : ∀ b ∈ p, b < 256) :
    ∃ c cs, p ++ r = c :: cs ∧ cpLength8 c = p.length ∧ c < 256 := by
  match p, hp with
  | [a], hp =>
    simp only [LooseUnit] at hp
    exact ⟨a, r, rfl, by rw [cpLength8_eq a (by omega), if_pos (by omega)]; rfl, by omega⟩
  | [a, b], hp =>
    simp only [LooseUnit] at hp
    exact ⟨a, b :: r, rfl, by
      rw [cpLength8_eq a (by omega), if_neg (by omega), if_neg (by omega), if_pos (by omega)]; rfl, by omega⟩
  | [a, b, c], hp =>
    simp only [LooseUnit] at hp
    exact ⟨a, b :: c :: r, rfl, by
      rw [cpLength8_eq a (by omega), if_neg (by omega), if_neg (by omega), if_neg (by omega),
        if_pos (by omega)]; rfl, by omega⟩
  | [a, b, c, d], hp =>
    simp only [LooseUnit] at hp
    exact ⟨a, b :: c :: d :: r, rfl, by
      rw [cpLength8_eq a (by omega), if_neg (by omega), if_neg (by omega), if_neg (by omega),
        if_neg (by omega), if_pos (by omega)]; rfl, by omega⟩

theorem validate_loose_aux (n : Nat) (s : List Nat) (hl : s.length ≤ n) (hb : ∀ b ∈ s, b < 256) :
    validateUnicode .utf8 s = some true ↔ ∃ ps : List (List Nat), (∀ p ∈ ps, LooseUnit p) ∧ s = ps.flatten := by
  induction n generalizing s with
  | zero =>
    cases s with
    | nil => exact ⟨fun _ => ⟨[], by simp, rfl⟩, fun _ => validate_nil _⟩
    | cons c cs => simp at hl
  | succ n ih =>
    cases s with
    | nil => exact ⟨fun _ => ⟨[], by simp, rfl⟩, fun _ => validate_nil _⟩
    | cons c cs =>
      have hbd : ∀ k, ∀ b ∈ (c :: cs).drop k, b < 256 := fun k b h => hb b (List.mem_of_mem_drop h)
      constructor
      · intro h
        obtain ⟨h0, h1, cp, hcp, hd, hv⟩ := validate_true_cons h
        obtain ⟨p, r, hp, he⟩ := (loose_iff c cs hb).2 ⟨h0, h1, cp, hcp, hd⟩
        have hlen : cpLength8 c = p.length := by
          obtain ⟨c', cs', e1, e2, _⟩ := loose_prefix p r hp (fun b h => hb b (by rw [he]; simp [h]))
          rw [← he] at e1
          simp only [List.cons.injEq] at e1
          rw [e1.1, e2]
        have hr : (c :: cs).drop (cpLength .utf8 c) = r := by
          rw [cpLength, hlen, he, List.drop_left]
        obtain ⟨ps, g1, g2⟩ := (ih _ (by rw [List.length_drop]; simp only [List.length_cons] at *; omega)
          (hbd _)).1 hv
        refine ⟨p :: ps, ?_, ?_⟩
        · intro q hq
          rcases List.mem_cons.1 hq with rfl | hq
          · exact hp
          · exact g1 q hq
        · rw [List.flatten_cons, ← g2, hr, he]
      · rintro ⟨ps, g1, g2⟩
        cases ps with
        | nil => simp at g2
        | cons p ps =>
          rw [List.flatten_cons] at g2
          have hp := g1 p (by simp)
          obtain ⟨h0, h1, cp, hcp, hd⟩ := (loose_iff c cs hb).1 ⟨p, ps.flatten, hp, g2⟩
          have hlen : cpLength8 c = p.length := by
            obtain ⟨c', cs', e1, e2, _⟩ := loose_prefix p ps.flatten hp
              (fun b h => hb b (by rw [g2]; simp [h]))
            rw [← g2] at e1
            simp only [List.cons.injEq] at e1
            rw [e1.1, e2]
          have hr : (c :: cs).drop (cpLength8 c) = ps.flatten := by
            rw [hlen, g2, List.drop_left]
          rw [validate_step]
          simp only [cpLength, decodeCp, hd]
          rw [if_neg (by omega), if_neg (by omega)]
          exact (ih _ (by rw [List.length_drop]; simp only [List.length_cons] at *; omega)
            (hbd _)).2 ⟨ps, fun q hq => g1 q (by simp [hq]), hr⟩

theorem loose_cases (p : List Nat) (hp : LooseUnit p) :
    (∃ a, p = [a] ∧ a < 0x80) ∨
    (∃ a b, p = [a, b] ∧ (0xC0 ≤ a ∧ a < 0xE0) ∧ (0x80 ≤ b ∧ b < 0xC0)) ∨
    (∃ a b c, p = [a, b, c] ∧ (0xE0 ≤ a ∧ a < 0xF0) ∧ (0x80 ≤ b ∧ b < 0xC0) ∧ (0x80 ≤ c ∧ c < 0xC0)) ∨
    (∃ a b c d, p = [a, b, c, d] ∧ (0xF0 ≤ a ∧ a < 0xF5) ∧ (0x80 ≤ b ∧ b < 0xC0) ∧
      (0x80 ≤ c ∧ c < 0xC0) ∧ (0x80 ≤ d ∧ d < 0xC0) ∧ (a = 0xF4 → b < 0x90)) := by
  match p, hp with
  | [a], hp => exact .inl ⟨a, rfl, hp⟩
  | [a, b], hp => exact .inr (.inl ⟨a, b, rfl, hp⟩)
  | [a, b, c], hp => exact .inr (.inr (.inl ⟨a, b, c, rfl, hp⟩))
  | [a, b, c, d], hp => exact .inr (.inr (.inr ⟨a, b, c, d, rfl, hp⟩))

theorem utf8_cases (cp : Nat) :
    (cp < 0x80 ∧ utf8 cp = [cp]) ∨
    ((0x80 ≤ cp ∧ cp < 0x800) ∧ utf8 cp = [0xC0 + cp / 64, 0x80 + cp % 64]) ∨
    ((0x800 ≤ cp ∧ cp < 0x10000) ∧ utf8 cp = [0xE0 + cp / 4096, 0x80 + cp / 64 % 64, 0x80 + cp % 64]) ∨
    (0x10000 ≤ cp ∧ utf8 cp =
      [0xF0 + cp / 262144, 0x80 + cp / 4096 % 64, 0x80 + cp / 64 % 64, 0x80 + cp % 64]) := by
  unfold utf8
  by_cases h1 : cp < 0x80
  · exact .inl ⟨h1, by rw [if_pos h1]⟩
  · by_cases h2 : cp < 0x800
    · exact .inr (.inl ⟨⟨by omega, h2⟩, by rw [if_neg h1, if_pos h2]⟩)
    · by_cases h3 : cp < 0x10000
      · exact .inr (.inr (.inl ⟨⟨by omega, h3⟩, by rw [if_neg h1, if_neg h2, if_pos h3]⟩))
      · exact .inr (.inr (.inr ⟨by omega, by rw [if_neg h1, if_neg h2, if_neg h3]⟩))

theorem looseValue1 (a : Nat) : looseValue [a] = a := rfl
theorem looseValue2 (a b : Nat) : looseValue [a, b] = (a - 0xC0) * 64 + (b - 0x80) := rfl
theorem looseValue3 (a b c : Nat) :
    looseValue [a, b, c] = (a - 0xE0) * 4096 + (b - 0x80) * 64 + (c - 0x80) := rfl
theorem looseValue4 (a b c d : Nat) : looseValue [a, b, c, d] =
    (a - 0xF0) * 262144 + (b - 0x80) * 4096 + (c - 0x80) * 64 + (d - 0x80) := rfl

/-- Elements that are shortest forms are encodings of their values. -/
theorem loose_scalar (p : List Nat) (hp : LooseUnit p)
    (hlen : p.length = (utf8 (looseValue p)).length) : p = utf8 (looseValue p) := by
  rcases loose_cases p hp with ⟨a, rfl, h⟩ | ⟨a, b, rfl, h⟩ | ⟨a, b, c, rfl, h⟩ | ⟨a, b, c, d, rfl, h⟩
  · rw [looseValue1] at hlen ⊢
    rw [utf8, if_pos h]
  · rw [looseValue2] at hlen ⊢
    rcases utf8_cases ((a - 0xC0) * 64 + (b - 0x80)) with ⟨g, e⟩ | ⟨g, e⟩ | ⟨g, e⟩ | ⟨g, e⟩ <;>
      rw [e] at hlen ⊢ <;> simp only [List.length_cons, List.length_nil] at hlen <;>
      simp only [List.cons.injEq, and_true] <;> omega
  · rw [looseValue3] at hlen ⊢
    rcases utf8_cases ((a - 0xE0) * 4096 + (b - 0x80) * 64 + (c - 0x80)) with ⟨g, e⟩ | ⟨g, e⟩ | ⟨g, e⟩ | ⟨g, e⟩ <;>
      rw [e] at hlen ⊢ <;> simp only [List.length_cons, List.length_nil] at hlen <;>
      simp only [List.cons.injEq, and_true] <;> omega
  · rw [looseValue4] at hlen ⊢
    rcases utf8_cases ((a - 0xF0) * 262144 + (b - 0x80) * 4096 + (c - 0x80) * 64 + (d - 0x80)) with
      ⟨g, e⟩ | ⟨g, e⟩ | ⟨g, e⟩ | ⟨g, e⟩ <;>
      rw [e] at hlen ⊢ <;> simp only [List.length_cons, List.length_nil] at hlen <;>
      simp only [List.cons.injEq, and_true] <;> omega

theorem utf8_loose (cp : Nat) (h : cp < 0x110000) : LooseUnit (utf8 cp) ∧ looseValue (utf8 cp) = cp := by
  rcases utf8_cases cp with ⟨g, e⟩ | ⟨g, e⟩ | ⟨g, e⟩ | ⟨g, e⟩ <;> rw [e]
  · exact ⟨g, rfl⟩
  · rw [looseValue2]; simp only [LooseUnit]; omega
  · rw [looseValue3]; simp only [LooseUnit]; omega
  · rw [looseValue4]; simp only [LooseUnit]; omega

theorem loose_bytes (p : List Nat) (hp : LooseUnit p) : ∀ b ∈ p, b < 256 := by
  intro x hx
  rcases loose_cases p hp with ⟨a, rfl, h⟩ | ⟨a, b, rfl, h⟩ | ⟨a, b, c, rfl, h⟩ | ⟨a, b, c, d, rfl, h⟩ <;>
    simp at hx <;> omega

theorem encode8_eq (v : Bool) (cp : Nat) (h : cp < 0x110000) : encode8 v cp = utf8 cp := by
  have t : ∀ x, 0x80 ||| (x &&& 0x3f) = 128 + x % 64 := by
    intro x
    rw [show (0x3f : Nat) = 2 ^ 6 - 1 from rfl, and_mod,
      show (0x80 : Nat) = 2 <<< 6 from rfl, or_shift _ _ 6 (Nat.mod_lt _ (by decide))]
    rfl
  unfold encode8 utf8
  rw [if_neg (by unfold invalidCp; omega)]
  split
  · rfl
  · split
    · simp only [t, Nat.shiftRight_eq_div_pow]
      rw [show (0xc0 : Nat) = 6 <<< 5 from rfl, or_shift _ _ 5 (by omega)]
      simp only [List.cons.injEq, and_true]
      omega
    · split
      · simp only [t, Nat.shiftRight_eq_div_pow]
        rw [show (0xe0 : Nat) = 0xe <<< 4 from rfl, or_shift _ _ 4 (by omega)]
        simp only [List.cons.injEq, and_true]
        omega
      · simp only [t, Nat.shiftRight_eq_div_pow]
        rw [show (0xf0 : Nat) = 0x1e <<< 3 from rfl, or_shift _ _ 3 (by omega)]
        simp only [List.cons.injEq, and_true]
        omega

theorem transcode32to8_eq (v : Bool) (cps : List Nat) (h : ∀ cp ∈ cps, cp < 0x110000) :
    transcode32to8 v cps = utf8s cps := by
  unfold transcode32to8 utf8s
  induction cps with
  | nil => rfl
  | cons a l ih =>
    rw [List.flatMap_cons, List.flatMap_cons, encode8_eq v a (h a (by simp)),
      ih (fun x hx => h x (by simp [hx]))]

theorem validate_utf8s (cps : List Nat) (h : ∀ cp ∈ cps, cp < 0x110000) :
    validateUnicode .utf8 (utf8s cps) = some true := by
  have hl : ∀ p ∈ cps.map utf8, LooseUnit p := by
    intro p hp
    obtain ⟨cp, hc, rfl⟩ := List.mem_map.1 hp
    exact (utf8_loose cp (h cp hc)).1
  rw [validate_loose_aux _ _ (Nat.le_refl _) ?_]
  · exact ⟨cps.map utf8, hl, by rw [utf8s, List.flatMap_def]⟩
  · intro b hb
    obtain ⟨cp, hc, hb⟩ := List.mem_flatMap.1 hb
    exact utf8_bytes cp (h cp hc) b hb

theorem validate_utf16s (cps : List Nat) (h : ∀ cp ∈ cps, IsScalar cp) :
    validateUnicode .utf16 (utf16s cps) = some true := by
  induction cps with
  | nil => exact validate_nil _
  | cons cp cps ih =>
    have hn := getNext_utf16 cp (h cp (by simp)) (utf16s cps)
    have hs := h cp (by simp)
    have hi := ih (fun x hx => h x (by simp [hx]))
    rw [utf16s, List.flatMap_cons, show cps.flatMap utf16 = utf16s cps from rfl]
    obtain ⟨h1, h2⟩ := hs
    unfold utf16
    split
    · rw [List.cons_append, List.nil_append, validate_step]
      have hL : cpLength .utf16 cp = 1 := by
        rw [cpLength, cpLength16_eq cp (by omega), if_neg (by omega), if_neg (by omega)]
      rw [hL, if_neg (by simp)]
      simp only [List.take_succ_cons, List.take_zero, decodeCp, decodeUtf16, List.drop_succ_cons,
        List.drop_zero]
      rw [if_neg (by unfold invalidCp; omega), hi]
    · simp only [List.cons_append, List.nil_append]
      rw [validate_step]
      have hL : cpLength .utf16 (0xD800 + (cp - 0x10000) / 1024) = 2 := by
        rw [cpLength, cpLength16_eq _ (by omega), if_pos (by omega)]
      rw [hL, if_neg (by simp)]
      simp only [List.take_succ_cons, List.take_zero, decodeCp, decodeUtf16, List.drop_succ_cons,
        List.drop_zero]
      rw [if_neg (c := _ ∨ _) (by omega), or_shift _ _ 10 (by omega), if_neg (by unfold invalidCp; omega), hi]

theorem validate_utf32 (cps : List Nat) : validateUnicode .utf32 cps = some (cps.all (· < 0x110000)) := by
  induction cps with
  | nil => rw [validate_nil]; rfl
  | cons c l ih =>
    rw [validate_step]
    simp only [cpLength, List.take_succ_cons, List.take_zero, decodeCp, List.drop_succ_cons, List.drop_zero,
      List.all_cons]
    rw [if_neg (by simp), ih]
    by_cases hc : c < 0x110000
    · rw [if_neg (c := c ≥ invalidCp) (by unfold invalidCp; omega), if_neg (by unfold invalidCp; omega),
        decide_eq_true hc, Bool.true_and]
    · rw [if_pos (c := c ≥ invalidCp) (by unfold invalidCp; omega), if_pos (Nat.le_refl _),
        decide_eq_false hc, Bool.false_and]

/-- After validation the transcoder to UTF-32 yields the code points. -/
theorem transcodeValidTo32_eq (e : Enc) (s cps : List Nat) (h : validateUnicode e s = some true)
    (hc : forEachCp e s = some cps) : transcodeValidTo32 e s = some cps := by
  obtain ⟨cps', h1, h2, h3⟩ := valid_agree_aux e _ s (Nat.le_refl _) h
  rw [hc, Option.some.injEq] at h1
  subst h1
  unfold transcodeValidTo32
  rw [h2]
  dsimp only
  rw [if_pos (by simpa using h3)]

end Scn
