import Verif.Model.WidthIter
import Verif.Props.Fields
/-
C85: the iterator that counts columns.
-/
namespace Scn
open Spec

namespace Spec

/-- What such an iterator should say after `i` units of the text: the columns left of `n` once each character begun is counted, and the
    units missing from the character that was begun. -/
def placed (e : Enc) : Int → List Nat → Nat → Int × Int
  | n, [], _ => (n, 0)
  | n, c :: cps, i =>
    if i = 0 then (n, 0)
    else if i < (encode e c).length then (n - columns c, ((encode e c).length : Int) - i)
    else placed e (n - columns c) cps (i - (encode e c).length)

end Spec

/-! ### Where the iterator is -/

theorem advance_add (e : Enc) (i j : Nat) : ∀ it : WidthIt, it.advance e (i + j) = (it.advance e i).bind (WidthIt.advance e j) := by
  induction i with
  | zero => intro it; simp [WidthIt.advance]
  | succ i ih =>
    intro it
    rw [Nat.succ_add]
    show (it.next e).bind _ = ((it.next e).bind _).bind _
    cases it.next e with
    | none => rfl
    | some x => exact ih x

theorem advance_inside (e : Enc) (us : List Nat) : ∀ (k : Nat) (done rest : List Nat) (n : Int), k ≤ us.length →
    (⟨done, us ++ rest, n, us.length⟩ : WidthIt).advance e k = some ⟨(us.take k).reverse ++ done, us.drop k ++ rest, n, (us.length : Int) - k⟩ := by
  induction us with
  | nil => intro k done rest n hk; simp at hk; subst hk; simp [WidthIt.advance]
  | cons u us ih =>
    intro k done rest n hk
    cases k with
    | zero => simp [WidthIt.advance]
    | succ k =>
      have hn : (⟨done, u :: us ++ rest, n, ((u :: us).length : Nat)⟩ : WidthIt).next e = some ⟨u :: done, us ++ rest, n, us.length⟩ := by
        unfold WidthIt.next
        dsimp only [List.cons_append]
        rw [if_neg (by simp only [List.length_cons]; omega)]
        simp
      unfold WidthIt.advance
      rw [hn, Option.bind_some, ih k _ _ _ (by simpa using hk)]
      simp
      omega

theorem advance_char {e : Enc} {c : Nat} (hc : IsScalar c) {k : Nat} (h0 : k ≠ 0) (hk : k ≤ (encode e c).length) (done rest : List Nat) (n : Int) :
    (⟨done, encode e c ++ rest, n, 0⟩ : WidthIt).advance e k =
      some ⟨((encode e c).take k).reverse ++ done, (encode e c).drop k ++ rest, n - columns c, ((encode e c).length : Int) - k⟩ := by
  have hw := widthAt_encode e c hc rest
  obtain ⟨u, us, h1, h2, h3⟩ := encode_head e c hc
  rw [h1] at hw hk ⊢
  obtain ⟨k, rfl⟩ : ∃ k', k = k' + 1 := ⟨k - 1, by omega⟩
  unfold WidthIt.advance WidthIt.next
  dsimp only [List.cons_append]
  rw [if_pos rfl]
  rw [List.cons_append] at hw
  rw [hw, h2, show ((((u :: us).length : Nat) : Int) - 1) = (us.length : Int) by simp only [List.length_cons]; omega, Option.bind_some,
    advance_inside e us k _ _ _ (by simpa using hk)]
  simp
  omega

/-- After `i` increments the iterator is `i` units further and says what it should. -/
theorem advance_placed {e : Enc} : ∀ {cps : List Nat}, (∀ c ∈ cps, IsScalar c) → ∀ {i : Nat}, i ≤ (encodes e cps).length → ∀ (done : List Nat) (n : Int),
    (⟨done, encodes e cps, n, 0⟩ : WidthIt).advance e i =
      some ⟨((encodes e cps).take i).reverse ++ done, (encodes e cps).drop i, (placed e n cps i).1, (placed e n cps i).2⟩ := by
  intro cps
  induction cps with
  | nil => intro _ i hi done n; simp [encodes_nil] at hi; subst hi; simp [WidthIt.advance, placed]
  | cons c cps ih =>
    intro hs i hi done n
    rw [encodes_cons] at hi ⊢
    have hc := hs c (by simp)
    by_cases h0 : i = 0
    · subst h0; simp [WidthIt.advance, placed]
    · unfold placed
      rw [if_neg h0]
      by_cases hlt : i < (encode e c).length
      · rw [if_pos hlt, advance_char hc h0 (by omega)]
        rw [List.take_append_of_le_length (by omega), List.drop_append_of_le_length (by omega)]
      · have hpos : (encode e c).length ≠ 0 := by obtain ⟨u, us, h1, _⟩ := encode_head e c hc; rw [h1]; simp
        rw [if_neg hlt]
        rw [show i = (encode e c).length + (i - (encode e c).length) by omega, advance_add, advance_char hc hpos (Nat.le_refl _)]
        rw [List.length_append] at hi
        simp only [List.take_length, List.drop_length, List.nil_append, Int.sub_self, Option.bind_some, Nat.add_sub_cancel_left]
        rw [ih (fun x hx => hs x (by simp [hx])) (by omega)]
        rw [List.take_length_add_append, List.drop_length_add_append, List.reverse_append, List.append_assoc]

theorem placed_le {e : Enc} : ∀ {cps : List Nat} {n : Int} {i : Nat}, (placed e n cps i).1 ≤ n ∧ 0 ≤ (placed e n cps i).2 := by
  intro cps
  induction cps with
  | nil => intro n i; simp [placed]
  | cons c cps ih =>
    intro n i
    unfold placed
    split
    · simp
    · split
      · simp; omega
      · have := @ih (n - columns c) (i - (encode e c).length)
        omega

theorem placed_lt {e : Enc} : ∀ {cps : List Nat}, (∀ c ∈ cps, IsScalar c) → ∀ {n : Int} {i j : Nat}, i < j → j ≤ (encodes e cps).length →
    (placed e n cps j).1 < (placed e n cps i).1 ∨ ((placed e n cps j).1 = (placed e n cps i).1 ∧ (placed e n cps j).2 < (placed e n cps i).2) := by
  intro cps
  induction cps with
  | nil => intro _ n i j hij hj; simp [encodes_nil] at hj; omega
  | cons c cps ih =>
    intro hs n i j hij hj
    have hp := columns_pos c
    rw [encodes_cons, List.length_append] at hj
    unfold placed
    rw [if_neg (show j ≠ 0 by omega)]
    have hle := @placed_le e cps (n - columns c) (j - (encode e c).length)
    by_cases hi0 : i = 0
    · rw [if_pos hi0]
      left
      split
      · dsimp only; omega
      · dsimp only; omega
    · rw [if_neg hi0]
      by_cases hj1 : j < (encode e c).length
      · rw [if_pos hj1, if_pos (by omega)]
        right; dsimp only; omega
      · rw [if_neg hj1]
        by_cases hi1 : i < (encode e c).length
        · rw [if_pos hi1]
          dsimp only
          by_cases he : j - (encode e c).length = 0
          · rw [he]
            have : placed e (n - columns c) cps 0 = (n - columns c, 0) := by cases cps <;> simp [placed]
            rw [this]; right; dsimp only; omega
          · have := ih (fun x hx => hs x (by simp [hx])) (n := n - columns c) (i := 0) (j := j - (encode e c).length) (by omega) (by omega)
            have h0 : placed e (n - columns c) cps 0 = (n - columns c, 0) := by cases cps <;> simp [placed]
            rw [h0] at this
            dsimp only at this
            omega
        · rw [if_neg hi1]
          exact ih (fun x hx => hs x (by simp [hx])) (by omega) (by omega)

theorem lt_iff {e : Enc} {cps : List Nat} (hs : ∀ c ∈ cps, IsScalar c) {n : Int} {i j : Nat} (hi : i ≤ (encodes e cps).length) (hj : j ≤ (encodes e cps).length)
    {a b : WidthIt} (ha : (WidthIt.start (encodes e cps) n).advance e i = some a) (hb : (WidthIt.start (encodes e cps) n).advance e j = some b) :
    a.lt b = decide (i < j) := by
  unfold WidthIt.start at ha hb
  rw [advance_placed hs hi] at ha
  rw [advance_placed hs hj] at hb
  cases ha; cases hb
  unfold WidthIt.lt
  dsimp only
  rcases Nat.lt_trichotomy i j with h | h | h
  · have := placed_lt (e := e) hs (n := n) h hj
    simp only [h, decide_true]
    split
    · rw [decide_eq_true_eq]; omega
    · rw [decide_eq_true_eq]; omega
  · subst h; simp
  · have := placed_lt (e := e) hs (n := n) h hi
    simp only [show ¬ i < j by omega, decide_false]
    split
    · rw [decide_eq_false_iff_not]; omega
    · rw [decide_eq_false_iff_not]; omega

/-! ### C85 -/

/-- C85, columns: over any text, the iterator counts columns: after any number of increments it is as many units further, and says how many
    columns are left, a character being counted as soon as it has been begun, and how many of its units are to come. -/
theorem C85_columns {e : Enc} {cps : List Nat} (hs : ∀ c ∈ cps, IsScalar c) (n : Int) {i : Nat} (hi : i ≤ (encodes e cps).length) :
    ∃ it, (WidthIt.start (encodes e cps) n).advance e i = some it ∧ it.behind.reverse = (encodes e cps).take i ∧ it.ahead = (encodes e cps).drop i ∧
      (it.count, it.left) = placed e n cps i := by
  unfold WidthIt.start
  rw [advance_placed hs hi]
  exact ⟨_, rfl, by simp, rfl, rfl⟩

/-- Three columns, "aあ" in UTF-8, after 0 to 4 units. -/
example : (List.range 5).map (placed .utf8 3 [97, 0x3042]) = [(3, 0), (2, 0), (0, 2), (0, 1), (0, 0)] := by decide +kernel

/-- C85, order: `<`, `<=` and `>=` order the iterators of a text by their positions. Missing from the full claim: `>`,
    `C85_violated_greater`. -/
theorem C85_order_partial {e : Enc} {cps : List Nat} (hs : ∀ c ∈ cps, IsScalar c) {n : Int} {i j : Nat} (hi : i ≤ (encodes e cps).length)
    (hj : j ≤ (encodes e cps).length) {a b : WidthIt} (ha : (WidthIt.start (encodes e cps) n).advance e i = some a)
    (hb : (WidthIt.start (encodes e cps) n).advance e j = some b) :
    a.lt b = decide (i < j) ∧ a.le b = decide (i ≤ j) ∧ a.ge b = decide (i ≥ j) := by
  have h1 := lt_iff hs hi hj ha hb
  have h2 := lt_iff hs hj hi hb ha
  refine ⟨h1, ?_, ?_⟩
  · unfold WidthIt.le; rw [h2, ← decide_not]; simp
  · unfold WidthIt.ge; rw [h1, ← decide_not]; simp

/-- C85 is violated by `>`: it says the opposite, for all iterators of all texts. -/
theorem C85_violated_greater {e : Enc} {cps : List Nat} (hs : ∀ c ∈ cps, IsScalar c) {n : Int} {i j : Nat} (hi : i ≤ (encodes e cps).length)
    (hj : j ≤ (encodes e cps).length) {a b : WidthIt} (ha : (WidthIt.start (encodes e cps) n).advance e i = some a)
    (hb : (WidthIt.start (encodes e cps) n).advance e j = some b) : a.gt b = ! decide (i > j) := by
  have h2 := lt_iff hs hj hi hb ha
  unfold WidthIt.gt
  rw [h2]

example : ((WidthIt.start (encodes .utf8 [97, 0x3042]) 3).advance .utf8 1).map (fun a => (a.gt a, a.lt a, a.le a)) = some (true, false, true) := by
  decide +kernel

/-- The units of a character behind its first are no beginnings. -/
theorem encode_inside {e : Enc} {c : Nat} (hc : IsScalar c) {u : Nat} {us : List Nat} (h : encode e c = u :: us) : ∀ x ∈ us, cpLength e x = 0 := by
  obtain ⟨h1, h2⟩ := hc
  cases e with
  | utf8 =>
    have h : utf8 c = u :: us := h
    intro x hx
    show cpLength8 x = 0
    rcases utf8_cases c with ⟨_, h'⟩ | ⟨_, h'⟩ | ⟨_, h'⟩ | ⟨_, h'⟩ <;> rw [h'] at h <;> cases h <;>
      simp only [List.mem_cons, List.not_mem_nil, or_false] at hx
    all_goals
      rw [cpLength8_eq x (by omega), if_neg (by omega), if_pos (by omega)]
  | utf16 =>
    have h : utf16 c = u :: us := h
    intro x hx
    show cpLength16 x = 0
    unfold utf16 at h
    split at h <;> cases h <;> simp only [List.mem_cons, List.not_mem_nil, or_false] at hx
    rw [cpLength16_eq x (by omega), if_neg (by omega), if_pos (by omega)]
  | utf32 => cases h; intro x hx; cases hx

theorem advance_whole {e : Enc} : ∀ {a : List Nat}, (∀ x ∈ a, IsScalar x) → ∀ (done rest : List Nat) (n : Int),
    (⟨done, encodes e a ++ rest, n, 0⟩ : WidthIt).advance e (encodes e a).length = some ⟨(encodes e a).reverse ++ done, rest, n - cols a, 0⟩ := by
  intro a
  induction a with
  | nil => intro _ done rest n; simp [encodes_nil, WidthIt.advance, cols_nil]
  | cons c a ih =>
    intro hs done rest n
    have hc := hs c (by simp)
    have hpos : (encode e c).length ≠ 0 := by obtain ⟨u, us, h1, _⟩ := encode_head e c hc; rw [h1]; simp
    rw [encodes_cons, List.append_assoc, List.length_append, advance_add, advance_char hc hpos (Nat.le_refl _)]
    simp only [List.take_length, List.drop_length, List.nil_append, Int.sub_self, Option.bind_some]
    rw [ih (fun x hx => hs x (by simp [hx])), List.reverse_append, List.append_assoc, cols_cons]
    simp
    omega

/-- The iterator behind the first `k` units of a character. -/
theorem advance_at {e : Enc} {a b : List Nat} {c : Nat} (hs : ∀ x ∈ a ++ c :: b, IsScalar x) {k : Nat} (hk : k ≤ (encode e c).length) (n : Int) :
    (WidthIt.start (encodes e (a ++ c :: b)) n).advance e ((encodes e a).length + k) =
      some ⟨((encode e c).take k).reverse ++ (encodes e a).reverse, (encode e c).drop k ++ encodes e b, n - cols a - (if k = 0 then 0 else columns c : Nat),
        if k = 0 then 0 else ((encode e c).length : Int) - k⟩ := by
  unfold WidthIt.start
  rw [encodes_append, encodes_cons, advance_add, advance_whole fun x hx => hs x (by simp [hx])]
  rw [Option.bind_some, List.append_nil]
  by_cases h0 : k = 0
  · subst h0; simp [WidthIt.advance]
  · rw [advance_char (hs c (by simp)) h0 hk, if_neg h0, if_neg h0]

/-- C85, going back: `--` undoes `++` at every unit of a text that does not begin a character of several units. -/
theorem C85_back_partial {e : Enc} {a b : List Nat} {c : Nat} (hs : ∀ x ∈ a ++ c :: b, IsScalar x) {k : Nat} (hk : k < (encode e c).length)
    (h1 : k ≠ 0 ∨ (encode e c).length = 1) {n : Int} {it : WidthIt}
    (h : (WidthIt.start (encodes e (a ++ c :: b)) n).advance e ((encodes e a).length + k) = some it) : (it.next e).bind (WidthIt.prev e) = some it := by
  have hn : it.next e = (WidthIt.start (encodes e (a ++ c :: b)) n).advance e ((encodes e a).length + (k + 1)) := by
    rw [← Nat.add_assoc, advance_add, h, Option.bind_some]
    show _ = (it.next e).bind _
    cases it.next e <;> rfl
  rw [hn, advance_at hs hk, Option.bind_some, ← h, advance_at hs (by omega)]
  have hc := hs c (by simp)
  have hw := widthAt_encode e c hc (encodes e b)
  obtain ⟨u, us, h2, h3, _⟩ := encode_head e c hc
  have h2' := h2
  rw [h2] at hk h1 hw ⊢
  cases k with
  | zero =>
    have hus : us = [] := by rcases h1 with h | h; exact absurd rfl h; exact List.length_eq_zero_iff.1 (by simpa using h)
    subst hus
    unfold WidthIt.prev
    simp only [List.take_succ_cons, List.take_zero, List.reverse_cons, List.reverse_nil, List.nil_append, List.cons_append, List.drop_succ_cons, List.drop_zero] at hw ⊢
    rw [hw, h3, if_neg (by simp)]
    simp
  | succ k =>
    have hk' : k < us.length := by simpa using hk
    have hx : cpLength e us[k] = 0 := encode_inside hc h2' _ (List.getElem_mem hk')
    unfold WidthIt.prev
    rw [List.take_succ_cons, List.take_succ_cons, List.take_succ_eq_append_getElem hk', List.reverse_cons, List.reverse_append, List.reverse_singleton,
      List.singleton_append, List.cons_append, List.cons_append]
    dsimp only
    rw [if_pos hx]
    simp only [List.drop_succ_cons]
    have hd := List.drop_eq_getElem_cons hk'
    simp
    exact ⟨by rw [hd]; rfl, by omega⟩

/-- C85 is violated at the beginnings of characters of several units: after `++` and `--` the iterator says that more units
    of a character are to come, although no character has been begun. -/
theorem C85_violated_back {e : Enc} {a b : List Nat} {c : Nat} (hs : ∀ x ∈ a ++ c :: b, IsScalar x) (h1 : 1 < (encode e c).length) {n : Int} {it : WidthIt}
    (h : (WidthIt.start (encodes e (a ++ c :: b)) n).advance e (encodes e a).length = some it) :
    (it.next e).bind (WidthIt.prev e) = some { it with left := ((encode e c).length : Int) - 1 } ∧ it.left = 0 := by
  have hn : it.next e = (WidthIt.start (encodes e (a ++ c :: b)) n).advance e ((encodes e a).length + 1) := by
    rw [advance_add, h, Option.bind_some]
    show _ = (it.next e).bind _
    cases it.next e <;> rfl
  have h' := advance_at (e := e) hs (k := 0) (by omega) n
  rw [Nat.add_zero, h] at h'
  rw [hn, advance_at hs (by omega), Option.bind_some]
  cases h'
  have hc := hs c (by simp)
  have hw := widthAt_encode e c hc (encodes e b)
  obtain ⟨u, us, h2, h3, _⟩ := encode_head e c hc
  rw [h2] at hw ⊢
  refine ⟨?_, rfl⟩
  unfold WidthIt.prev
  simp only [List.take_succ_cons, List.take_zero, List.reverse_cons, List.reverse_nil, List.nil_append, List.cons_append, List.drop_succ_cons, List.drop_zero] at hw ⊢
  rw [hw, h3, if_neg (by simp)]
  simp

/-- One column of "é": there is a column left at the beginning, but after `++` and `--` the view, which is at its end behind "é",
    goes on to the "b". -/
example : let it := (WidthIt.start (encodes .utf8 [233, 98]) 1)
    (it.next .utf8).bind (WidthIt.prev .utf8) = some { it with left := 1 } ∧
    takeWidthAux .utf8 1 0 (encodes .utf8 [233, 98]) = [195, 169] ∧ takeWidthAux .utf8 1 1 (encodes .utf8 [233, 98]) = [195, 169, 98] := by decide +kernel
example : ((WidthIt.start (encodes .utf8 [97, 233]) 2).next .utf8).bind (WidthIt.prev .utf8) = some (WidthIt.start (encodes .utf8 [97, 233]) 2) := by decide +kernel

end Scn
