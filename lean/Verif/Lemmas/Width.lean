import Verif.Model.ArgReader
import Verif.Spec.Width
import Verif.Lemmas.Charset2
/-
Text width, `take_width` and `skip_fill` on well-formed text.
-/
namespace Scn
open Spec

theorem textWidth_eq (cp : Nat) : textWidth cp = columns cp := by
  unfold textWidth columns
  have : (wideBlocks.any fun b => b.1 ≤ cp && cp ≤ b.2) = true ↔ (cp ≥ 0x1100 ∧
    (cp ≤ 0x115f ∨ cp = 0x2329 ∨ cp = 0x232a ∨ (cp ≥ 0x2e80 ∧ cp ≤ 0xa4cf ∧ cp ≠ 0x303f) ∨
      (cp ≥ 0xac00 ∧ cp ≤ 0xd7a3) ∨ (cp ≥ 0xf900 ∧ cp ≤ 0xfaff) ∨ (cp ≥ 0xfe10 ∧ cp ≤ 0xfe19) ∨
      (cp ≥ 0xfe30 ∧ cp ≤ 0xfe6f) ∨ (cp ≥ 0xff00 ∧ cp ≤ 0xff60) ∨ (cp ≥ 0xffe0 ∧ cp ≤ 0xffe6) ∨
      (cp ≥ 0x20000 ∧ cp ≤ 0x2fffd) ∨ (cp ≥ 0x30000 ∧ cp ≤ 0x3fffd) ∨ (cp ≥ 0x1f300 ∧ cp ≤ 0x1f64f) ∨
      (cp ≥ 0x1f900 ∧ cp ≤ 0x1f9ff))) := by
    simp only [wideBlocks, List.any_cons, List.any_nil, Bool.or_eq_true, Bool.and_eq_true, decide_eq_true_eq,
      Bool.false_eq_true, or_false]
    omega
  by_cases h : (wideBlocks.any fun b => b.1 ≤ cp && cp ≤ b.2) = true
  · rw [if_pos (this.mp h), if_pos h]
  · rw [if_neg (fun h' => h (this.mpr h')), if_neg h]

theorem columns_pos (cp : Nat) : 1 ≤ columns cp ∧ columns cp ≤ 2 := by
  unfold columns; split <;> omega

theorem cols_nil : cols [] = 0 := rfl
theorem cols_cons (c : Nat) (cs : List Nat) : cols (c :: cs) = columns c + cols cs := by simp [cols]
theorem cols_append (a b : List Nat) : cols (a ++ b) = cols a + cols b := by simp [cols]

theorem cols_eq_zero {a : List Nat} : cols a = 0 ↔ a = [] := by
  cases a with
  | nil => simp [cols_nil]
  | cons c cs =>
    rw [cols_cons]
    have := columns_pos c
    constructor
    · intro h; omega
    · intro h; cases h

theorem forEachCp_encodes (e : Enc) (cps : List Nat) (h : ∀ cp ∈ cps, IsScalar cp) :
    forEachCp e (encodes e cps) = some cps := by
  induction cps with
  | nil => exact forEachCp_nil _
  | cons cp cps ih =>
    rw [encodes_cons, forEachCp_step e _ _ cp (getNext_encode e cp (h cp (by simp)) _),
      ih (fun x hx => h x (by simp [hx]))]
    rfl

theorem textWidthOf_encodes (e : Enc) (cps : List Nat) (h : ∀ cp ∈ cps, IsScalar cp) :
    textWidthOf e (encodes e cps) = cols cps := by
  unfold textWidthOf
  rw [forEachCp_encodes e cps h]
  simp only [cols]
  congr 1
  exact List.map_congr_left fun x _ => textWidth_eq x

theorem encode_eq_single (e : Enc) (cp c : Nat) (hc : encode e cp = [c]) : c = cp := by
  cases e with
  | utf8 =>
    have hc : utf8 cp = [c] := hc
    rcases utf8_cases cp with ⟨h1, hx⟩ | ⟨h1, hx⟩ | ⟨h1, hx⟩ | ⟨h1, hx⟩ <;> rw [hx] at hc <;> simp at hc
    omega
  | utf16 =>
    have hc : utf16 cp = [c] := hc
    unfold utf16 at hc
    split at hc <;> simp at hc
    omega
  | utf32 => simpa [encode, eq_comm] using hc

theorem widthAt_encode (e : Enc) (cp : Nat) (h : IsScalar cp) (rest : List Nat) :
    widthAt e (encode e cp ++ rest) = columns cp := by
  obtain ⟨c, cs, h1, h2, h3⟩ := encode_head e cp h
  rw [h1, List.cons_append, widthAt, h2]
  have hl : (c :: cs).length = cs.length + 1 := rfl
  rw [if_neg (by rw [hl]; omega)]
  by_cases h0 : cs = []
  · subst h0
    rw [if_pos (by simp), encode_eq_single e cp c h1, textWidth_eq]
  · have : cs.length ≠ 0 := fun hh => h0 (List.length_eq_zero_iff.mp hh)
    rw [if_neg (by rw [hl]; omega), if_neg (by simp), ← List.cons_append, List.take_left, ← h1]
    have := textWidthOf_encodes e [cp] (by simpa using h)
    rw [encodes_cons, encodes_nil, List.append_nil] at this
    rw [this, cols_cons, cols_nil]; rfl

theorem takeWidthAux_inside (e : Enc) (count : Int) (cs rest : List Nat) :
    takeWidthAux e count cs.length (cs ++ rest) = cs ++ takeWidthAux e count 0 rest := by
  induction cs with
  | nil => rfl
  | cons c cs ih =>
    rw [List.cons_append, takeWidthAux, if_neg, if_neg, List.cons_append]
    · rw [← ih]; congr 2
      simp only [List.length_cons]; omega
    · simp only [List.length_cons]; omega
    · simp only [List.length_cons]; omega

theorem takeWidth_step (e : Enc) (n : Int) (cp : Nat) (h : IsScalar cp) (rest : List Nat) :
    takeWidthAux e n 0 (encode e cp ++ rest) =
      if n = 0 ∨ (n = 1 ∧ columns cp = 2) then [] else encode e cp ++ takeWidthAux e (n - columns cp) 0 rest := by
  have hw := widthAt_encode e cp h rest
  obtain ⟨c, cs, h1, h2, h3⟩ := encode_head e cp h
  rw [h1] at hw ⊢
  rw [List.cons_append] at hw ⊢
  rw [takeWidthAux, hw, h2]
  by_cases hc : n = 0 ∨ (n = 1 ∧ columns cp = 2)
  · rw [if_pos hc, if_pos]
    rcases hc with hc | hc
    · exact Or.inl ⟨hc, rfl⟩
    · exact Or.inr ⟨hc.1, rfl, hc.2⟩
  · rw [if_neg hc, if_neg, if_pos rfl, List.cons_append]
    · rw [show ((c :: cs).length : Int) - 1 = (cs.length : Int) by simp only [List.length_cons]; omega, takeWidthAux_inside]
    · rintro (⟨h, _⟩ | ⟨h, _, h'⟩)
      · exact hc (Or.inl h)
      · exact hc (Or.inr ⟨h, h'⟩)

theorem takeWidth_encodes (e : Enc) (n : Nat) (cps : List Nat) (h : ∀ cp ∈ cps, IsScalar cp) :
    takeWidth e n (encodes e cps) = encodes e (fit n cps) := by
  unfold takeWidth
  induction cps generalizing n with
  | nil => simp [encodes_nil, takeWidthAux, fit]
  | cons cp cps ih =>
    rw [encodes_cons, takeWidth_step e n cp (h cp (by simp))]
    have hp := columns_pos cp
    unfold fit
    by_cases hc : columns cp ≤ n
    · rw [if_neg (by omega), if_pos hc, encodes_cons, show (n : Int) - columns cp = ((n - columns cp : Nat) : Int) by omega,
        ih _ (fun x hx => h x (by simp [hx]))]
    · rw [if_pos (by omega), if_neg hc, encodes_nil]

theorem takeWidth_negative (e : Enc) (s : List Nat) : ∀ (n left : Int), n < 0 → takeWidthAux e n left s = s := by
  induction s with
  | nil => intro n left _; rw [takeWidthAux]
  | cons c cs ih =>
    intro n left hn
    rw [takeWidthAux, if_neg (by omega)]
    split
    · rw [ih _ _ (by omega)]
    · rw [ih _ _ hn]

theorem countAfter_inside (e : Enc) (count : Int) (cs rest : List Nat) (k : Nat) :
    countAfter e (cs.length + k) count cs.length (cs ++ rest) = countAfter e k count 0 rest := by
  induction cs with
  | nil => simp
  | cons c cs ih =>
    rw [List.cons_append, show (c :: cs).length + k = (cs.length + k) + 1 by simp only [List.length_cons]; omega, countAfter,
      if_neg (by simp only [List.length_cons]; omega), ← ih]
    congr 1
    simp only [List.length_cons]; omega

theorem countAfter_encodes (e : Enc) (a b : List Nat) (h : ∀ cp ∈ a, IsScalar cp) (n : Int) :
    countAfter e (encodes e a).length n 0 (encodes e (a ++ b)) = n - cols a := by
  induction a generalizing n with
  | nil => simp [encodes_nil, countAfter, cols_nil]
  | cons cp a ih =>
    have hcp := h cp (by simp)
    have hw := widthAt_encode e cp hcp (encodes e (a ++ b))
    obtain ⟨c, cs, h1, h2, h3⟩ := encode_head e cp hcp
    rw [h1, List.cons_append] at hw
    rw [List.cons_append, encodes_cons, encodes_cons, List.length_append, h1, List.cons_append]
    rw [show (c :: cs).length + (encodes e a).length = (cs.length + (encodes e a).length) + 1 by simp only [List.length_cons]; omega,
      countAfter, if_pos rfl, hw, h2,
      show ((c :: cs).length : Int) - 1 = (cs.length : Int) by simp only [List.length_cons]; omega, countAfter_inside,
      ih (fun x hx => h x (by simp [hx])), cols_cons]
    omega

theorem consumedWidth_encodes (e : Enc) (n : Int) (a b : List Nat) (h : ∀ cp ∈ a, IsScalar cp) :
    consumedWidth e n (encodes e (a ++ b)) (encodes e a).length = cols a := by
  unfold consumedWidth; rw [countAfter_encodes e a b h]; omega

/-! ### `fit` -/

theorem fit_prefix (n : Nat) (cps : List Nat) : fit n cps <+: cps := by
  induction cps generalizing n with
  | nil => exact List.prefix_refl _
  | cons c cs ih =>
    unfold fit
    split
    · exact List.cons_prefix_cons.mpr ⟨rfl, ih _⟩
    · exact List.nil_prefix

theorem fit_cols (n : Nat) (cps : List Nat) : cols (fit n cps) ≤ n := by
  induction cps generalizing n with
  | nil => simp [fit, cols_nil]
  | cons c cs ih =>
    unfold fit
    split
    · rw [cols_cons]; have := ih (n - columns c); omega
    · simp [cols_nil]

theorem fit_longest (n : Nat) (cps p : List Nat) (hp : p <+: cps) (hc : cols p ≤ n) : p <+: fit n cps := by
  induction cps generalizing n p with
  | nil => rw [List.prefix_nil.mp hp]; exact List.nil_prefix
  | cons c cs ih =>
    cases p with
    | nil => exact List.nil_prefix
    | cons d ds =>
      obtain ⟨rfl, hds⟩ := List.cons_prefix_cons.mp hp
      rw [cols_cons] at hc
      unfold fit
      rw [if_pos (by omega)]
      exact List.cons_prefix_cons.mpr ⟨rfl, ih _ ds hds (by omega)⟩

theorem fit_append (n : Nat) (a b : List Nat) (h : cols a ≤ n) : fit n (a ++ b) = a ++ fit (n - cols a) b := by
  induction a generalizing n with
  | nil => simp [cols_nil]
  | cons c a ih =>
    rw [cols_cons] at h
    rw [List.cons_append, fit, if_pos (by omega), ih _ (by omega), cols_cons, List.cons_append, Nat.sub_sub]

theorem fit_fit (n : Nat) (cps : List Nat) : fit n (fit n cps) = fit n cps := by
  induction cps generalizing n with
  | nil => rfl
  | cons c cs ih =>
    by_cases h : columns c ≤ n
    · rw [show fit n (c :: cs) = c :: fit (n - columns c) cs by rw [fit, if_pos h], fit, if_pos h, ih]
    · rw [show fit n (c :: cs) = [] by rw [fit, if_neg h]]; rfl

/-! ### Fill -/

theorem encode_prefix_iff (e : Enc) (f cp : Nat) (hf : IsScalar f) (hcp : IsScalar cp) (rest : List Nat) :
    encode e f <+: encode e cp ++ rest ↔ f = cp := by
  constructor
  · rintro ⟨t, ht⟩
    have h1 := getNext_encode e f hf t
    rw [ht, getNext_encode e cp hcp rest] at h1
    simp at h1
    exact h1.2.symm
  · rintro rfl; exact List.prefix_append _ _

theorem dropWhile_fill_single (e : Enc) (f : Nat) (hf : IsScalar f) (u : Nat) (hu : encode e f = [u]) (cps : List Nat)
    (h : ∀ cp ∈ cps, IsScalar cp) :
    (encodes e cps).dropWhile (fun c => c == u) = encodes e (cps.dropWhile (· == f)) := by
  induction cps with
  | nil => rfl
  | cons cp cps ih =>
    have ih := ih (fun x hx => h x (by simp [hx]))
    have hcp := h cp (by simp)
    have hiff := encode_prefix_iff e f cp hf hcp []
    obtain ⟨c, cs, hc⟩ := encode_cons e cp
    rw [hu, hc] at hiff
    rw [encodes_cons, hc, List.cons_append]
    by_cases hx : cp = f
    · subst hx
      rw [hu] at hc
      obtain ⟨rfl, rfl⟩ := List.cons.inj hc
      rw [List.dropWhile_cons_of_pos (by simp), List.nil_append, ih, List.dropWhile_cons_of_pos (by simp)]
    · have : c ≠ u := by
        rintro rfl
        exact hx (hiff.mp (by simp)).symm
      rw [List.dropWhile_cons_of_neg (by simpa using this), List.dropWhile_cons_of_neg (by simpa using hx), encodes_cons, hc]
      rfl

theorem readWhileUnitsAux_encodes (e : Enc) (f : Nat) (hf : IsScalar f) (cps : List Nat) (h : ∀ cp ∈ cps, IsScalar cp) :
    ∀ n, (encodes e cps).length ≤ n → readWhileUnitsAux (encode e f) n (encodes e cps) = some (encodes e (cps.dropWhile (· == f))) := by
  induction cps with
  | nil => intro n _; simp [encodes_nil, readWhileUnitsAux]
  | cons cp cps ih =>
    intro n hn
    have ih := ih (fun x hx => h x (by simp [hx]))
    have hcp := h cp (by simp)
    have hiff := encode_prefix_iff e f cp hf hcp (encodes e cps)
    obtain ⟨c, cs, hc⟩ := encode_cons e cp
    have hlen : (encode e cp).length ≥ 1 := by rw [hc]; simp
    rw [encodes_cons] at hn ⊢
    rw [List.length_append] at hn
    obtain ⟨m, rfl⟩ : ∃ m, n = m + 1 := ⟨n - 1, by omega⟩
    by_cases hx : cp = f
    · subst hx
      have hp : (encode e cp).isPrefixOf (encode e cp ++ encodes e cps) = true := List.isPrefixOf_iff_prefix.mpr (hiff.mpr rfl)
      rw [List.dropWhile_cons_of_pos (by simp), ← ih m (by omega)]
      conv => lhs; rw [hc, List.cons_append, readWhileUnitsAux]
      rw [← List.cons_append, ← hc, hp]
      simp
    · have hp : (encode e f).isPrefixOf (encode e cp ++ encodes e cps) = false := by
        rw [Bool.eq_false_iff]; intro hh
        exact hx (hiff.mp (List.isPrefixOf_iff_prefix.mp hh)).symm
      rw [List.dropWhile_cons_of_neg (by simpa using hx), encodes_cons]
      conv => lhs; rw [hc, List.cons_append, readWhileUnitsAux]
      rw [← List.cons_append, ← hc, hp]
      simp

theorem readWhileFill_encodes (e : Enc) (f : Nat) (hf : IsScalar f) (cps : List Nat) (h : ∀ cp ∈ cps, IsScalar cp) :
    readWhileFill (encode e f) (encodes e cps) = some (encodes e (cps.dropWhile (· == f))) := by
  unfold readWhileFill
  split
  · rename_i u hu
    unfold readWhileUnit readUntilUnit
    simp only [Bool.not_not]
    rw [dropWhile_fill_single e f hf u hu cps h]
  · exact readWhileUnitsAux_encodes e f hf cps h _ (Nat.le_refl _)

theorem fillWidth_encode (e : Enc) (f : Nat) (hf : IsScalar f) : fillWidth e (encode e f) = columns f := by
  unfold fillWidth
  split
  · rename_i u hu; rw [encode_eq_single e f u hu, textWidth_eq]
  · have := textWidthOf_encodes e [f] (by simpa using hf)
    rw [encodes_cons, encodes_nil, List.append_nil] at this
    rw [this, cols_cons, cols_nil]; rfl

theorem encodes_all_same (e : Enc) (f : Nat) (a : List Nat) (h : ∀ x ∈ a, x = f) :
    (encodes e a).length = a.length * (encode e f).length ∧ cols a = a.length * columns f := by
  induction a with
  | nil => simp [encodes_nil, cols_nil]
  | cons x a ih =>
    obtain ⟨h1, h2⟩ := ih (fun y hy => h y (by simp [hy]))
    have := h x (by simp)
    subst this
    rw [encodes_cons, List.length_append, h1, cols_cons, h2, List.length_cons, Nat.add_mul, Nat.add_mul]
    omega

theorem takeWhile_drop {α : Type} (p : α → Bool) (l : List α) : l.drop (l.takeWhile p).length = l.dropWhile p := by
  have := List.takeWhile_append_dropWhile (p := p) (l := l)
  conv => lhs; rw [← this]
  rw [List.takeWhile_append_dropWhile, ← this, List.takeWhile_append_dropWhile]
  induction l with
  | nil => rfl
  | cons x l ih =>
    by_cases h : p x
    · simp [h, ih]
    · simp [h]

theorem mem_takeWhile {α : Type} {p : α → Bool} {l : List α} {x : α} (h : x ∈ l.takeWhile p) : x ∈ l ∧ p x = true := by
  induction l with
  | nil => simp at h
  | cons y l ih =>
    by_cases hy : p y
    · rw [List.takeWhile_cons_of_pos hy] at h
      rcases List.mem_cons.mp h with rfl | h
      · exact ⟨by simp, hy⟩
      · exact ⟨by simp [(ih h).1], (ih h).2⟩
    · rw [List.takeWhile_cons_of_neg hy] at h; simp at h

/-- `skip_fill` without limit skips all fill characters. -/
theorem skipFill_unlimited (e : Enc) (fill : Fill) (f : Nat) (hf : IsScalar f) (hu : fill.units e = encode e f) (cps : List Nat)
    (h : ∀ cp ∈ cps, IsScalar cp) (n : Int) (hn : n ≤ 0) (want : Bool) :
    skipFill e (encodes e cps) n fill want =
      some (encodes e (cps.dropWhile (· == f)), if want then (cols (cps.takeWhile (· == f)) : Int) else 0) := by
  have hsplit := List.takeWhile_append_dropWhile (p := (· == f)) (l := cps)
  have hall : ∀ x ∈ cps.takeWhile (· == f), x = f := fun x hx => by simpa using (mem_takeWhile hx).2
  obtain ⟨hl, hc⟩ := encodes_all_same e f _ hall
  have hlen : (encodes e cps).length - (encodes e (cps.dropWhile (· == f))).length = (encodes e (cps.takeWhile (· == f))).length := by
    conv => lhs; rw [← hsplit]
    rw [encodes_append, List.length_append, hsplit]; omega
  unfold skipFill
  simp only [hu]
  by_cases h0 : n = 0
  · rw [if_pos h0, readWhileFill_encodes e f hf cps h, Option.map_some, hlen, fillWidth_encode e f hf, hl, hc]
    have : (encode e f).length ≠ 0 := fun hh => encode_ne_nil e f (List.length_eq_zero_iff.mp hh)
    rw [← Nat.mul_assoc, Nat.mul_div_cancel _ (by omega), Nat.mul_comm]
  · rw [if_neg h0]
    unfold takeWidth
    rw [takeWidth_negative e _ n 0 (by omega), readWhileFill_encodes e f hf cps h, Option.map_some, hlen]
    have h1 : consumedWidth e n (encodes e cps) (encodes e (cps.takeWhile (· == f))).length = cols (cps.takeWhile (· == f)) := by
      have := consumedWidth_encodes e n (cps.takeWhile (· == f)) (cps.dropWhile (· == f))
        (fun x hx => h x (mem_takeWhile hx).1)
      rwa [hsplit] at this
    have h2 : (encodes e cps).drop (encodes e (cps.takeWhile (· == f))).length = encodes e (cps.dropWhile (· == f)) := by
      conv => lhs; rw [← hsplit]
      rw [encodes_append, hsplit, List.drop_left]
    rw [h1, h2]

/-- Skipping within a view of at most `n` columns. -/
theorem skip_in_view (e : Enc) (p : Nat → Bool) (cps : List Nat) (h : ∀ cp ∈ cps, IsScalar cp) (n : Nat) (i : Int) :
    let pre := (fit n cps).takeWhile p
    let k := (encodes e (fit n cps)).length - (encodes e ((fit n cps).dropWhile p)).length
    (encodes e cps).drop k = encodes e (cps.drop pre.length) ∧ consumedWidth e i (encodes e cps) k = cols pre := by
  intro pre k
  obtain ⟨t, ht⟩ := fit_prefix n cps
  have hsplit := List.takeWhile_append_dropWhile (p := p) (l := fit n cps)
  have hk : k = (encodes e pre).length := by
    show (encodes e (fit n cps)).length - _ = _
    conv => lhs; lhs; rw [← hsplit]
    rw [encodes_append, List.length_append]
    exact Nat.add_sub_cancel _ _
  have hcps : cps = pre ++ ((fit n cps).dropWhile p ++ t) := by
    rw [← List.append_assoc, hsplit, ht]
  have hpre : ∀ x ∈ pre, IsScalar x := fun x hx => h x (by rw [hcps]; simp [hx])
  constructor
  · rw [hk]
    conv => lhs; rw [hcps]
    conv => rhs; rw [hcps]
    rw [List.drop_left, encodes_append, List.drop_left]
  · rw [hk, hcps, consumedWidth_encodes e i pre _ hpre]

/-- `skip_fill` with a limit skips all fill characters within it. -/
theorem skipFill_limited (e : Enc) (fill : Fill) (f : Nat) (hf : IsScalar f) (hu : fill.units e = encode e f) (cps : List Nat)
    (h : ∀ cp ∈ cps, IsScalar cp) (n : Nat) (hn : n ≠ 0) :
    skipFill e (encodes e cps) n fill true =
      some (encodes e (cps.drop ((fit n cps).takeWhile (· == f)).length), (cols ((fit n cps).takeWhile (· == f)) : Int)) := by
  unfold skipFill
  simp only [hu]
  rw [if_neg (by omega), takeWidth_encodes e n cps h, readWhileFill_encodes e f hf (fit n cps)
    (fun x hx => h x ((fit_prefix n cps).subset hx)), Option.map_some]
  obtain ⟨h1, h2⟩ := skip_in_view e (· == f) cps h n n
  rw [h1, h2]; rfl

end Scn
