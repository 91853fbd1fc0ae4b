import Verif.Spec.Values
import Verif.Lemmas.Words
import Verif.Props.Integers
/-
Lemmas on the boolean, character and pointer readers, and on fields that show values.
-/
namespace Scn
open Spec

/-! ### Fields without width, precision, fill -/

/-- A specification with nothing but a presentation type (and possibly `L`). -/
structure Plain (sp : Specs) : Prop where
  width : sp.width = 0
  precision : sp.precision = 0
  align : sp.align = .none

theorem argRead_plain {V : Type} (e : Enc) (sp : Specs) (hp : Plain sp) (rd : Reader V) (lay : List Nat → Layout) (s : List Nat) :
    argRead e sp rd lay s =
      if rd.skipWs then (skipSpace e (lay s) false s).bind fun it => rd.read (lay it) it else rd.read (lay s) s := by
  obtain ⟨hw, hpr, ha⟩ := hp
  have hval : ∀ t, (argValue e sp rd (lay t) 0 t).bind (fun r => (argAfter e sp rd.skipWs (lay r.2.1) 0 r.2.2 r.2.1).bind fun a =>
      (checkWidths sp (0 + r.2.2 + a.2)).bind fun _ => Res.ok (r.1, a.1)) = rd.read (lay t) t := by
    intro t
    unfold argValue
    rw [if_neg (by simp [hpr])]
    simp only [hw, ne_eq, not_true_eq_false, if_false]
    cases h : rd.read (lay t) t with
    | ub => rfl
    | err x => rfl
    | ok r =>
      have hafter : argAfter e sp rd.skipWs (lay r.2) 0 0 r.2 = .ok (r.2, 0) := by
        unfold argAfter argPostfix
        split
        · rfl
        · simp [ha, hw, hpr]
      simp only [Res.map_ok, Res.bind_ok]
      rw [hafter]
      simp [checkWidths, hw, hpr]
  unfold argRead argBefore argPrefix
  rw [if_neg (by simp [hpr])]
  simp only [ha, hw, hpr]
  cases hsk : rd.skipWs with
  | false => simpa [hsk] using hval s
  | true =>
    simp only [if_true, and_self]
    rw [if_neg (by simp), if_neg (by simp)]
    cases hs : skipSpace e (lay s) false s with
    | ub => rfl
    | err x => rfl
    | ok it => simpa [hsk] using hval it

/-! ### Booleans -/

theorem readMatchingString_iff (w s r : List Nat) : readMatchingString w s = some r ↔ s = w ++ r := by
  unfold readMatchingString readExactly
  by_cases hl : s.length < w.length
  · simp only [if_pos hl]
    constructor
    · intro h; cases h
    · intro h; rw [h, List.length_append] at hl; omega
  · rw [if_neg hl]
    have hb : between s (s.drop w.length) = s.take w.length := by
      unfold between
      rw [List.length_drop]
      congr 1; omega
    dsimp only
    rw [hb]
    constructor
    · intro h
      split at h
      · cases h
      · rename_i h1
        simp only [Option.some.injEq] at h
        rw [← h]
        have := List.take_append_drop w.length s
        rw [Decidable.not_not.1 h1] at this
        exact this.symm
    · intro h
      subst h
      rw [List.take_left, List.drop_left, if_neg (by simp)]

theorem readMatchingString_none (w s : List Nat) : readMatchingString w s = none ↔ ¬ w <+: s := by
  constructor
  · rintro h ⟨r, hr⟩
    rw [(readMatchingString_iff w s r).2 hr.symm] at h
    cases h
  · intro h
    cases hr : readMatchingString w s with
    | none => rfl
    | some r => exact absurd ⟨r, ((readMatchingString_iff w s r).1 hr).symm⟩ h

theorem readBoolNumeric_cases (s : List Nat) :
    (∃ w b r, (w, b) ∈ boolNumbers ∧ s = w ++ r ∧ readBoolNumeric s = some (b, r)) ∨
      ((∀ w b, (w, b) ∈ boolNumbers → ¬ w <+: s) ∧ readBoolNumeric s = none) := by
  cases s with
  | nil =>
    right
    refine ⟨?_, rfl⟩
    intro w b hw
    simp [boolNumbers] at hw
    rcases hw with ⟨rfl, _⟩ | ⟨rfl, _⟩ <;> simp
  | cons c cs =>
    by_cases h0 : c = 48
    · left; exact ⟨[48], false, cs, by simp [boolNumbers], by simp [h0], by simp [readBoolNumeric, readMatchingUnit, h0]⟩
    · by_cases h1 : c = 49
      · left; exact ⟨[49], true, cs, by simp [boolNumbers], by simp [h1], by simp [readBoolNumeric, readMatchingUnit, h1]⟩
      · right
        refine ⟨?_, by simp [readBoolNumeric, readMatchingUnit, h0, h1]⟩
        intro w b hw
        simp [boolNumbers] at hw
        rcases hw with ⟨rfl, _⟩ | ⟨rfl, _⟩ <;> simp [List.cons_prefix_cons] <;> omega

theorem readBoolText_cases (s : List Nat) :
    (∃ w b r, (w, b) ∈ boolText ∧ s = w ++ r ∧ readBoolText s = some (b, r)) ∨
      ((∀ w b, (w, b) ∈ boolText → ¬ w <+: s) ∧ readBoolText s = none) := by
  unfold readBoolText
  cases h1 : readMatchingString [116, 114, 117, 101] s with
  | some r => exact Or.inl ⟨trueWord, true, r, by simp [boolText], (readMatchingString_iff _ _ _).1 h1, rfl⟩
  | none =>
    cases h2 : readMatchingString [102, 97, 108, 115, 101] s with
    | some r => exact Or.inl ⟨falseWord, false, r, by simp [boolText], (readMatchingString_iff _ _ _).1 h2, rfl⟩
    | none =>
      right
      refine ⟨?_, rfl⟩
      intro w b hw
      simp [boolText] at hw
      rcases hw with ⟨rfl, _⟩ | ⟨rfl, _⟩
      · exact (readMatchingString_none _ _).1 h1
      · exact (readMatchingString_none _ _).1 h2

/-- The words offered by the options. -/
def offered (numeric text : Bool) : List (List Nat × Bool) :=
  (if numeric then boolNumbers else []) ++ (if text then boolText else [])

theorem readBool_spec (numeric text : Bool) (s : List Nat) :
    ReadsWord (offered numeric text) s (readBool numeric text readBoolText s) := by
  have hm : ∀ w b, (w, b) ∈ offered numeric text ↔
      (numeric = true ∧ (w, b) ∈ boolNumbers) ∨ (text = true ∧ (w, b) ∈ boolText) := by
    intro w b
    unfold offered
    rw [List.mem_append]
    cases numeric <;> cases text <;> simp
  unfold readBool
  have htext : (∀ w b, numeric = true → (w, b) ∈ boolNumbers → ¬ w <+: s) →
      ReadsWord (offered numeric text) s (match (if text = true then readBoolText s else none) with
        | some r => .ok r
        | none => .err .invalidScannedValue) := by
    intro hnum
    by_cases ht : text = true
    · rw [if_pos ht]
      rcases readBoolText_cases s with ⟨w, b, r, h1, h2, h3⟩ | ⟨h1, h2⟩
      · rw [h3]; exact Or.inl ⟨w, b, r, (hm w b).2 (Or.inr ⟨ht, h1⟩), h2, rfl⟩
      · rw [h2]
        refine Or.inr ⟨fun w b hw => ?_, rfl⟩
        rcases (hm w b).1 hw with h | h
        · exact hnum w b h.1 h.2
        · exact h1 w b h.2
    · rw [if_neg ht]
      refine Or.inr ⟨fun w b hw => ?_, rfl⟩
      rcases (hm w b).1 hw with h | h
      · exact hnum w b h.1 h.2
      · exact absurd h.1 ht
  by_cases hn : numeric = true
  · rw [if_pos hn]
    rcases readBoolNumeric_cases s with ⟨w, b, r, h1, h2, h3⟩ | ⟨h1, h2⟩
    · rw [h3]; exact Or.inl ⟨w, b, r, (hm w b).2 (Or.inl ⟨hn, h1⟩), h2, rfl⟩
    · rw [h2]; exact htext fun w b _ hw => h1 w b hw
  · rw [if_neg hn]; exact htext fun w b h => absurd h hn

theorem readsWord_det {words : List (List Nat × Bool)} {s : List Nat} {r r' : Res (Bool × List Nat)}
    (hw : ∀ w b w' b', (w, b) ∈ words → (w', b') ∈ words → w <+: w' → w = w' ∧ b = b')
    (h : ReadsWord words s r) (h' : ReadsWord words s r') : r = r' := by
  rcases h with ⟨w, b, rest, h1, h2, rfl⟩ | ⟨h1, rfl⟩ <;> rcases h' with ⟨w', b', rest', g1, g2, rfl⟩ | ⟨g1, rfl⟩
  · have hcmp : w <+: w' ∨ w' <+: w := by
      have a1 : w <+: s := ⟨rest, h2.symm⟩
      have a2 : w' <+: s := ⟨rest', g2.symm⟩
      rcases Nat.le_total w.length w'.length with h | h
      · exact Or.inl (List.prefix_of_prefix_length_le a1 a2 h)
      · exact Or.inr (List.prefix_of_prefix_length_le a2 a1 h)
    have : w = w' ∧ b = b' := by
      rcases hcmp with h | h
      · exact hw _ _ _ _ h1 g1 h
      · obtain ⟨x, y⟩ := hw _ _ _ _ g1 h1 h; exact ⟨x.symm, y.symm⟩
    obtain ⟨rfl, rfl⟩ := this
    rw [h2] at g2
    rw [List.append_cancel_left g2]
  · exact absurd ⟨rest, h2.symm⟩ (g1 w b h1)
  · exact absurd ⟨rest', g2.symm⟩ (h1 w' b' g1)
  · rfl

theorem readBoolNames_spec (t f s : List Nat) (htf : ¬ t <+: f) (hft : ¬ f <+: t) :
    (∃ w b r, (w, b) ∈ [(t, true), (f, false)] ∧ s = w ++ r ∧ readBoolNames t f s = some (b, r)) ∨
      ((∀ w b, (w, b) ∈ [(t, true), (f, false)] → ¬ w <+: s) ∧ readBoolNames t f s = none) := by
  unfold readBoolNames
  by_cases hle : t.length ≤ f.length
  · simp only [hle, decide_true, if_true]
    cases h1 : readMatchingString t s with
    | some r => exact Or.inl ⟨t, true, r, by simp, (readMatchingString_iff _ _ _).1 h1, rfl⟩
    | none =>
      cases h2 : readMatchingString f s with
      | some r => exact Or.inl ⟨f, false, r, by simp, (readMatchingString_iff _ _ _).1 h2, rfl⟩
      | none =>
        right
        refine ⟨?_, rfl⟩
        intro w b hw
        simp at hw
        rcases hw with ⟨rfl, _⟩ | ⟨rfl, _⟩
        · exact (readMatchingString_none _ _).1 h1
        · exact (readMatchingString_none _ _).1 h2
  · simp only [hle, decide_false, Bool.false_eq_true, if_false]
    cases h1 : readMatchingString f s with
    | some r => exact Or.inl ⟨f, false, r, by simp, (readMatchingString_iff _ _ _).1 h1, rfl⟩
    | none =>
      cases h2 : readMatchingString t s with
      | some r => exact Or.inl ⟨t, true, r, by simp, (readMatchingString_iff _ _ _).1 h2, rfl⟩
      | none =>
        right
        refine ⟨?_, rfl⟩
        intro w b hw
        simp at hw
        rcases hw with ⟨rfl, _⟩ | ⟨rfl, _⟩
        · exact (readMatchingString_none _ _).1 h2
        · exact (readMatchingString_none _ _).1 h1

/-! ### Characters -/

theorem decodeValid_encode (e : Enc) (cp : Nat) (h : IsScalar cp) : decodeCpValid e (encode e cp) = some cp := by
  obtain ⟨c, cs, h1, _, h3⟩ := encode_head e cp h
  rw [h1]
  exact decodeCp_valid e _ cp h3 (by have := h.1; unfold invalidCp; omega)

theorem readCodePoint_encode (e : Enc) (cp : Nat) (h : IsScalar cp) (rest : List Nat) :
    readCodePoint e (encode e cp ++ rest) = .ok (cp, rest) := by
  unfold readCodePoint
  rw [readCpInto_encode e cp h]
  dsimp only
  rw [if_neg (encode_ne_nil e cp), decodeValid_encode e cp h]

/-! ### Pointers -/

theorem pointer_scan (k : Src) (s : List Nat) (hq : k.contiguous = true → k.narrow = true → (afterSign s).head? ≠ some 16)
    (hbytes : k.narrow = true → ∀ c ∈ s, c < 256) :
    readInt k ⟨64, false⟩ ⟨16, false, none⟩ s = scanInt ⟨64, false⟩ 16 false s := by
  rw [readInt_W k _ (by decide) 16 false s (by decide) hq hbytes]
  unfold scanIntW scanInt
  cases s with
  | nil => rfl
  | cons c cs =>
    dsimp only
    split
    · rfl
    · have hb : ∀ t, (chooseBase 16 t).1 = 16 := fun t => by simp [chooseBase]
      rw [hb]
      apply scanDigitsW_good _ (by decide) _ 16 (by simp_all) (by decide) (by decide)
      left
      decide +kernel

end Scn
