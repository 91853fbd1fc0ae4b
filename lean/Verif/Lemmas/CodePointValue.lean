import Verif.Lemmas.Unicode2
import Verif.Lemmas.Readers
/-
Helper lemmas: the value of a code point that is read.
-/
namespace Scn
open Spec

theorem readCodePoint_take {e : Enc} {c : Nat} {cs r : List Nat} {cp : Nat} (h : readCodePoint e (c :: cs) = .ok (cp, r)) :
    ∃ p, p ++ r = c :: cs ∧ p = (c :: cs).take (cpLength e c) ∧ p ≠ [] ∧ decodeCpValid e p = some cp := by
  unfold readCodePoint readCpInto at h
  dsimp only at h
  by_cases h0 : cpLength e c = 0
  · rw [if_pos h0] at h; simp at h
  rw [if_neg h0] at h
  have key : ∀ r' p, (if cpLength e c = 1 then some (cs, [c]) else some ((c :: cs).drop (cpLength e c), (c :: cs).take (cpLength e c))) = some (r', p) →
      p ++ r' = c :: cs ∧ p = (c :: cs).take (cpLength e c) := by
    intro r' p hp
    split at hp
    · rename_i h1
      cases hp
      rw [h1]
      exact ⟨rfl, rfl⟩
    · cases hp
      exact ⟨List.take_append_drop _ _, rfl⟩
  split at h
  · cases h
  rename_i r' p hp
  obtain ⟨k1, k2⟩ := key r' p hp
  by_cases hn : p = []
  · rw [if_pos hn] at h; cases h
  rw [if_neg hn] at h
  split at h
  · cases h
  rename_i v hv
  cases h
  exact ⟨p, k1, k2, hn, hv⟩

/-- What is read from UTF-8. -/
theorem readCodePoint_utf8 {s r : List Nat} {cp : Nat} (hs : ∀ b ∈ s, b < 256) (h : readCodePoint .utf8 s = .ok (cp, r)) :
    ∃ p, s = p ++ r ∧ ((∃ a, p = [a] ∧ a < 128 ∧ cp = a) ∨
      (∃ a b, p = [a, b] ∧ (192 ≤ a ∧ a < 224) ∧ (128 ≤ b ∧ b < 192) ∧ cp = a % 32 * 64 + b % 64) ∨
      (∃ a b c, p = [a, b, c] ∧ (224 ≤ a ∧ a < 240) ∧ (128 ≤ b ∧ b < 192) ∧ (128 ≤ c ∧ c < 192) ∧ cp = a % 16 * 4096 + b % 64 * 64 + c % 64) ∨
      ∃ a b c d, p = [a, b, c, d] ∧ (240 ≤ a ∧ a ≤ 244) ∧ (128 ≤ b ∧ b < 192) ∧ (128 ≤ c ∧ c < 192) ∧ (128 ≤ d ∧ d < 192) ∧
        cp = a % 8 * 262144 + b % 64 * 4096 + c % 64 * 64 + d % 64) := by
  cases s with
  | nil => cases h
  | cons c0 cs =>
    obtain ⟨p, h1, _, hne, hv⟩ := readCodePoint_take h
    have hb : ∀ b ∈ p, b < 256 := fun b hb => hs b (by rw [← h1]; exact List.mem_append_left _ hb)
    refine ⟨p, h1.symm, ?_⟩
    have hv : decodeUtf8Valid p = some cp := hv
    match p, hv, hne with
    | [a], hv, _ =>
      simp only [decodeUtf8Valid] at hv
      split at hv
      · cases hv; exact Or.inl ⟨_, rfl, by assumption, rfl⟩
      · cases hv
    | [a, b], hv, _ =>
      have ha := hb a (by simp)
      simp only [decodeUtf8Valid, lead2 a ha, isTrailing_iff, bits2] at hv
      split at hv
      · rename_i hx
        cases hv; exact Or.inr (Or.inl ⟨a, b, rfl, hx.1, hx.2, rfl⟩)
      · cases hv
    | [a, b, c], hv, _ =>
      have ha := hb a (by simp)
      simp only [decodeUtf8Valid, lead3 a ha, isTrailing_iff, bits3] at hv
      split at hv
      · rename_i hx
        cases hv; exact Or.inr (Or.inr (Or.inl ⟨a, b, c, rfl, hx.1, hx.2.1, hx.2.2, rfl⟩))
      · cases hv
    | [a, b, c, d], hv, _ =>
      have ha := hb a (by simp)
      simp only [decodeUtf8Valid, lead4 a ha, isTrailing_iff, bits4] at hv
      split at hv
      · rename_i hx
        cases hv; exact Or.inr (Or.inr (Or.inr ⟨a, b, c, d, rfl, ⟨hx.1.1, hx.2.1⟩, hx.2.2.1, hx.2.2.2.1, hx.2.2.2.2, rfl⟩))
      · cases hv
    | _ :: _ :: _ :: _ :: _ :: _, hv, _ => cases hv

/-- What is read from UTF-16: a lead surrogate is read by itself only at the end. -/
theorem readCodePoint_utf16 {s r : List Nat} {cp : Nat} (hs : ∀ b ∈ s, b < 65536) (h : readCodePoint .utf16 s = .ok (cp, r)) :
    IsScalar cp ∧ s = utf16 cp ++ r ∨ (0xD800 ≤ cp ∧ cp ≤ 0xDBFF) ∧ s = [cp] ∧ r = [] := by
  cases s with
  | nil => cases h
  | cons c0 cs =>
    obtain ⟨p, h1, h2, hne, hv⟩ := readCodePoint_take h
    replace hv : decodeUtf16Valid p = some cp := hv
    have hc0 := hs c0 (by simp)
    have hl : cpLength .utf16 c0 = _ := cpLength16_eq c0 hc0
    rw [hl] at h2
    match p, hv, hne, h1, h2 with
    | [a], hv, _, h1, h2 =>
      have hv : some a = some cp := hv
      injection hv with hv
      subst hv
      have h1 : a :: r = c0 :: cs := h1
      obtain ⟨rfl, rfl⟩ := List.cons.inj h1
      split at h2
      · rename_i hx
        refine Or.inr ⟨hx, ?_⟩
        cases r with
        | nil => exact ⟨rfl, rfl⟩
        | cons x xs => cases h2
      · split at h2
        · cases h2
        · refine Or.inl ⟨⟨by omega, by omega⟩, ?_⟩
          rw [utf16, if_pos hc0]; rfl
    | [a, b], hv, _, h1, _ =>
      have hv : (if 0xd800 ≤ a ∧ a ≤ 0xdbff ∧ 0xdc00 ≤ b ∧ b ≤ 0xdfff then some ((((a - 0xd800) <<< 10) ||| (b - 0xdc00)) + 0x10000) else none) = some cp := hv
      split at hv
      · rename_i hx
        injection hv with hv
        rw [or_shift _ _ 10 (by omega)] at hv
        refine Or.inl ⟨⟨by omega, by omega⟩, ?_⟩
        rw [utf16, if_neg (by omega), ← h1]
        simp only [List.cons_append, List.nil_append, List.cons.injEq, and_true]
        omega
      · cases hv
    | _ :: _ :: _ :: _, hv, _, _, _ => cases hv

theorem readCodePoint_utf32 (c : Nat) (cs : List Nat) : readCodePoint .utf32 (c :: cs) = .ok (c, cs) := by
  simp [readCodePoint, readCpInto, cpLength, decodeCpValid]

theorem codePoint_default (e wide : Enc) (lay : List Nat → Layout) (c : Nat) (cs : List Nat) :
    defaultRead e (Dest.codePoint.defaultReader e wide) lay (c :: cs) = (readCodePoint e (c :: cs)).map fun x => (Val.char x.1, x.2) := by
  unfold defaultRead
  rw [if_neg (by simp), if_neg (by simp [Dest.defaultReader, codePointReader, Reader.mapVal])]
  rfl

/-- A `char32_t` field without a specification. -/
theorem codePoint_field {e wide : Enc} {lay : List Nat → Layout} {s r : List Nat} {v : Val} (h : defaultRead e (Dest.codePoint.defaultReader e wide) lay s = .ok (v, r)) :
    ∃ cp, v = .char cp ∧ readCodePoint e s = .ok (cp, r) := by
  unfold defaultRead at h
  split at h
  · cases h
  rw [if_neg (by simp [Dest.defaultReader, codePointReader, Reader.mapVal])] at h
  have h : (readCodePoint e s).map (fun x => (Val.char x.1, x.2)) = .ok (v, r) := h
  cases hr : readCodePoint e s with
  | ok p => rw [hr] at h; cases h; exact ⟨_, rfl, rfl⟩
  | err x => rw [hr] at h; cases h
  | ub => rw [hr] at h; cases h

/-- The four things a code point that is read from UTF-8 can be. -/
theorem readCodePoint_utf8_value {s r : List Nat} {cp : Nat} (hs : ∀ b ∈ s, b < 256) (h : readCodePoint .utf8 s = .ok (cp, r)) :
    IsScalar cp ∧ s = utf8 cp ++ r ∨ (0xD800 ≤ cp ∧ cp ≤ 0xDFFF) ∨ (0x110000 ≤ cp ∧ cp < 0x140000) ∨ (IsScalar cp ∧ (utf8 cp).length + r.length < s.length) := by
  obtain ⟨p, rfl, hp⟩ := readCodePoint_utf8 hs h
  by_cases h1 : 0xD800 ≤ cp ∧ cp ≤ 0xDFFF
  · exact Or.inr (Or.inl h1)
  by_cases h2 : 0x110000 ≤ cp
  · refine Or.inr (Or.inr (Or.inl ⟨h2, ?_⟩))
    rcases hp with ⟨a, rfl, h⟩ | ⟨a, b, rfl, h⟩ | ⟨a, b, c, rfl, h⟩ | ⟨a, b, c, d, rfl, h⟩ <;> omega
  have hsc : IsScalar cp := ⟨by omega, h1⟩
  have key : p = utf8 cp ∨ (utf8 cp).length < p.length := by
    rcases hp with ⟨a, rfl, h⟩ | ⟨a, b, rfl, h⟩ | ⟨a, b, c, rfl, h⟩ | ⟨a, b, c, d, rfl, h⟩ <;>
      rcases utf8_cases cp with ⟨g, e⟩ | ⟨g, e⟩ | ⟨g, e⟩ | ⟨g, e⟩ <;> rw [e] <;>
      simp only [List.length_cons, List.length_nil, List.cons.injEq, and_true] <;> omega
  rcases key with rfl | hlt
  · exact Or.inl ⟨hsc, rfl⟩
  · refine Or.inr (Or.inr (Or.inr ⟨hsc, ?_⟩))
    rw [List.length_append]; omega

theorem wchar_default (wide : Enc) (lay : List Nat → Layout) (c : Nat) (cs : List Nat) :
    defaultRead .utf8 (Dest.wchar.defaultReader .utf8 wide) lay (c :: cs) = (readWideChar .utf8 wide (c :: cs)).map fun x => (Val.char x.1, x.2) := by
  unfold defaultRead
  rw [if_neg (by simp), if_neg (by simp [Dest.defaultReader, Reader.mapVal])]
  rfl

end Scn
