import Verif.Lemmas.CodePointValue
/-
C118: a code point that is read is one of Unicode, and was written as such.
The vocabulary is in `Verif/Spec/Unicode.lean`.
-/
namespace Scn
open Spec

/-! ### C118 -/

/-- C118 for UTF-8, exactly: what a `char32_t` field reads from any bytes is either a scalar value written in its encoding, or a surrogate, or beyond the last
    code point of Unicode, or written with more bytes than its encoding has. The last three are the violations, below. -/
theorem C118_utf8_partial {wide : Enc} {lay : List Nat → Layout} {s r : List Nat} {v : Val} (hs : ∀ b ∈ s, b < 256)
    (h : defaultRead .utf8 (Dest.codePoint.defaultReader .utf8 wide) lay s = .ok (v, r)) :
    ∃ cp, v = .char cp ∧ (IsScalar cp ∧ s = utf8 cp ++ r ∨ (0xD800 ≤ cp ∧ cp ≤ 0xDFFF) ∨ (0x110000 ≤ cp ∧ cp < 0x140000) ∨
      (IsScalar cp ∧ (utf8 cp).length + r.length < s.length)) := by
  obtain ⟨cp, rfl, hr⟩ := codePoint_field h
  exact ⟨cp, rfl, readCodePoint_utf8_value hs hr⟩

/-- The euro sign, and a text behind it that is not even UTF-8. -/
example : (∀ b ∈ [0xE2, 0x82, 0xAC, 0xFF], b < 256) ∧ IsScalar 0x20AC ∧
    defaultRead .utf8 (Dest.codePoint.defaultReader .utf8 .utf32) (fun _ => .contiguous) [0xE2, 0x82, 0xAC, 0xFF] = .ok (.char 0x20AC, [0xFF]) :=
  ⟨by decide, by decide, by decide +kernel⟩

/-- C118 for UTF-16, exactly: what a `char32_t` field reads from any units is either a scalar value written in its encoding, or a lead surrogate that is all
    there is left of the source. The latter is a violation. -/
theorem C118_utf16_partial {wide : Enc} {lay : List Nat → Layout} {s r : List Nat} {v : Val} (hs : ∀ b ∈ s, b < 65536)
    (h : defaultRead .utf16 (Dest.codePoint.defaultReader .utf16 wide) lay s = .ok (v, r)) :
    ∃ cp, v = .char cp ∧ (IsScalar cp ∧ s = utf16 cp ++ r ∨ (0xD800 ≤ cp ∧ cp ≤ 0xDBFF) ∧ s = [cp] ∧ r = []) := by
  obtain ⟨cp, rfl, hr⟩ := codePoint_field h
  exact ⟨cp, rfl, readCodePoint_utf16 hs hr⟩

/-- U+1F600 in UTF-16. -/
example : (∀ b ∈ [0xD83D, 0xDE00, 0xDE00], b < 65536) ∧ IsScalar 0x1F600 ∧
    defaultRead .utf16 (Dest.codePoint.defaultReader .utf16 .utf16) (fun _ => .contiguous) [0xD83D, 0xDE00, 0xDE00] = .ok (.char 0x1F600, [0xDE00]) :=
  ⟨by decide, by decide, by decide +kernel⟩

/-- C118 for UTF-32: what is read is the first unit, and nothing else is consumed. That it is a scalar value is violated, below. -/
theorem C118_utf32_partial {wide : Enc} {lay : List Nat → Layout} {s r : List Nat} {v : Val}
    (h : defaultRead .utf32 (Dest.codePoint.defaultReader .utf32 wide) lay s = .ok (v, r)) :
    ∃ cp, v = .char cp ∧ s = cp :: r := by
  obtain ⟨cp, rfl, hr⟩ := codePoint_field h
  cases s with
  | nil => cases h
  | cons c cs =>
    rw [readCodePoint_utf32] at hr
    cases hr
    exact ⟨_, rfl, rfl⟩

example : defaultRead .utf32 (Dest.codePoint.defaultReader .utf32 .utf32) (fun _ => .contiguous) [0x1F600, 32] = .ok (.char 0x1F600, [32]) := by decide +kernel

/-- C118 with a specification: without width, precision and alignment, a `char32_t` field reads the same with a specification as without one, from any
    source that is not at its end (see C38 for the end). -/
theorem C118_specs (e wide : Enc) (loc : LocaleData) (old : Nat) {sp : Specs} (hp : Plain sp) (ht : sp.type = .none ∨ sp.type = .character)
    (lay : List Nat → Layout) (c : Nat) (cs : List Nat) :
    Dest.codePoint.readSpecs e wide loc old sp lay (c :: cs) = defaultRead e (Dest.codePoint.defaultReader e wide) lay (c :: cs) := by
  have hc : runTypeCheck .codePoint sp = some true := by
    rcases ht with h | h <;> simp [runTypeCheck, checkCodePoint, h]
  rw [codePoint_default]
  show (match runTypeCheck .codePoint sp with | none => _ | some false => _ | some true => _) = _
  rw [hc]
  show argRead e sp ((codePointReader e).mapVal Val.char) lay _ = _
  rw [argRead_plain _ _ hp]
  rfl

example : Plain { type := .character } := ⟨rfl, rfl, rfl⟩

/-- C118 for `wchar_t` fields over UTF-8: as for `char32_t`, but that nothing beyond Unicode is read, and nothing that does not fit `wchar_t`. -/
theorem C118_wchar_partial {wide : Enc} {lay : List Nat → Layout} {s r : List Nat} {v : Val} (hs : ∀ b ∈ s, b < 256)
    (h : defaultRead .utf8 (Dest.wchar.defaultReader .utf8 wide) lay s = .ok (v, r)) :
    ∃ cp, v = .char cp ∧ (wide = .utf16 → cp < 0x10000) ∧ (IsScalar cp ∧ s = utf8 cp ++ r ∨ (0xD800 ≤ cp ∧ cp ≤ 0xDFFF) ∨
      (IsScalar cp ∧ (utf8 cp).length + r.length < s.length)) := by
  cases s with
  | nil => cases h
  | cons c cs =>
    rw [wchar_default, readWideChar] at h
    cases hr : readCodePoint .utf8 (c :: cs) with
    | err x => rw [hr] at h; cases h
    | ub => rw [hr] at h; cases h
    | ok p =>
      obtain ⟨cp, r'⟩ := p
      rw [hr, Res.bind_ok] at h
      dsimp only at h
      have hv := readCodePoint_utf8_value hs hr
      unfold encodeWide at h
      split at h
      · cases h
      rename_i hlt
      have hlt : cp < 0x110000 := Nat.lt_of_not_le hlt
      split at h
      · cases h
        refine ⟨cp, rfl, (fun hw => Enc.noConfusion hw), ?_⟩
        rcases hv with hv | hv | hv | hv
        · exact Or.inl hv
        · exact Or.inr (Or.inl hv)
        · omega
        · exact Or.inr (Or.inr hv)
      · split at h
        · rename_i hb
          cases h
          refine ⟨cp, rfl, fun _ => hb, ?_⟩
          rcases hv with hv | hv | hv | hv
          · exact Or.inl hv
          · exact Or.inr (Or.inl hv)
          · omega
          · exact Or.inr (Or.inr hv)
        · cases h

/-- The euro sign into a `wchar_t` of 2 bytes. -/
example : (∀ b ∈ [0xE2, 0x82, 0xAC, 0xFF], b < 256) ∧
    defaultRead .utf8 (Dest.wchar.defaultReader .utf8 .utf16) (fun _ => .contiguous) [0xE2, 0x82, 0xAC, 0xFF] = .ok (.char 0x20AC, [0xFF]) :=
  ⟨by decide, by decide +kernel⟩

/-- C118 is violated for `wchar_t` fields over UTF-8: the bytes of a value beyond Unicode are undefined behaviour (the precondition of
    `encode_code_point_as_wide_character`), where a `char32_t` field reads the value. -/
theorem C118_violated_wchar (wide : Enc) (lay : List Nat → Layout) (r : List Nat) :
    defaultRead .utf8 (Dest.wchar.defaultReader .utf8 wide) lay (0xF4 :: 0x90 :: 0x80 :: 0x80 :: r) = .ub := by
  rw [wchar_default]; rfl

/-- C118 is violated in UTF-32 by every value: what is no code point of Unicode is read like one. -/
theorem C118_violated_utf32 (wide : Enc) (lay : List Nat → Layout) (x : Nat) (r : List Nat) :
    defaultRead .utf32 (Dest.codePoint.defaultReader .utf32 wide) lay (x :: r) = .ok (.char x, r) := by
  rw [codePoint_default, readCodePoint_utf32]; rfl

/-- A value beyond Unicode. -/
example : ¬ IsScalar 0xFFFFFFFF := by decide

/-- C118 is violated in UTF-16: any lead surrogate at the end of the source is read as a code point, where anywhere else it is undefined behaviour if no
    trail surrogate follows (C38). -/
theorem C118_violated_utf16 (wide : Enc) (lay : List Nat → Layout) (x : Nat) (hx : 0xD800 ≤ x ∧ x ≤ 0xDBFF) :
    defaultRead .utf16 (Dest.codePoint.defaultReader .utf16 wide) lay [x] = .ok (.char x, []) ∧ ¬ IsScalar x := by
  refine ⟨?_, fun h => h.2 ⟨hx.1, by omega⟩⟩
  rw [codePoint_default]
  have hl : cpLength .utf16 x = 2 := by
    show cpLength16 x = 2
    rw [cpLength16_eq x (by omega), if_pos hx]
  simp [readCodePoint, readCpInto, hl, decodeCpValid, decodeUtf16Valid, Res.map]

example : 0xD800 ≤ 0xD83D ∧ 0xD83D ≤ 0xDBFF := by decide

/-- C118 is violated in UTF-8, in each of the three ways: the bytes of a surrogate, those of a value beyond Unicode, and a space in three bytes. -/
theorem C118_violated_utf8 (wide : Enc) (lay : List Nat → Layout) (r : List Nat) :
    let rd := defaultRead .utf8 (Dest.codePoint.defaultReader .utf8 wide) lay
    rd (0xED :: 0xA0 :: 0x80 :: r) = .ok (.char 0xD800, r) ∧ rd (0xF4 :: 0x90 :: 0x80 :: 0x80 :: r) = .ok (.char 0x110000, r) ∧
      rd (0xE0 :: 0x80 :: 0xA0 :: r) = .ok (.char 0x20, r) := by
  refine ⟨?_, ?_, ?_⟩ <;>
  · rw [codePoint_default]; rfl

end Scn
