import Verif.Props.Readers
/-
Property C38 on text that is not well-formed.
-/
namespace Scn
open Spec

/-- Units that cannot be the first of a character by their form alone: continuation bytes and bytes above those of any lead, and
    trailing surrogates. -/
def Spec.NeverFirst : Enc → Nat → Prop
  | .utf8, c => 0x80 ≤ c ∧ c < 0xC0 ∨ 0xF8 ≤ c ∧ c < 0x100
  | .utf16, c => 0xDC00 ≤ c ∧ c ≤ 0xDFFF
  | .utf32, _ => False

/-- C38. A text that begins with a unit that no character begins with is reported as an invalid value, not as the end of the source. -/
theorem C38_invalid_partial (e wide : Enc) (loc : LocaleData) (old : Nat) (sp : Specs) (hp : Plain sp)
    (ht : sp.type = .none ∨ sp.type = .character) (lay : List Nat → Layout) (c : Nat) (h : NeverFirst e c) (s : List Nat) :
    defaultRead e (Dest.codePoint.defaultReader e wide) lay (c :: s) = .err .invalidScannedValue ∧
    Dest.codePoint.readSpecs e wide loc old sp lay (c :: s) = .err .invalidScannedValue ∧
    (e = .utf8 → defaultRead e (Dest.wchar.defaultReader e wide) lay (c :: s) = .err .invalidScannedValue) := by
  have hlen : cpLength e c = 0 := by
    cases e with
    | utf8 =>
      have key : ∀ c : Fin 256, (0x80 ≤ c.val ∧ c.val < 0xC0 ∨ 0xF8 ≤ c.val ∧ c.val < 0x100) → cpLength8 c.val = 0 := by decide +kernel
      have hlt : c < 256 := by rcases h with h | h <;> omega
      exact key ⟨c, hlt⟩ h
    | utf16 =>
      have h' : 0xDC00 ≤ c ∧ c ≤ 0xDFFF := h
      have hm : (0xffff &&& c) = c := by
        rw [Nat.and_comm, show (0xffff : Nat) = 2 ^ 16 - 1 from rfl, Nat.and_two_pow_sub_one_eq_mod]
        exact Nat.mod_eq_of_lt (by omega)
      show cpLength16 c = 0
      simp only [cpLength16, hm]
      rw [if_neg (by omega), if_pos (by omega)]
    | utf32 => exact h.elim
  have hr : readCodePoint e (c :: s) = .err .invalidScannedValue := by
    simp [readCodePoint, readCpInto, hlen]
  have hc : runTypeCheck .codePoint sp = some true := by
    rcases ht with h | h <;> simp [runTypeCheck, checkCodePoint, h]
  refine ⟨?_, ?_, ?_⟩
  · unfold defaultRead
    rw [if_neg (by simp), if_neg (by simp [Dest.defaultReader, codePointReader, Reader.mapVal])]
    show (readCodePoint e _).map _ = _
    rw [hr]; rfl
  · show (match runTypeCheck .codePoint sp with | none => _ | some false => _ | some true => _) = _
    rw [hc]
    show argRead e sp ((codePointReader e).mapVal Val.char) lay _ = _
    rw [argRead_plain _ _ hp]
    show (readCodePoint e _).map _ = _
    rw [hr]; rfl
  · intro he
    subst he
    unfold defaultRead
    rw [if_neg (by simp), if_neg (by simp [Dest.defaultReader, Reader.mapVal])]
    show (readWcharDefault .utf8 wide _).map _ = _
    rw [readWcharDefault, if_pos rfl, readWideChar, hr]; rfl

/-- A continuation byte first -/
example (loc : LocaleData) : NeverFirst .utf8 0xA0 ∧ defaultRead .utf8 (Dest.codePoint.defaultReader .utf8 .utf32) (fun _ => .contiguous) [0xA0, 97] = .err .invalidScannedValue :=
  ⟨by unfold NeverFirst; decide, (C38_invalid_partial .utf8 .utf32 loc 0 {} ⟨rfl, rfl, rfl⟩ (Or.inl rfl) _ 0xA0 (by unfold NeverFirst; decide) [97]).1⟩

/-- C38 is violated by malformed text that is long enough: the lead byte of a character of two bytes with anything else than a continuation
    behind it, an ASCII character for example, is undefined behaviour, where an error should be reported. -/
theorem C38_violated_malformed (wide : Enc) (lay : List Nat → Layout) (c b : Nat) (h1 : 0xC0 ≤ c) (h2 : c < 0xE0) (hb : b < 0x80 ∨ 0xC0 ≤ b) (hb' : b < 0x100)
    (s : List Nat) : defaultRead .utf8 (Dest.codePoint.defaultReader .utf8 wide) lay (c :: b :: s) = .ub := by
  have key : ∀ c : Fin 256, 0xC0 ≤ c.val → c.val < 0xE0 → cpLength8 c.val = 2 := by decide +kernel
  have hl : cpLength8 c = 2 := key ⟨c, by omega⟩ h1 h2
  have kt : ∀ b : Fin 256, (b.val < 0x80 ∨ 0xC0 ≤ b.val) → isTrailing b.val = false := by decide +kernel
  have ht : isTrailing b = false := kt ⟨b, hb'⟩ hb
  have hd : decodeUtf8Valid [c, b] = none := by simp [decodeUtf8Valid, ht]
  show (readCodePoint .utf8 (c :: b :: s)).map _ = _
  simp [readCodePoint, readCpInto, cpLength, hl, decodeCpValid, hd, Res.map]

/-- A lead byte and a bracket -/
example : defaultRead .utf8 (Dest.codePoint.defaultReader .utf8 .utf32) (fun _ => .contiguous) [0xC3, 0x28, 0x41] = .ub :=
  C38_violated_malformed .utf32 _ 0xC3 0x28 (by decide) (by decide) (by decide) (by decide) [0x41]

end Scn
