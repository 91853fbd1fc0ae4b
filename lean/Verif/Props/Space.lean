import Verif.Lemmas.Space2
/-
C16: the whitespace set and the word-at-a-time search.
C41 (part): the search on contiguous and on segmented sources.

`Spec.PatternWhiteSpace` lists the eleven Pattern_White_Space code points; `Spec.isSpace` tests
membership.  `List.dropWhile` is the one-at-a-time search.
-/
namespace Scn
open Spec

/-- C16: the three whitespace predicates of the library are membership in Pattern_White_Space, those for code
    units that in its ASCII part. -/
theorem C16_whitespace_set :
    (∀ cp, isCpSpace cp = true ↔ cp ∈ PatternWhiteSpace) ∧
    (∀ b, b < 128 → (isAsciiSpace b = true ↔ b ∈ PatternWhiteSpace)) ∧
    (∀ c, isAsciiSpaceWide c = true ↔ c < 128 ∧ c ∈ PatternWhiteSpace) := by
  refine ⟨isCpSpace_iff, fun b hb => ?_, fun c => ?_⟩
  · rw [isAsciiSpace_eq b (by omega), ← isCpSpace_iff]
  · simp [isAsciiSpaceWide, PatternWhiteSpace]
    omega

example : isCpSpace 0x2028 = true ∧ isCpSpace 0xA0 = false ∧ isAsciiSpace 0x0B = true ∧ isAsciiSpaceWide 0x2028 = false := by decide +kernel

/-- C16: on every well-formed UTF-8 string, of any length and with any mixture of ASCII and
    multi-byte characters, the block-wise search for whitespace stops at the first
    Pattern_White_Space code point (or at the end). -/
theorem C16_find_space (cps : List Nat) (h : ∀ cp ∈ cps, IsScalar cp) :
    findSpace (utf8s cps) = some (utf8s (cps.dropWhile (fun cp => ! isSpace cp))) :=
  readUntilSpace_encodes .utf8 .contiguous cps h trivial

/-- C16: the same for the first code point that is not whitespace. -/
theorem C16_find_nonspace (cps : List Nat) (h : ∀ cp ∈ cps, IsScalar cp) :
    findNonspace (utf8s cps) = some (utf8s (cps.dropWhile isSpace)) :=
  readWhileSpace_encodes .utf8 .contiguous cps h trivial

/-- "abcdefg" then 'é', U+2028, 'x': the whitespace is at byte 9, in the second block. -/
example : (∀ cp ∈ [97, 98, 99, 100, 101, 102, 103, 0xE9, 0x2028, 120], IsScalar cp) ∧
    findSpace (utf8s [97, 98, 99, 100, 101, 102, 103, 0xE9, 0x2028, 120]) = some (utf8s [0x2028, 120]) := by
  decide +kernel
example : findNonspace (utf8s [32, 0x2028, 9, 10, 0x85, 32, 32, 32, 32, 32, 120]) = some [120] := by
  decide +kernel

/-- C16, arbitrary bytes: whatever the bytes are (malformed sequences included), the block-wise
    searches and the per-code-point search give the same position as the plain decode-and-test
    loop `refFind`, a malformed sequence counting as one non-whitespace element. -/
theorem C16_any_bytes (s : List Nat) (hb : ∀ b ∈ s, b < 256) :
    findSpace s = refFind .utf8 isCpSpace s ∧
    findNonspace s = refFind .utf8 (fun cp => ! isCpSpace cp) s ∧
    readUntilCp .utf8 isCpSpace s = refFind .utf8 isCpSpace s :=
  ⟨findSpace_ref s hb, findNonspace_ref s hb,
   readUntilCp_ref_aux isCpSpace (by decide) s.length s (Nat.le_refl _) hb⟩

/-- Overlong and stray bytes across a block boundary. -/
example : findSpace [0x80, 0x80, 97, 98, 99, 100, 101, 0xE2, 0x80, 32, 97, 9] = some [9] := by decide +kernel

/-- C16 for every encoding (narrow, UTF-16 wide, UTF-32 wide) and every layout of the source in
    which the first contiguous segment does not cut a code point in two. -/
theorem C16_until_all_layouts (e : Enc) (l : Layout) (cps : List Nat) (h : ∀ cp ∈ cps, IsScalar cp)
    (hl : GoodLayout e l cps) :
    readUntilSpace e l (encodes e cps) = some (encodes e (cps.dropWhile (fun cp => ! isSpace cp))) :=
  readUntilSpace_encodes e l cps h hl

theorem C16_while_all_layouts (e : Enc) (l : Layout) (cps : List Nat) (h : ∀ cp ∈ cps, IsScalar cp)
    (hl : GoodLayout e l cps) :
    readWhileSpace e l (encodes e cps) = some (encodes e (cps.dropWhile isSpace)) :=
  readWhileSpace_encodes e l cps h hl

example : GoodLayout .utf8 (.segmented 3) [97, 0xE9, 32, 98] ∧
    readUntilSpace .utf8 (.segmented 3) (encodes .utf8 [97, 0xE9, 32, 98]) = some [32, 98] :=
  ⟨⟨[97, 0xE9], [32, 98], rfl, by decide +kernel⟩, by decide +kernel⟩
example : readUntilSpace .utf16 (.segmented 3) (encodes .utf16 [0x1F600, 0x2028, 98]) = some [0x2028, 98] := by
  decide +kernel

/-- C41 (whitespace search): contiguous and segmented sources agree when the segment boundary does
    not cut a code point. -/
theorem C41_space_search_partial (e : Enc) (l l' : Layout) (cps : List Nat) (h : ∀ cp ∈ cps, IsScalar cp)
    (hl : GoodLayout e l cps) (hl' : GoodLayout e l' cps) :
    readUntilSpace e l (encodes e cps) = readUntilSpace e l' (encodes e cps) ∧
    readWhileSpace e l (encodes e cps) = readWhileSpace e l' (encodes e cps) := by
  rw [readUntilSpace_encodes e l cps h hl, readUntilSpace_encodes e l' cps h hl',
    readWhileSpace_encodes e l cps h hl, readWhileSpace_encodes e l' cps h hl']
  exact ⟨rfl, rfl⟩

/-- Pure ASCII text can be cut anywhere. -/
theorem C41_space_search_ascii (k : Nat) (s : List Nat) (h : ∀ b ∈ s, b < 128) :
    readUntilSpace .utf8 (.segmented k) s = readUntilSpace .utf8 .contiguous s ∧
    readWhileSpace .utf8 (.segmented k) s = readWhileSpace .utf8 .contiguous s := by
  have he : ∀ t : List Nat, (∀ b ∈ t, b < 128) → utf8s t = t := by
    intro t
    induction t with
    | nil => intro; rfl
    | cons a t ih =>
      intro ht
      have ha : utf8 a = [a] := by
        rcases utf8_cases a with ⟨_, h⟩ | ⟨h, _⟩ | ⟨h, _⟩ | ⟨h, _⟩
        · exact h
        all_goals (have := ht a (by simp); omega)
      rw [utf8s, List.flatMap_cons, ha]
      have := ih (fun b hb => ht b (by simp [hb]))
      rw [utf8s] at this
      rw [this]; rfl
  have hs : ∀ cp ∈ s, IsScalar cp := by
    intro cp hc; have := h cp hc; exact ⟨by omega, by omega⟩
  have hg : GoodLayout .utf8 (.segmented k) s := by
    refine ⟨s.take k, s.drop k, (List.take_append_drop k s).symm, ?_⟩
    rw [he s h, he (s.take k) (fun b hb => h b (List.mem_of_mem_take hb))]
  have := C41_space_search_partial .utf8 (.segmented k) .contiguous s hs hg trivial
  rw [encodes_utf8, he s h] at this
  exact this

example : readUntilSpace .utf8 (.segmented 2) [97, 98, 99, 32, 100] = some [32, 100] := by decide +kernel

/-- C41 is violated when a segment boundary cuts a multi-byte whitespace character: the word search
    on `a U+2028 b` delivered as `61 E2 80 | A8 62` runs past the separator, while the string
    search stops at it; and whitespace skipping on `20 E2 80 | A8 62` stops inside the separator. -/
theorem C41_violated_split_space :
    readUntilSpace .utf8 .contiguous [0x61, 0xE2, 0x80, 0xA8, 0x62] = some [0xE2, 0x80, 0xA8, 0x62] ∧
    readUntilSpace .utf8 (.segmented 3) [0x61, 0xE2, 0x80, 0xA8, 0x62] = some [] ∧
    readWhileSpace .utf8 .contiguous [0x20, 0xE2, 0x80, 0xA8, 0x62] = some [0x62] ∧
    readWhileSpace .utf8 (.segmented 3) [0x20, 0xE2, 0x80, 0xA8, 0x62] = some [0xE2, 0x80, 0xA8, 0x62] := by
  decide +kernel

/-- C41 is also violated on malformed text without any cut: skipping whitespace stops at a stray
    continuation byte in a string but silently swallows it in a segmented source. -/
theorem C41_violated_malformed :
    readWhileSpace .utf8 .contiguous [0x20, 0x80, 0x20, 0x62] = some [0x80, 0x20, 0x62] ∧
    readWhileSpace .utf8 (.segmented 1) [0x20, 0x80, 0x20, 0x62] = some [0x62] := by
  decide +kernel

end Scn
