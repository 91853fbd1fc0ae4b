import Verif.Lemmas.Unicode2
/-
C11-C15: Unicode decoding, validation and transcoding.
-/
namespace Scn
open Spec

/-! ### C11 -/

/-- C11. Decoding the UTF-8 encoding of a scalar value followed by anything yields the scalar
    value and stops right after its last byte. -/
theorem C11_utf8_decode (cp : Nat) (h : IsScalar cp) (rest : List Nat) :
    getNext .utf8 (utf8 cp ++ rest) = some (rest, cp) := getNext_utf8 cp h.1 rest

example : IsScalar 0x1F600 ∧ utf8 0x1F600 = [0xF0, 0x9F, 0x98, 0x80] := by decide

/-- C11 for the decoder used on already validated text: same result, and its preconditions
    hold (it is never `none`). -/
theorem C11_utf8_decode_valid (cp : Nat) (h : IsScalar cp) (rest : List Nat) :
    getNextValid .utf8 (utf8 cp ++ rest) = some (rest, cp) :=
  getNext_to_valid _ _ _ _ (getNext_utf8 cp h.1 rest) h.1

example : IsScalar 0x20AC ∧ utf8 0x20AC = [0xE2, 0x82, 0xAC] := by decide

/-- C11 for whole strings: iterating over the encoding of any scalar sequence hands the
    callback exactly that sequence. -/
theorem C11_utf8_decode_all (cps : List Nat) (h : ∀ cp ∈ cps, IsScalar cp) :
    forEachCp .utf8 (utf8s cps) = some cps := forEachCp_utf8s cps (fun cp hc => (h cp hc).1)

example : (∀ cp ∈ [0x61, 0xE9, 0x20AC, 0x1F600], IsScalar cp) ∧
    utf8s [0x61, 0xE9] = [0x61, 0xC3, 0xA9] := by decide

/-! ### C12 -/

/-- C12. The same for UTF-16. -/
theorem C12_utf16_decode (cp : Nat) (h : IsScalar cp) (rest : List Nat) :
    getNext .utf16 (utf16 cp ++ rest) = some (rest, cp) := getNext_utf16 cp h rest

example : IsScalar 0x1F600 ∧ utf16 0x1F600 = [0xD83D, 0xDE00] := by decide

theorem C12_utf16_decode_all (cps : List Nat) (h : ∀ cp ∈ cps, IsScalar cp) :
    forEachCp .utf16 (utf16s cps) = some cps := forEachCp_utf16s cps h

example : (∀ cp ∈ [0x61, 0x1F600, 0xFFFF], IsScalar cp) := by decide

/-- C12. A low surrogate that does not follow a high surrogate decodes to the invalid marker. -/
theorem C12_lone_low (c : Nat) (cs : List Nat) (h : 0xDC00 ≤ c ∧ c ≤ 0xDFFF) :
    ∃ rest, getNext .utf16 (c :: cs) = some (rest, invalidCp) := by
  refine ⟨startNext .utf16 (c :: cs), ?_⟩
  have : cpLength .utf16 c = 0 := by
    rw [cpLength, cpLength16_eq c (by omega), if_neg (by omega), if_pos (by omega)]
  simp only [getNext, this, if_true]

/-- C12. A high surrogate not followed by a low one decodes to the invalid marker. -/
theorem C12_lone_high (c : Nat) (cs : List Nat) (h : 0xD800 ≤ c ∧ c ≤ 0xDBFF)
    (hn : ∀ d, cs.head? = some d → ¬ (0xDC00 ≤ d ∧ d ≤ 0xDFFF)) :
    ∃ rest, getNext .utf16 (c :: cs) = some (rest, invalidCp) := by
  have hL : cpLength .utf16 c = 2 := by
    rw [cpLength, cpLength16_eq c (by omega), if_pos (by omega)]
  cases cs with
  | nil => exact ⟨[], by simp only [getNext, hL]; rfl⟩
  | cons d ds =>
    refine ⟨ds, ?_⟩
    rw [getNext_of (L := 2) (cp := invalidCp) hL (by decide) (by simp) ?_]
    · rfl
    · simp only [List.take_succ_cons, List.take_zero, decodeCp, decodeUtf16]
      have := hn d rfl
      rw [if_pos (by omega)]

example : (0xD800 ≤ 0xD83D ∧ 0xD83D ≤ 0xDBFF) ∧
    ∀ d, [0x41, 0x42].head? = some d → ¬ (0xDC00 ≤ d ∧ d ≤ 0xDFFF) := by
  refine ⟨by decide, ?_⟩
  intro d hd
  simp at hd
  omega

example : 0xDC00 ≤ 0xDE00 ∧ 0xDE00 ≤ 0xDFFF := by decide

/-! ### C13 -/

/-- C13. On any non-empty sequence of units, valid or not, one decoding step reads only units
    that are there (no precondition is violated), consumes at least one and leaves a suffix. -/
theorem C13_progress (e : Enc) (s : List Nat) (hs : s ≠ []) :
    ∃ used rest cp, getNext e s = some (rest, cp) ∧ used ≠ [] ∧ s = used ++ rest :=
  getNext_progress e s hs

example : [0xFF, 0x80, 0x80, 0x41] ≠ [] ∧
    getNext .utf8 [0xFF, 0x80, 0x80, 0x41] = some ([0x41], invalidCp) := by decide

/-- A sequence of decoding steps that starts with `s` and ends at its end. -/
inductive Decodes (e : Enc) : List Nat → List (List Nat × Nat) → Prop where
  | nil : Decodes e [] []
  | cons {used rest cp ps} : used ≠ [] → getNext e (used ++ rest) = some (rest, cp) →
      Decodes e rest ps → Decodes e (used ++ rest) ((used, cp) :: ps)

/-- C13. Repeated decoding partitions any input into consecutive non-empty pieces, and the
    loops over code points terminate having handed one value per piece to their callback. -/
theorem C13_partition (e : Enc) (s : List Nat) :
    ∃ ps, Decodes e s ps ∧ (ps.map (·.1)).flatten = s ∧ (∀ p ∈ ps, p.1 ≠ []) ∧
      forEachCp e s = some (ps.map (·.2)) := by
  suffices H : ∀ n, ∀ s : List Nat, s.length ≤ n → ∃ ps, Decodes e s ps ∧
      (ps.map (·.1)).flatten = s ∧ (∀ p ∈ ps, p.1 ≠ []) ∧ forEachCp e s = some (ps.map (·.2)) from
    H _ s (Nat.le_refl _)
  intro n
  induction n with
  | zero =>
    intro s hs
    have : s = [] := by cases s with
      | nil => rfl
      | cons => simp at hs
    subst this
    exact ⟨[], .nil, rfl, by simp, forEachCp_nil e⟩
  | succ n ih =>
    intro s hs
    by_cases h : s = []
    · subst h; exact ⟨[], .nil, rfl, by simp, forEachCp_nil e⟩
    · obtain ⟨used, rest, cp, h1, h2, h3⟩ := getNext_progress e s h
      have hl := getNext_length h1
      obtain ⟨ps, g1, g2, g3, g4⟩ := ih rest (by omega)
      refine ⟨(used, cp) :: ps, ?_, ?_, ?_, ?_⟩
      · rw [h3]; exact .cons h2 (by rw [← h3]; exact h1) g1
      · rw [List.map_cons, List.flatten_cons, g2, h3]
      · intro p hp
        rcases List.mem_cons.1 hp with rfl | hp
        · exact h2
        · exact g3 p hp
      · rw [forEachCp_step e s rest cp h1, g4]; rfl

example : forEachCp .utf8 [0x41, 0xE2, 0x82] = some [0x41, invalidCp] := by decide

/-- C13. The transcoding of arbitrary input to code points hands on every character that is well-formed, and one replacement
    character for every piece that is not one. -/
theorem C13_replacement (e : Enc) (s : List Nat) :
    ∃ ps, Decodes e s ps ∧ (ps.map (·.1)).flatten = s ∧ ∃ out, transcodeTo32 e s = some out ∧ out.length = ps.length ∧ invalidCp ∉ out ∧
      ∀ i (h : i < ps.length), out[i]? = some (if ps[i].2 = invalidCp then 0xFFFD else ps[i].2) := by
  obtain ⟨ps, h1, h2, _, h4⟩ := C13_partition e s
  refine ⟨ps, h1, h2, _, by unfold transcodeTo32; rw [h4]; rfl, by simp, ?_, ?_⟩
  · simp only [List.mem_map, not_exists, not_and]
    intro x _ h
    split at h
    · exact absurd h (by decide)
    · contradiction
  · intro i h
    simp [h]

/-- "A", a truncated "€", and "B" -/
example : transcodeTo32 .utf8 [0x41, 0xE2, 0x82] = some [0x41, 0xFFFD] ∧ transcodeTo32 .utf16 [0x41, 0xDC00, 0x42] = some [0x41, 0xFFFD, 0x42] := by
  decide

/-- C13 for validation: it terminates with a verdict on every input, never reading outside. -/
theorem C13_validate_total (e : Enc) (s : List Nat) : ∃ b, validateUnicode e s = some b :=
  validate_total_aux e _ s (Nat.le_refl _)

example : validateUnicode .utf8 [0x41, 0xE2, 0x82] = some false := by decide

/-- C13. Once a string passed validation, the unchecked decoders used afterwards meet all
    their preconditions, agree with the checked ones and produce values below 0x110000. -/
theorem C13_validated_safe (e : Enc) (s : List Nat) (h : validateUnicode e s = some true) :
    ∃ cps, forEachCpValid e s = some cps ∧ forEachCp e s = some cps ∧ ∀ cp ∈ cps, cp < 0x110000 := by
  obtain ⟨cps, h1, h2, h3⟩ := valid_agree_aux e _ s (Nat.le_refl _) h
  exact ⟨cps, h2, h1, h3⟩

example : validateUnicode .utf8 [0x41, 0xE2, 0x82, 0xAC] = some true := by decide

/-- Without validation the unchecked decoder can be reached with its precondition violated:
    a lone continuation byte. -/
theorem C13_unvalidated_unsafe : getNextValid .utf8 [0x80] = none ∧ getNextValid .utf8 [0xE2] = none := by
  decide

/-! ### C14 -/

/-- C14, the half that holds: well-formed UTF-8 is always accepted. -/
theorem C14_wellformed_accepted_partial (s : List Nat) (h : WellFormed8 s) :
    validateUnicode .utf8 s = some true := by
  obtain ⟨cps, h1, rfl⟩ := h
  exact validate_utf8s cps (fun cp hc => (h1 cp hc).1)

example : WellFormed8 [0x61, 0xC3, 0xA9] := ⟨[0x61, 0xE9], by decide, by decide⟩

/-- C14, exactly what is accepted: byte strings that split into loose elements (right shape,
    value below 0x110000). -/
theorem C14_accepted_iff_partial (s : List Nat) (hb : ∀ b ∈ s, b < 256) :
    validateUnicode .utf8 s = some true ↔
      ∃ ps : List (List Nat), (∀ p ∈ ps, LooseUnit p) ∧ s = ps.flatten :=
  validate_loose_aux _ s (Nat.le_refl _) hb

example : (∀ b ∈ [0xC3, 0xA9, 0x41], b < 256) := by decide

/-- C14. An accepted string whose elements are all in shortest form and not surrogates is
    well-formed, and conversely: overlong forms and surrogates are the only gap. -/
theorem C14_gap_partial (s : List Nat) :
    WellFormed8 s ↔ ∃ ps : List (List Nat), (∀ p ∈ ps, LooseUnit p ∧ IsScalar (looseValue p) ∧
      p.length = (utf8 (looseValue p)).length) ∧ s = ps.flatten := by
  constructor
  · rintro ⟨cps, h1, rfl⟩
    refine ⟨cps.map utf8, ?_, by rw [utf8s, List.flatMap_def]⟩
    intro p hp
    obtain ⟨cp, hc, rfl⟩ := List.mem_map.1 hp
    obtain ⟨g1, g2⟩ := utf8_loose cp (h1 cp hc).1
    exact ⟨g1, by rw [g2]; exact h1 cp hc, by rw [g2]⟩
  · rintro ⟨ps, h1, rfl⟩
    refine ⟨ps.map looseValue, ?_, ?_⟩
    · intro cp hc
      obtain ⟨p, hp, rfl⟩ := List.mem_map.1 hc
      exact (h1 p hp).2.1
    · rw [utf8s, List.flatMap_map]
      induction ps with
      | nil => rfl
      | cons p ps ih =>
        obtain ⟨g1, g2, g3⟩ := h1 p (by simp)
        rw [List.flatten_cons, List.flatMap_cons, ← loose_scalar p g1 g3,
          ih (fun q hq => h1 q (by simp [hq]))]

example : LooseUnit [0xC0, 0xA0] ∧ ¬ ([0xC0, 0xA0].length = (utf8 (looseValue [0xC0, 0xA0])).length) := by
  unfold LooseUnit; decide

/-- Every well-formed string consists of elements whose lead bytes are none of
    C0, C1, F5..FF. -/
theorem wellformed_no_c0 (s : List Nat) (h : WellFormed8 s) : ∀ b ∈ s, b ≠ 0xC0 ∧ b ≠ 0xC1 := by
  obtain ⟨cps, h1, rfl⟩ := h
  intro b hb
  obtain ⟨cp, hc, hb⟩ := List.mem_flatMap.1 hb
  rcases utf8_cases cp with ⟨g, e⟩ | ⟨g, e⟩ | ⟨g, e⟩ | ⟨g, e⟩ <;> rw [e] at hb <;>
    simp only [List.mem_cons, List.not_mem_nil, or_false] at hb <;> omega

/-- C14 is violated: the overlong encoding C0 A0 of a space is accepted, and so is the
    encoded surrogate ED A0 80; neither is well-formed UTF-8. -/
theorem C14_violated :
    (validateUnicode .utf8 [0xC0, 0xA0] = some true ∧ ¬ WellFormed8 [0xC0, 0xA0]) ∧
    (validateUnicode .utf8 [0xED, 0xA0, 0x80] = some true ∧ ¬ WellFormed8 [0xED, 0xA0, 0x80]) := by
  refine ⟨⟨by decide, fun h => ?_⟩, ⟨by decide, ?_⟩⟩
  · exact (wellformed_no_c0 _ h 0xC0 (by simp)).1 rfl
  · rintro ⟨cps, h1, h2⟩
    have h3 := forEachCp_utf8s cps (fun cp hc => (h1 cp hc).1)
    rw [← h2, show forEachCp .utf8 [0xED, 0xA0, 0x80] = some [0xD800] by decide,
      Option.some.injEq] at h3
    subst h3
    exact absurd (h1 0xD800 (by simp)) (by decide)

/-! ### C15 -/

/-- C15, narrow to 4-byte wide: the result is exactly the code point sequence. -/
theorem C15_narrow_to_wide32_partial (cps : List Nat) (h : ∀ cp ∈ cps, IsScalar cp) :
    transcodeValid .utf8 .utf32 (utf8s cps) = some cps := by
  have hv := validate_utf8s cps (fun cp hc => (h cp hc).1)
  simp only [transcodeValid, hv]
  exact transcodeValidTo32_eq .utf8 _ cps hv (forEachCp_utf8s cps (fun cp hc => (h cp hc).1))

example : ∀ cp ∈ [0x61, 0xE9, 0x20AC, 0x1F600], IsScalar cp := by decide

/-- C15, 4-byte wide to narrow: the UTF-8 encoding of the same sequence. -/
theorem C15_wide32_to_narrow_partial (cps : List Nat) (h : ∀ cp ∈ cps, IsScalar cp) :
    transcodeValid .utf32 .utf8 cps = some (utf8s cps) := by
  have hv : validateUnicode .utf32 cps = some true := by
    rw [validate_utf32]; congr 1
    rw [List.all_eq_true]; intro x hx; simpa using (h x hx).1
  simp only [transcodeValid, hv]
  rw [if_neg (by simp), transcode32to8_eq true cps (fun cp hc => (h cp hc).1)]

/-- C15. Narrow to 4-byte wide and back is the identity on every well-formed string. -/
theorem C15_round_trip_partial (s : List Nat) (h : WellFormed8 s) :
    (transcodeValid .utf8 .utf32 s).bind (transcodeValid .utf32 .utf8) = some s := by
  obtain ⟨cps, h1, rfl⟩ := h
  rw [C15_narrow_to_wide32_partial cps h1, Option.bind_some, C15_wide32_to_narrow_partial cps h1]

example : WellFormed8 [0x61, 0xE2, 0x82, 0xAC] := ⟨[0x61, 0x20AC], by decide, by decide⟩

/-- C15, 2-byte wide to narrow. -/
theorem C15_wide16_to_narrow_partial (cps : List Nat) (h : ∀ cp ∈ cps, IsScalar cp) :
    transcodeValid .utf16 .utf8 (utf16s cps) = some (utf8s cps) := by
  have hv := validate_utf16s cps h
  simp only [transcodeValid, hv]
  rw [if_neg (by simp), transcodeValidTo32_eq .utf16 _ cps hv (forEachCp_utf16s cps h), Option.map_some,
    transcode32to8_eq true cps (fun cp hc => (h cp hc).1)]

/-- C15, narrow to 2-byte wide, holds on the Basic Multilingual Plane. -/
theorem C15_narrow_to_wide16_partial (cps : List Nat) (h : ∀ cp ∈ cps, IsScalar cp)
    (hb : ∀ cp ∈ cps, cp < 0x10000) :
    transcodeValid .utf8 .utf16 (utf8s cps) = some (utf16s cps) := by
  have hv := validate_utf8s cps (fun cp hc => (h cp hc).1)
  simp only [transcodeValid, hv]
  rw [if_neg (by simp), transcodeValidTo32_eq .utf8 _ cps hv
    (forEachCp_utf8s cps (fun cp hc => (h cp hc).1)), Option.map_some]
  rw [Option.some.injEq]
  unfold transcode32to16 utf16s
  clear hv h
  induction cps with
  | nil => simp only [List.flatMap_nil]
  | cons a l ih =>
    have ha := hb a (by simp)
    rw [List.flatMap_cons, List.flatMap_cons, ih (fun x hx => hb x (by simp [hx])), encode16, utf16,
      if_pos ha, if_neg (by simp), if_pos ha]

example : (∀ cp ∈ [0x61, 0x20AC], IsScalar cp) ∧ ∀ cp ∈ [0x61, 0x20AC], cp < 0x10000 := by decide

/-- C15 is violated for 2-byte wide strings outside the Basic Multilingual Plane: no
    supplementary code point survives, because the second unit is built with the wrong base
    and is a high surrogate. -/
theorem C15_wide16_violated (cp : Nat) (h : IsScalar cp) (hs : 0x10000 ≤ cp) :
    ∃ a b, transcodeValid .utf8 .utf16 (utf8 cp) = some [a, b] ∧ [a, b] ≠ utf16 cp ∧
      validateUnicode .utf16 [a, b] = some false := by
  have hc : ∀ x ∈ [cp], x < 0x110000 := by simpa using h.1
  have hv := validate_utf8s [cp] hc
  have he : utf8s [cp] = utf8 cp := by simp [utf8s]
  rw [he] at hv
  refine ⟨0xd800 + (cp - 0x10000) / 1024, 0xd800 + (cp - 0x10000) % 1024, ?_, ?_, ?_⟩
  · simp only [transcodeValid, hv]
    have hf := forEachCp_utf8s [cp] hc
    rw [he] at hf
    rw [if_neg (by simp), transcodeValidTo32_eq .utf8 _ [cp] hv hf]
    simp only [Option.map_some, transcode32to16, List.flatMap_cons, List.flatMap_nil, List.append_nil,
      encode16]
    rw [if_neg (by simp), if_neg (by omega)]
    have := h.1
    simp only [Option.some.injEq, List.cons.injEq, and_true]
    omega
  · rw [utf16, if_neg (by omega)]
    simp only [ne_eq, List.cons.injEq, and_true, not_and]
    omega
  · have := h.1
    rw [validate_step]
    have hL : cpLength .utf16 (0xd800 + (cp - 0x10000) / 1024) = 2 := by
      rw [cpLength, cpLength16_eq _ (by omega), if_pos (by omega)]
    rw [hL, if_neg (by simp)]
    simp only [List.take_succ_cons, List.take_zero, decodeCp, decodeUtf16]
    rw [if_pos (c := _ ∨ _) (by omega), if_pos (Nat.le_refl _)]

example : IsScalar 0x1F600 ∧ 0x10000 ≤ 0x1F600 := by decide

end Scn
