import Verif.Lemmas.Charset2
/-
Property C30: character sets.
-/
namespace Scn
open Spec

/-- No range of the set starts at or below 127 and ends at or above it. -/
def Spec.SetText.NoCrossing (t : SetText) : Prop :=
  ∀ i ∈ t.items, match i with
    | .one _ => True
    | .range a b => b < 127 ∨ 127 < a

theorem codeListed_eq (t : SetText) (hx : t.NoCrossing) (x : Nat) : codeListed t x = t.listed x := by
  have h1 : ∀ i ∈ t.items, x ≤ 127 → itemBit i x = i.has x := by
    intro i hi hxl
    have := hx i hi
    cases i with
    | one c =>
      rw [Bool.eq_iff_iff]
      simp only [itemBit, SetItem.has, Bool.and_eq_true, decide_eq_true_eq, beq_iff_eq]; omega
    | range a b =>
      simp only at this
      rw [Bool.eq_iff_iff]
      simp only [itemBit, SetItem.has, Bool.and_eq_true, decide_eq_true_eq]; omega
  unfold codeListed SetText.listed
  split
  · rename_i hl
    congr 1
    rw [Bool.eq_iff_iff, List.any_eq_true, List.any_eq_true]
    constructor
    · rintro ⟨i, hi, h⟩; exact ⟨i, hi, by rw [← h1 i hi hl]; exact h⟩
    · rintro ⟨i, hi, h⟩; exact ⟨i, hi, by rw [h1 i hi hl]; exact h⟩
  · have : (x == 93) = false := by rw [beq_eq_false_iff_ne]; omega
    rw [this, Bool.and_false, Bool.false_or]

/-- The specification string of a set parses into the specs of that set. -/
theorem parseSpecs_set (cfg : RegexCfg) (e : Enc) (ty : ArgTy) (t : SetText) (ht : t.Ok) (rest : List Nat) :
    ∃ st, parseSpecs cfg e ty ⟨{}, false⟩ (t.text e ++ 125 :: rest) = some (st, 125 :: rest) ∧ st.err = false ∧
      SetSpecs e t st.specs ∧
      st.specs.plain = { ({} : Specs) with inverted := t.inverted, setString := t.text e, type := .stringSet } := by
  obtain ⟨st', h1, h2, h3, h4⟩ := parseSet_specs e t ht (125 :: rest) ⟨{}, false⟩ rfl rfl rfl rfl
  have hlen : ¬ (t.text e).length ≤ 2 := by
    unfold SetText.text SetText.opening
    have hne := ht.nonempty
    cases hb : t.bracket with
    | true => simp [ht.bracket hb]
    | false =>
      have hne : t.items ≠ [] := by
        rcases hne with h | h
        · rw [hb] at h; cases h
        · exact h
      obtain ⟨i, is, his⟩ : ∃ i is, t.items = i :: is := by
        cases h : t.items with
        | nil => exact absurd h hne
        | cons i is => exact ⟨i, is, rfl⟩
      obtain ⟨x, xs, hx, _⟩ := item_first e i (ht.items i (by rw [his]; simp))
      rw [his]
      simp [hx]; omega
  obtain ⟨cs, hcs, d, ds, hd⟩ : ∃ cs, t.text e ++ 125 :: rest = 91 :: cs ∧ ∃ d ds, cs = d :: ds := by
    refine ⟨_, by simp only [SetText.text, SetText.opening, List.cons_append]; rfl, ?_⟩
    cases h : (((if t.inverted then [94] else []) ++ if t.bracket then [93] else []) ++
      (List.flatMap (SetItem.text e) t.items ++ [93]) ++ 125 :: rest) with
    | nil => simp at h
    | cons d ds => exact ⟨d, ds, rfl⟩
  have hal : parseAlign e ⟨{}, false⟩ (91 :: cs) = some (⟨{}, false⟩, 91 :: cs) := by
    rw [hd]
    simp only [parseAlign, fillLength_ascii e 91 (by decide)]
    simp
  refine ⟨st'.onSetString (t.text e), ?_, h2, h3, h4⟩
  rw [parseSpecs_long, hcs]
  unfold parseSpecsLong
  rw [unlessEnd_cons, hal, unlessEnd_cons, parseWidth_none _ _ _ (by decide), unlessEnd_cons,
    precStage_skip _ _ _ (by decide), unlessEnd_cons, locStage_skip _ _ _ _ (by decide), unlessEnd_cons,
    typeStage_pres _ _ _ _ _ (by decide)]
  simp only [parsePresentation, if_true]
  rw [← hcs, h1]
  simp only [if_neg hlen]
  rfl

/-- C30, for sets in which no range crosses the end of ASCII and for well-formed sources: the
    specification `[...]` is accepted, and the field consumes exactly the longest prefix of
    characters the set denotes, which is its value; if that is empty the field fails. -/
theorem C30_charset_partial (cfg : RegexCfg) (e : Enc) (ty : ArgTy) (t : SetText) (ht : t.Ok) (hx : t.NoCrossing)
    (rest : List Nat) (cps : List Nat) (hs : ∀ cp ∈ cps, IsScalar cp) :
    ∃ st, parseSpecs cfg e ty ⟨{}, false⟩ (t.text e ++ 125 :: rest) = some (st, 125 :: rest) ∧ st.err = false ∧
      st.specs.type = .stringSet ∧
      readCharset e e st.specs (encodes e cps) =
        if cps.takeWhile t.denotes = [] then .err .invalidScannedValue
        else .ok (encodes e (cps.takeWhile t.denotes), encodes e (cps.dropWhile t.denotes)) := by
  obtain ⟨st, h1, h2, h3, h4⟩ := parseSpecs_set cfg e ty t ht rest
  refine ⟨st, h1, h2, h3.type, ?_⟩
  have hd : (fun x => codeListed t x != t.inverted) = t.denotes := by
    funext x; rw [codeListed_eq t hx]; rfl
  unfold readCharset
  rw [charsetSource_spec e t ht st.specs h3 cps hs, hd]
  split
  · rfl
  · simp only [Res.bind]
    have := readString_encodes e (cps.takeWhile t.denotes) (cps.dropWhile t.denotes)
      (fun c hc => hs c ((List.takeWhile_sublist _).subset hc))
    rw [List.takeWhile_append_dropWhile] at this
    exact this

/-- `[^]a-zä-]`: hypotheses met, and what it does. -/
example : (SetText.mk true true [.range 97 122, .one 228, .one 45]).Ok ∧
    (SetText.mk true true [.range 97 122, .one 228, .one 45]).NoCrossing ∧
    (SetText.mk true true [.range 97 122, .one 228, .one 45]).text .utf8 =
      [91, 94, 93, 97, 45, 122, 195, 164, 45, 93] ∧
    ([65, 0x20ac, 32, 98, 66].takeWhile (SetText.mk true true [.range 97 122, .one 228, .one 45]).denotes) =
      [65, 0x20ac, 32] := by
  refine ⟨⟨?_, ?_, by decide, by decide, by decide⟩, ?_, by decide, by decide⟩
  · intro i hi
    simp at hi
    rcases hi with rfl | rfl | rfl <;> (unfold SetItem.Ok; decide)
  · simp [Separated, SetItem.start]
  · intro i hi
    simp at hi
    rcases hi with rfl | rfl | rfl <;> simp

/-- C30 fails for ranges that cross the end of ASCII: `[a-b]` with `a ≤ 127 ≤ b` rejects every
    ASCII character it lists, so a source starting with one fails. -/
theorem C30_crossing_range_violated (cfg : RegexCfg) (e : Enc) (ty : ArgTy) (a b c : Nat) (ha : a ≤ 127)
    (hb : 127 ≤ b) (hsb : IsScalar b) (h93 : a ≠ 93) (h94 : a ≠ 94) (hc : a ≤ c) (hc' : c ≤ 127)
    (rest cps : List Nat) (hs : ∀ cp ∈ cps, IsScalar cp) :
    (SetText.mk false false [.range a b]).denotes c = true ∧
    ∃ st, parseSpecs cfg e ty ⟨{}, false⟩ ((SetText.mk false false [.range a b]).text e ++ 125 :: rest) =
        some (st, 125 :: rest) ∧ st.err = false ∧
      readCharset e e st.specs (encodes e (c :: cps)) = .err .invalidScannedValue := by
  have hsa : IsScalar a := ⟨by omega, by omega⟩
  have ht : (SetText.mk false false [.range a b]).Ok := by
    refine ⟨?_, trivial, by simp, Or.inr (by simp), ?_⟩
    · intro i hi
      simp at hi
      subst hi
      exact ⟨hsa, hsb, h93, by omega, by omega⟩
    · intro _ i hi
      simp at hi
      subst hi
      exact h94
  refine ⟨by simp [SetText.denotes, SetText.listed, SetItem.has]; omega, ?_⟩
  obtain ⟨st, h1, h2, h3, h4⟩ := parseSpecs_set cfg e ty _ ht rest
  refine ⟨st, h1, h2, ?_⟩
  have hsc : ∀ cp ∈ c :: cps, IsScalar cp := by
    intro x hx
    rcases List.mem_cons.1 hx with rfl | hx
    · exact ⟨by omega, by omega⟩
    · exact hs x hx
  unfold readCharset
  rw [charsetSource_spec e _ ht st.specs h3 (c :: cps) hsc]
  rw [if_pos]
  · rfl
  · have : codeListed (SetText.mk false false [.range a b]) c = false := by
      unfold codeListed
      rw [if_pos hc']
      simp [itemBit]; omega
    simp [this]

/-- `[a-ä]` on "b". -/
example : (97 : Nat) ≤ 127 ∧ 127 ≤ 228 ∧ IsScalar 228 ∧ (97 : Nat) ≤ 98 ∧ (98 : Nat) ≤ 127 := by decide

/-- C30 fails for malformed sources: the set `[ä]` consumes a byte that is no character at all
    (and the field then fails its encoding check), where the ASCII set `[a]` stops before it. -/
theorem C30_malformed_violated :
    charsetSource .utf8 { type := .stringSet, nonascii := true, setString := [91, 195, 164, 93] }
      [195, 164, 255, 32] = .ok [32] ∧
    readCharset .utf8 .utf8 { type := .stringSet, nonascii := true, setString := [91, 195, 164, 93] }
      [195, 164, 255, 32] = .err .invalidScannedValue ∧
    readCharset .utf8 .utf8 { type := .stringSet, literals := 1 <<< 97, setString := [91, 97, 93] }
      [97, 255, 32] = .ok ([97], [255, 32]) := by
  refine ⟨?_, ?_, ?_⟩ <;> decide +kernel

end Scn
