import Verif.Lemmas.RegexMatch
/-
Properties C78, C79 and C80: the flags of regular expressions, their captures, and strings read with them.
-/
namespace Scn
open Spec

/-! ### C78 -/

/-- C78, for `std::regex`: the flags that are accepted in a format string are accepted by the engine, and select the modes that
    they stand for; `/s`, and `/m` where the standard library does not have it, are rejected by both. -/
theorem C78_std (hasMultiline wide : Bool) (flags : List Nat) :
    ((∀ c ∈ flags, flagOk ⟨true, hasMultiline, wide⟩ c) → ∃ o, stdFlags hasMultiline (flagBits flags) = .ok o ∧ stdModes o = modes flags) ∧
      ((115 ∈ flags ∨ (109 ∈ flags ∧ hasMultiline = false)) → stdFlags hasMultiline (flagBits flags) = .err .invalidFormatString) := by
  constructor
  · intro h
    have hs : 115 ∉ flags := fun hc => by
      rcases h _ hc with ⟨h, _⟩ | ⟨_, h⟩ | h | h <;> cases h
    have hm : ¬ (109 ∈ flags ∧ hasMultiline = false) := fun hc => by
      rcases h _ hc.1 with ⟨_, h⟩ | ⟨h, _⟩ | h | h
      · rw [show hasMultiline = true from h rfl] at hc; cases hc.2
      all_goals cases h
    refine ⟨⟨decide (109 ∈ flags), decide (105 ∈ flags), decide (110 ∈ flags)⟩, ?_, ?_⟩
    · unfold stdFlags
      simp only [bit_m, bit_s, bit_i, bit_n]
      rw [if_neg hm, if_neg hs]
    · simp [stdModes, modes, hs]
  · intro h
    unfold stdFlags
    simp only [bit_m, bit_s]
    by_cases hm : 109 ∈ flags ∧ hasMultiline = false
    · rw [if_pos hm]
    · rw [if_neg hm, if_pos (h.resolve_right hm)]

/-- `/im`. -/
example : (∀ c ∈ [105, 109], flagOk ⟨true, true, true⟩ c) ∧ stdFlags true (flagBits [105, 109]) = .ok ⟨true, true, false⟩ ∧
    stdFlags true (flagBits [115]) = .err .invalidFormatString := by
  refine ⟨?_, rfl, rfl⟩
  intro c hc
  simp only [List.mem_cons, List.not_mem_nil, or_false] at hc
  rcases hc with rfl | rfl <;> simp [flagOk]

/-- C78, for Boost, if `/s` is given: the flags select the modes that they stand for. -/
theorem C78_boost_partial (flags : List Nat) (hs : 115 ∈ flags) : boostModes (boostFlags (flagBits flags)) false = modes flags := by
  unfold boostFlags boostModes modes
  simp only [bit_m', bit_s, bit_i, bit_n]
  simp [hs]

/-- `/sn`. -/
example : 115 ∈ [115, 110] ∧ boostFlags (flagBits [115, 110]) = ⟨true, true, false, true⟩ := by decide

/-- C78 fails for Boost without `/s`: `.` matches a newline all the same, as the search does not ask for anything else. The other
    modes are those that are asked for. -/
theorem C78_violated_boost (flags : List Nat) (hs : 115 ∉ flags) :
    boostModes (boostFlags (flagBits flags)) false = { modes flags with dotAll := true } ∧ (modes flags).dotAll = false := by
  unfold boostFlags boostModes modes
  simp only [bit_m', bit_s, bit_i, bit_n]
  simp [hs]

/-- No flags. -/
example : (115 : Nat) ∉ ([] : List Nat) ∧ boostModes (boostFlags (flagBits [])) false = ⟨false, true, false, false⟩ := by decide

/-- C78, for RE2: all modes but one are those that are asked for. -/
theorem C78_re2_partial (flags : List Nat) :
    ∃ b, re2Modes (re2Flags (flagBits flags)) = { modes flags with multiline := b } := by
  refine ⟨(re2Modes (re2Flags (flagBits flags))).multiline, ?_⟩
  unfold re2Flags re2Modes modes
  simp only [bit_s, bit_i, bit_n]
  simp

/-- C78 fails for RE2: `^` and `$` match at lines exactly if that is not asked for. -/
theorem C78_violated_re2 (flags : List Nat) :
    (re2Modes (re2Flags (flagBits flags))).multiline = ! (modes flags).multiline := by
  unfold re2Flags re2Modes modes
  simp only [bit_m']
  by_cases h : 109 ∈ flags <;> simp [h]

/-- `/si`, and `/m`. -/
example : re2Flags (flagBits [115, 105]) = (⟨true, false, false⟩, [40, 63, 109, 41]) ∧ (re2Flags (flagBits [109])).2 = [] := by decide

/-! ### C79 -/

/-- C79, for `std::regex`: scanning `regex_matches` with a regular expression at a text behind whitespace gives the groups that the
    engine finds for the pattern and the modes at that text: each with the text of its group, missing if the group is missing;
    the first is the whole match and what is behind it remains. There are no names. If there is no match or the pattern
    is not valid, that is the error. -/
theorem C79_std (E : Engine StdOpts) (hE : EngineOk E) (hasMultiline wide : Bool) (e : Enc) (hwide : e ≠ .utf8 → wide = true) (ty : ArgTy)
    (p flags r : List Nat) (hp : p ≠ []) (hp1 : ∀ c, p.head? = some c → c ≠ 60 ∧ c ≠ 62 ∧ c ≠ 94) (hp2 : p.getLast? ≠ some 92)
    (hflags : ∀ c ∈ flags, flagOk ⟨true, hasMultiline, wide⟩ c) (hnd : flags.Nodup) :
    ∃ sp o, parseSpecs ⟨true, hasMultiline, wide⟩ e ty ⟨{}, false⟩ (47 :: escapeSlashes p ++ 47 :: (flags ++ 125 :: r)) = some (⟨sp, false⟩, 125 :: r) ∧
      stdModes o = modes flags ∧
      ∀ ws u, Spaces ws → (∀ c ∈ u, IsScalar c) → u ≠ [] → u.dropWhile isSpace = u →
        let read := matchesSpecs e e (stdMatches E hasMultiline) sp (fun _ => .contiguous) (encodes e (ws ++ u))
        (∀ gs, E.search o p (encodes e u) = .found gs → ∃ vs rest, read = .ok (vs, rest) ∧ Captures (encodes e u) gs [] vs rest) ∧
          (E.search o p (encodes e u) = .none → read = .err .invalidScannedValue) ∧
          (E.search o p (encodes e u) = .bad → read = .err .invalidFormatString) := by
  obtain ⟨h1, h2⟩ := regex_written ⟨true, hasMultiline, wide⟩ e hwide ty p flags r hp hp1 hp2 hflags hnd
  obtain ⟨o, ho, hm⟩ := (C78_std hasMultiline wide flags).1 hflags
  refine ⟨_, o, h1, hm, ?_⟩
  intro ws u hw hu hne hf
  dsimp only
  rw [matchesSpecs_at e _ hp h2 hw hu hne hf]
  unfold stdMatches
  rw [ho]
  refine ⟨?_, ?_, ?_⟩
  · intro gs hg
    obtain ⟨vs, rest, h3, h4⟩ := matchesOf_found hE hg (fun _ => none) (names := []) (by simp)
    exact ⟨vs, rest, by rw [← h3, ← hg]; rfl, h4⟩
  · intro hg; rw [Res.bind, hg]; rfl
  · intro hg; rw [Res.bind, hg]; rfl

/-- C79, for RE2, if all groups with names take part in the match: as for `std::regex`, and the groups have their names. -/
theorem C79_re2_partial (E : Engine Re2Opts) (hE : EngineOk E) (stdMultiline : Bool) (ty : ArgTy)
    (p flags r : List Nat) (hp : p ≠ []) (hp1 : ∀ c, p.head? = some c → c ≠ 60 ∧ c ≠ 62 ∧ c ≠ 94) (hp2 : p.getLast? ≠ some 92)
    (hflags : ∀ c ∈ flags, flagOk ⟨false, stdMultiline, false⟩ c) (hnd : flags.Nodup) :
    ∃ sp o pre, parseSpecs ⟨false, stdMultiline, false⟩ .utf8 ty ⟨{}, false⟩ (47 :: escapeSlashes p ++ 47 :: (flags ++ 125 :: r)) = some (⟨sp, false⟩, 125 :: r) ∧
      (∃ b, re2Modes (o, pre) = { modes flags with multiline := b }) ∧
      ∀ ws u, Spaces ws → (∀ c ∈ u, IsScalar c) → u ≠ [] → u.dropWhile isSpace = u →
        let read := matchesSpecs .utf8 .utf8 (re2Matches E) sp (fun _ => .contiguous) (encodes .utf8 (ws ++ u))
        (∀ gs, E.search o (pre ++ p) (encodes .utf8 u) = .found gs → (∀ x ∈ E.names o (pre ++ p), ∃ g, gs[x.1]? = some (some g)) →
            ∃ vs rest, read = .ok (vs, rest) ∧ Captures (encodes .utf8 u) gs (E.names o (pre ++ p)) vs rest) ∧
          (E.search o (pre ++ p) (encodes .utf8 u) = .none → read = .err .invalidScannedValue) ∧
          (E.search o (pre ++ p) (encodes .utf8 u) = .bad → read = .err .invalidFormatString) := by
  obtain ⟨h1, h2⟩ := regex_written ⟨false, stdMultiline, false⟩ .utf8 (fun h => absurd rfl h) ty p flags r hp hp1 hp2 hflags hnd
  refine ⟨_, (re2Flags (flagBits flags)).1, (re2Flags (flagBits flags)).2, h1, C78_re2_partial flags, ?_⟩
  intro ws u hw hu hne hf
  dsimp only
  rw [matchesSpecs_at .utf8 _ hp h2 hw hu hne hf]
  refine ⟨?_, ?_, ?_⟩
  · intro gs hg hall
    exact re2Matches_found hE hg hall
  · intro hg; simp only [re2Matches, hg]
  · intro hg; simp only [re2Matches, hg]

/-- C79, for Boost, if the names are different, are written as `(?<name>`, and the texts of the groups with names differ from those of
    all other groups: as for `std::regex`, and the groups have their names. -/
theorem C79_boost_partial (E : Engine BoostOpts) (hE : EngineOk E) (stdMultiline wide : Bool) (e : Enc) (hwide : e ≠ .utf8 → wide = true) (ty : ArgTy)
    (p flags r : List Nat) (hp : p ≠ []) (hp1 : ∀ c, p.head? = some c → c ≠ 60 ∧ c ≠ 62 ∧ c ≠ 94) (hp2 : p.getLast? ≠ some 92)
    (hflags : ∀ c ∈ flags, flagOk ⟨false, stdMultiline, wide⟩ c) (hnd : flags.Nodup) :
    ∃ sp o, parseSpecs ⟨false, stdMultiline, wide⟩ e ty ⟨{}, false⟩ (47 :: escapeSlashes p ++ 47 :: (flags ++ 125 :: r)) = some (⟨sp, false⟩, 125 :: r) ∧
      (∃ b, boostModes o false = { modes flags with dotAll := b }) ∧
      ∀ ws u, Spaces ws → (∀ c ∈ u, IsScalar c) → u ≠ [] → u.dropWhile isSpace = u →
        let read := matchesSpecs e e (boostMatches E) sp (fun _ => .contiguous) (encodes e (ws ++ u))
        (∀ gs, E.search o p (encodes e u) = .found gs →
            (∀ a ∈ E.names o p, ∀ b ∈ E.names o p, a.2 = b.2 → a = b) → (∀ x ∈ E.names o p, ∃ a, NameAt p a x.2) →
            (∀ x ∈ E.names o p, ∀ b n, gs[x.1]? = some (some (b, n)) → ∀ j b' n' t, gs[j]? = some (some (b', n')) →
              IsPart (encodes e u) b n t → IsPart (encodes e u) b' n' t → j = x.1) →
            ∃ vs rest, read = .ok (vs, rest) ∧ Captures (encodes e u) gs (E.names o p) vs rest) ∧
          (E.search o p (encodes e u) = .none → read = .err .invalidScannedValue) ∧
          (E.search o p (encodes e u) = .bad → read = .err .invalidFormatString) := by
  obtain ⟨h1, h2⟩ := regex_written ⟨false, stdMultiline, wide⟩ e hwide ty p flags r hp hp1 hp2 hflags hnd
  refine ⟨_, boostFlags (flagBits flags), h1, ?_, ?_⟩
  · by_cases hs : 115 ∈ flags
    · exact ⟨true, by rw [C78_boost_partial flags hs]; simp [modes, hs]⟩
    · exact ⟨true, (C78_violated_boost flags hs).1⟩
  intro ws u hw hu hne hf
  dsimp only
  rw [matchesSpecs_at e _ hp h2 hw hu hne hf]
  obtain ⟨listed, hl⟩ := patternNames_total p (p.length + 1) 0 (by omega) (by omega)
  refine ⟨?_, ?_, ?_⟩
  · intro gs hg hone hat hdiff
    refine boostMatches_found hE hg hone hat ?_
    intro x hx g hgx j g' hgj hgt
    refine hdiff x hx g.1 g.2 hgx j g'.1 g'.2 (groupText (encodes e u) g) hgj (groupText_part (hE.inside _ _ _ _ hg _ _ (List.mem_of_getElem? hgx))) ?_
    rw [← hgt]
    exact groupText_part (hE.inside _ _ _ _ hg _ _ (List.mem_of_getElem? hgj))
  · intro hg; simp only [boostMatches, hl, hg]; rfl
  · intro hg; simp only [boostMatches, hl, hg]; rfl

/-- `(?<x>a)b` reads two captures from ` abc`; without names, and with the names of RE2 and of Boost. -/
example : EngineOk (toyEngine StdOpts) ∧ (toyEngine StdOpts).search ⟨false, false, false⟩ [40, 97, 41, 98] [97, 98, 99] = .found [some (0, 2), some (0, 1)] ∧
    matchesSpecs .utf8 .utf8 (stdMatches (toyEngine StdOpts) false) (regexSpecs [40, 97, 41, 98] []) (fun _ => .contiguous) [32, 97, 98, 99] =
      .ok ([some ⟨[97, 98], none⟩, some ⟨[97], none⟩], [99]) ∧
    matchesSpecs .utf8 .utf8 (re2Matches (toyEngine Re2Opts)) (regexSpecs [40, 63, 60, 120, 62, 97, 41, 98] []) (fun _ => .contiguous) [32, 97, 98, 99] =
      .ok ([some ⟨[97, 98], none⟩, some ⟨[97], some [120]⟩], [99]) ∧
    matchesSpecs .utf8 .utf8 (boostMatches (toyEngine BoostOpts)) (regexSpecs [40, 63, 60, 120, 62, 97, 41, 98] []) (fun _ => .contiguous) [32, 97, 98, 99] =
      .ok ([some ⟨[97, 98], none⟩, some ⟨[97], some [120]⟩], [99]) ∧ NameAt [40, 63, 60, 120, 62, 97, 41, 98] 0 [120] ∧
    Captures [97, 98, 99] [some (0, 2), some (0, 1)] [(1, [120])] [some ⟨[97, 98], none⟩, some ⟨[97], some [120]⟩] [99] := by
  refine ⟨toyEngine_ok _, rfl, by decide +kernel, by decide +kernel, by decide +kernel, ⟨⟨[97, 41, 98], rfl⟩, by decide, by decide⟩, ?_⟩
  refine captures_of (n := 2) rfl ?_ (fun i => if i = 1 then some [120] else none) ?_ ?_
  · intro b n hm
    simp only [List.mem_cons, Option.some.injEq, Prod.mk.injEq, List.not_mem_nil, or_false] at hm
    rcases hm with ⟨rfl, rfl⟩ | ⟨rfl, rfl⟩ <;> decide
  · intro i
    match i with
    | 0 => rfl
    | 1 => rfl
    | i + 2 => rfl
  · intro i g hg x
    match i with
    | 0 => simp
    | 1 => simp [eq_comm]
    | i + 2 => cases hg

/-- C79 fails for RE2 if a group with a name does not take part in the match: its name is given to a capture that is not there, which
    is undefined. -/
theorem C79_violated_re2 (E : Engine Re2Opts) (hE : EngineOk E) (p flags s : List Nat) (gs : List (Option (Nat × Nat))) (i : Nat) (x : List Nat)
    (hg : E.search (re2Flags (flagBits flags)).1 ((re2Flags (flagBits flags)).2 ++ p) s = .found gs)
    (hx : (i, x) ∈ E.names (re2Flags (flagBits flags)).1 ((re2Flags (flagBits flags)).2 ++ p)) (hi : gs[i]? = some none) :
    re2Matches E p (flagBits flags) s = .ub := by
  obtain ⟨n, hn⟩ := hE.whole _ _ _ _ hg
  have h1 := hE.names _ _ _ hx
  obtain ⟨j, rfl⟩ : ∃ j, i = 1 + j := ⟨i - 1, by dsimp only at h1; omega⟩
  unfold re2Matches
  simp only [hg]
  rw [searchEnd_head hn]
  dsimp only
  rw [nameGroups_none (gs.tail.map fun g => g.map fun g => (⟨groupText s g, none⟩ : RegexMatch)) 1 j x ?_ hx]
  cases gs with
  | nil => cases hn
  | cons g gt =>
    rw [show 1 + j = j + 1 by omega, List.getElem?_cons_succ] at hi
    rw [List.tail_cons, List.getElem?_map, hi]
    rfl

/-- `(?<x>a)|b` at `b`. -/
example : re2Matches ⟨fun _ _ _ => .found [some (0, 1), none], fun _ _ => [(1, [120])]⟩ [40, 63, 60, 120, 62, 97, 41, 124, 98] (flagBits []) [98] = .ub ∧
    EngineOk (⟨fun _ _ s => if s.length = 0 then .none else .found [some (0, 1), none], fun _ _ => [(1, [120])]⟩ : Engine Re2Opts) := by
  refine ⟨by decide +kernel, ⟨?_, ?_, ?_, ?_⟩⟩
  · intro o p s gs h
    dsimp only at h
    split at h <;> cases h
    exact ⟨1, rfl⟩
  · intro o p s gs h b n hm
    dsimp only at h
    split at h <;> cases h
    simp only [List.mem_cons, Option.some.injEq, Prod.mk.injEq, List.not_mem_nil, or_false, reduceCtorEq] at hm
    obtain ⟨rfl, rfl⟩ := hm
    omega
  · intro o p x hx
    simp only [List.mem_cons, List.not_mem_nil, or_false] at hx
    rw [hx]; decide
  · intro o p x y hx hy _
    simp only [List.mem_cons, List.not_mem_nil, or_false] at hx hy
    rw [hx, hy]

/-- C79 fails for Boost if two captures have the same text: names are found by comparing texts, so `(?<x>a)` at `a` names the whole
    match `x`. And names that are written with quotation marks are not found: `(?'x'a)b` at `ab` has no names. In both cases,
    the captures are not those of the engine. -/
theorem C79_violated_boost (E : Engine BoostOpts) :
    (E.search (boostFlags (flagBits [])) [40, 63, 60, 120, 62, 97, 41] [97] = .found [some (0, 1), some (0, 1)] →
        E.names (boostFlags (flagBits [])) [40, 63, 60, 120, 62, 97, 41] = [(1, [120])] →
        boostMatches E [40, 63, 60, 120, 62, 97, 41] (flagBits []) [97] = .ok ([some ⟨[97], some [120]⟩, some ⟨[97], some [120]⟩], []) ∧
          ∀ rest, ¬ Captures [97] [some (0, 1), some (0, 1)] [(1, [120])] [some ⟨[97], some [120]⟩, some ⟨[97], some [120]⟩] rest) ∧
      (E.search (boostFlags (flagBits [])) [40, 63, 39, 120, 39, 97, 41, 98] [97, 98] = .found [some (0, 2), some (0, 1)] →
        E.names (boostFlags (flagBits [])) [40, 63, 39, 120, 39, 97, 41, 98] = [(1, [120])] →
        boostMatches E [40, 63, 39, 120, 39, 97, 41, 98] (flagBits []) [97, 98] = .ok ([some ⟨[97, 98], none⟩, some ⟨[97], none⟩], []) ∧
          ∀ rest, ¬ Captures [97, 98] [some (0, 2), some (0, 1)] [(1, [120])] [some ⟨[97, 98], none⟩, some ⟨[97], none⟩] rest) := by
  refine ⟨fun h1 h2 => ⟨?_, ?_⟩, fun h1 h2 => ⟨?_, ?_⟩⟩
  · unfold boostMatches
    rw [show patternNames ([40, 63, 60, 120, 62, 97, 41].length + 1) [40, 63, 60, 120, 62, 97, 41] 0 = some [[120]] by decide +kernel]
    simp only [h1, h2]
    decide +kernel
  · intro rest h
    obtain ⟨t, nm, h3, -, h4⟩ := h.present 0 0 1 rfl
    cases h3
    have := (h4 [120]).1 rfl
    simp at this
  · unfold boostMatches
    rw [show patternNames ([40, 63, 39, 120, 39, 97, 41, 98].length + 1) [40, 63, 39, 120, 39, 97, 41, 98] 0 = some [] by decide +kernel]
    simp only [h1, h2]
    decide +kernel
  · intro rest h
    obtain ⟨t, nm, h3, -, h4⟩ := h.present 1 0 1 rfl
    cases h3
    have := (h4 [120]).2 (by simp)
    cases this

/-- C79, where captures cannot be given: if the characters of the destination are not those of the source, or the text is not in one piece,
    then no expression is matched, and the format string is reported as invalid. -/
theorem C79_unsupported (e dst : Enc) (impl : List Nat → Nat → List Nat → Res (List (Option RegexMatch) × List Nat)) {p flags : List Nat} (hp : p ≠ [])
    {ws u : List Nat} (hw : Spaces ws) (hu : ∀ c ∈ u, IsScalar c) (hne : u ≠ []) (hf : u.dropWhile isSpace = u) (lay : List Nat → Layout) (hlay : GoodLayouts e lay)
    (h : e ≠ dst ∨ lay (encodes e u) ≠ .contiguous) :
    matchesSpecs e dst impl (regexSpecs p flags) lay (encodes e (ws ++ u)) = .err .invalidFormatString := by
  have hall : ∀ c ∈ ws ++ u, IsScalar c := scalar_append (fun c hc => (hw c hc).1) hu
  unfold matchesSpecs
  rw [regexSpecs_type dst hp]
  dsimp only
  rw [argRead_plain e _ (regexSpecs_plain p flags), show (matchesReader impl (decide (e = dst)) (regexSpecs p flags)).skipWs = true from rfl, if_pos rfl,
    skipSpace_encodes e _ _ hall (hlay _ hall), if_neg, spaces_drop' hw, hf]
  · show (matchesReader impl (decide (e = dst)) (regexSpecs p flags)).read (lay (encodes e u)) (encodes e u) = _
    simp only [matchesReader]
    rcases h with h | h
    · rw [if_pos (by simp [h])]
    · by_cases hs : decide (e = dst) = false
      · rw [if_pos hs]
      · rw [if_neg hs, if_pos h]
  · rintro ⟨-, h⟩
    have h2 := List.takeWhile_append_dropWhile (p := isSpace) (l := ws ++ u)
    rw [h, spaces_drop' hw, hf] at h2
    have := congrArg List.length h2
    simp at this
    exact hne this

/-- `wregex_matches` from " a" in `char`; and `regex_matches` from a file. -/
example (impl : List Nat → Nat → List Nat → Res (List (Option RegexMatch) × List Nat)) :
    matchesSpecs .utf8 .utf32 impl (regexSpecs [97] []) (fun _ => .contiguous) [32, 97] = .err .invalidFormatString ∧
    matchesSpecs .utf8 .utf8 impl (regexSpecs [97] []) (fun s => .segmented s.length) [32, 97] = .err .invalidFormatString :=
  ⟨C79_unsupported .utf8 .utf32 impl (ws := [32]) (u := [97]) (by decide) (by unfold Spaces; decide) (by decide) (by decide) (by decide) _ (goodLayouts_contiguous _) (by decide),
   C79_unsupported .utf8 .utf8 impl (ws := [32]) (u := [97]) (by decide) (by unfold Spaces; decide) (by decide) (by decide) (by decide) _ (goodLayouts_whole _) (by decide)⟩

/-! ### C80 -/

/-- C80, for texts that do not begin with whitespace and matches that end between two characters: a string and `regex_matches`, read
    with the same regular expression by `std::regex`, agree: the string is the first capture, the same text remains, and errors
    are the same. It is assumed that the engine finds the same match if it does not store groups. -/
theorem C80_std_partial (E : Engine StdOpts) (hE : EngineOk E) (hasMultiline : Bool) (cfg : RegexCfg) (e wide : Enc) (hwide : e ≠ .utf8 → cfg.wide = true) (loc : LocaleData) (old : Nat) (ty : ArgTy)
    (hsame : ∀ o p s, searchMatch (E.search { o with nosubs := true } p s) = searchMatch (E.search o p s))
    (p flags r : List Nat) (hp : p ≠ []) (hp1 : ∀ c, p.head? = some c → c ≠ 60 ∧ c ≠ 62 ∧ c ≠ 94) (hp2 : p.getLast? ≠ some 92)
    (hflags : ∀ c ∈ flags, flagOk cfg c) (hnd : flags.Nodup)
    (u : List Nat) (hu : ∀ c ∈ u, IsScalar c) (hne : u ≠ []) (hf : u.dropWhile isSpace = u)
    (hcut : ∀ o gs n, E.search o p (encodes e u) = .found gs → gs.head? = some (some (0, n)) → ∃ a b, u = a ++ b ∧ n = (encodes e a).length) :
    ∃ sp, parseSpecs cfg e ty ⟨{}, false⟩ (47 :: escapeSlashes p ++ 47 :: (flags ++ 125 :: r)) = some (⟨sp, false⟩, 125 :: r) ∧
      let string := Dest.readSpecs e wide { loc with regex := fun _ p f s => (stdString E hasMultiline p f s).getD .bad } old (.string e) sp (fun _ => .contiguous) (encodes e u)
      let captures := matchesSpecs e e (stdMatches E hasMultiline) sp (fun _ => .contiguous) (encodes e u)
      (∀ err, captures = .err err → string = .err err) ∧
        (∀ v rest, captures = .ok (v, rest) → ∃ t nm, v.head? = some (some ⟨t, nm⟩) ∧ string = .ok (.string t, rest)) ∧ captures ≠ .ub := by
  obtain ⟨h1, h2⟩ := regex_written cfg e hwide ty p flags r hp hp1 hp2 hflags hnd
  refine ⟨_, h1, ?_⟩
  cases ho : stdFlags hasMultiline (flagBits flags) with
  | ok o =>
    obtain ⟨m, hm, hs⟩ := matchesOf_same hE o p (encodes e u) (fun _ => none)
    have hstr : (stdString E hasMultiline p (flagBits flags) (encodes e u)).getD .bad = m := by
      unfold stdString
      rw [ho]
      dsimp only
      rw [hsame, hm]
      rfl
    refine agree_of_same e wide _ old hp h2 (stdMatches E hasMultiline) hu hne hf ?_ ?_
    · dsimp only
      rw [hstr]
      unfold stdMatches
      rw [ho]
      exact hs
    · dsimp only
      rw [hstr]
      intro n hn
      rw [hn] at hm
      obtain ⟨gs, hg⟩ := searchMatch_found hm
      rw [hg] at hm
      exact hcut o gs n hg (searchMatch_head (hE.whole _ _ _ _ hg) hm)
  | err er =>
    have her : er = .invalidFormatString := by
      unfold stdFlags at ho
      repeat' split at ho
      all_goals cases ho <;> rfl
    refine agree_of_same e wide _ old hp h2 (stdMatches E hasMultiline) hu hne hf ?_ ?_
    · simp only [stdString, ho, Option.getD_some, SameMatch, stdMatches, her]
      rfl
    · intro n hn
      simp only [stdString, ho, Option.getD_some] at hn
      cases hn
  | ub =>
    unfold stdFlags at ho
    repeat' split at ho
    all_goals cases ho

/-- C80, as above, for Boost. -/
theorem C80_boost_partial (E : Engine BoostOpts) (hE : EngineOk E) (cfg : RegexCfg) (e wide : Enc) (hwide : e ≠ .utf8 → cfg.wide = true) (loc : LocaleData) (old : Nat) (ty : ArgTy)
    (hsame : ∀ o p s, searchMatch (E.search { o with nosubs := true } p s) = searchMatch (E.search o p s))
    (p flags r : List Nat) (hp : p ≠ []) (hp1 : ∀ c, p.head? = some c → c ≠ 60 ∧ c ≠ 62 ∧ c ≠ 94) (hp2 : p.getLast? ≠ some 92)
    (hflags : ∀ c ∈ flags, flagOk cfg c) (hnd : flags.Nodup)
    (u : List Nat) (hu : ∀ c ∈ u, IsScalar c) (hne : u ≠ []) (hf : u.dropWhile isSpace = u)
    (hcut : ∀ o gs n, E.search o p (encodes e u) = .found gs → gs.head? = some (some (0, n)) → ∃ a b, u = a ++ b ∧ n = (encodes e a).length) :
    ∃ sp, parseSpecs cfg e ty ⟨{}, false⟩ (47 :: escapeSlashes p ++ 47 :: (flags ++ 125 :: r)) = some (⟨sp, false⟩, 125 :: r) ∧
      let string := Dest.readSpecs e wide { loc with regex := fun _ p f s => (boostString E p f s).getD .bad } old (.string e) sp (fun _ => .contiguous) (encodes e u)
      let captures := matchesSpecs e e (boostMatches E) sp (fun _ => .contiguous) (encodes e u)
      (∀ err, captures = .err err → string = .err err) ∧
        (∀ v rest, captures = .ok (v, rest) → ∃ t nm, v.head? = some (some ⟨t, nm⟩) ∧ string = .ok (.string t, rest)) ∧ captures ≠ .ub := by
  obtain ⟨h1, h2⟩ := regex_written cfg e hwide ty p flags r hp hp1 hp2 hflags hnd
  refine ⟨_, h1, ?_⟩
  obtain ⟨listed, hl⟩ := patternNames_total p (p.length + 1) 0 (by omega) (by omega)
  obtain ⟨m, hm, hs⟩ := matchesOf_same hE (boostFlags (flagBits flags)) p (encodes e u)
    (boostName (E.names (boostFlags (flagBits flags)) p) listed (match E.search (boostFlags (flagBits flags)) p (encodes e u) with | .found gs => gs | _ => []) (encodes e u))
  have hstr : (boostString E p (flagBits flags) (encodes e u)).getD .bad = m := by
    unfold boostString
    rw [hsame, hm]
    rfl
  refine agree_of_same e wide _ old hp h2 (boostMatches E) hu hne hf ?_ ?_
  · dsimp only
    rw [hstr]
    unfold boostMatches
    rw [hl]
    exact hs
  · dsimp only
    rw [hstr]
    intro n hn
    rw [hn] at hm
    obtain ⟨gs, hg⟩ := searchMatch_found hm
    rw [hg] at hm
    exact hcut _ gs n hg (searchMatch_head (hE.whole _ _ _ _ hg) hm)

/-- C80, as above, for RE2, if all groups with names take part in the match. -/
theorem C80_re2_partial (E : Engine Re2Opts) (hE : EngineOk E) (cfg : RegexCfg) (wide : Enc) (loc : LocaleData) (old : Nat) (ty : ArgTy)
    (hsame : ∀ o p s, searchMatch (E.search { o with neverCapture := true } p s) = searchMatch (E.search o p s))
    (hfail : ∀ o p s, E.search o p s ≠ .failed)
    (p flags r : List Nat) (hp : p ≠ []) (hp1 : ∀ c, p.head? = some c → c ≠ 60 ∧ c ≠ 62 ∧ c ≠ 94) (hp2 : p.getLast? ≠ some 92)
    (hflags : ∀ c ∈ flags, flagOk cfg c) (hnd : flags.Nodup)
    (u : List Nat) (hu : ∀ c ∈ u, IsScalar c) (hne : u ≠ []) (hf : u.dropWhile isSpace = u)
    (hcut : ∀ o pre gs n, E.search o (pre ++ p) (encodes .utf8 u) = .found gs → gs.head? = some (some (0, n)) → ∃ a b, u = a ++ b ∧ n = (encodes .utf8 a).length)
    (hall : ∀ o pre gs, E.search o (pre ++ p) (encodes .utf8 u) = .found gs → ∀ x ∈ E.names o (pre ++ p), ∃ g, gs[x.1]? = some (some g)) :
    ∃ sp, parseSpecs cfg .utf8 ty ⟨{}, false⟩ (47 :: escapeSlashes p ++ 47 :: (flags ++ 125 :: r)) = some (⟨sp, false⟩, 125 :: r) ∧
      let string := Dest.readSpecs .utf8 wide { loc with regex := fun _ p f s => (re2String E p f s).getD .bad } old (.string .utf8) sp (fun _ => .contiguous) (encodes .utf8 u)
      let captures := matchesSpecs .utf8 .utf8 (re2Matches E) sp (fun _ => .contiguous) (encodes .utf8 u)
      (∀ err, captures = .err err → string = .err err) ∧
        (∀ v rest, captures = .ok (v, rest) → ∃ t nm, v.head? = some (some ⟨t, nm⟩) ∧ string = .ok (.string t, rest)) ∧ captures ≠ .ub := by
  obtain ⟨h1, h2⟩ := regex_written cfg .utf8 (fun h => absurd rfl h) ty p flags r hp hp1 hp2 hflags hnd
  refine ⟨_, h1, ?_⟩
  have hss := hsame (re2Flags (flagBits flags)).1 ((re2Flags (flagBits flags)).2 ++ p) (encodes .utf8 u)
  have hn1 := hfail { (re2Flags (flagBits flags)).1 with neverCapture := true } ((re2Flags (flagBits flags)).2 ++ p) (encodes .utf8 u)
  have hn2 := hfail (re2Flags (flagBits flags)).1 ((re2Flags (flagBits flags)).2 ++ p) (encodes .utf8 u)
  have hstr : re2String E p (flagBits flags) (encodes .utf8 u) = searchMatch (E.search (re2Flags (flagBits flags)).1 ((re2Flags (flagBits flags)).2 ++ p) (encodes .utf8 u)) := by
    rw [← hss]
    unfold re2String
    cases h : E.search { (re2Flags (flagBits flags)).1 with neverCapture := true } ((re2Flags (flagBits flags)).2 ++ p) (encodes .utf8 u) with
    | failed => exact absurd h hn1
    | bad => rfl
    | none => rfl
    | found gs => rfl
  refine agree_of_same .utf8 wide _ old hp h2 (re2Matches E) hu hne hf ?_ ?_
  · dsimp only
    rw [hstr]
    cases h : E.search (re2Flags (flagBits flags)).1 ((re2Flags (flagBits flags)).2 ++ p) (encodes .utf8 u) with
    | failed => exact absurd h hn2
    | bad => simp [searchMatch, SameMatch, re2Matches, h]
    | none => simp [searchMatch, SameMatch, re2Matches, h]
    | found gs =>
      obtain ⟨n, hn⟩ := hE.whole _ _ _ _ h
      obtain ⟨vs, rest, h3, h4⟩ := re2Matches_found hE h (hall _ _ _ h)
      rw [searchMatch, searchEnd_head hn]
      show ∃ nm ws, re2Matches E p (flagBits flags) (encodes .utf8 u) = _
      unfold re2Matches at h3 ⊢
      simp only [h] at h3 ⊢
      rw [searchEnd_head hn] at h3 ⊢
      dsimp only at h3 ⊢
      split at h3
      · cases h3
      · rename_i ws hws
        exact ⟨none, ws, rfl⟩
  · dsimp only
    rw [hstr]
    intro n hn
    cases h : E.search (re2Flags (flagBits flags)).1 ((re2Flags (flagBits flags)).2 ++ p) (encodes .utf8 u) with
    | failed => exact absurd h hn2
    | bad => rw [h] at hn; cases hn
    | none => rw [h] at hn; cases hn
    | found gs =>
      obtain ⟨m, hm⟩ := hE.whole _ _ _ _ h
      rw [h, searchMatch, searchEnd_head hm] at hn
      have : m = n := Match.found.inj hn
      subst this
      exact hcut _ _ gs m h hm

/-- The engine of the examples meets the assumptions, with `ab` read from `abc`. -/
example : EngineOk (toyEngine StdOpts) ∧ (∀ o p s, searchMatch ((toyEngine StdOpts).search { o with nosubs := true } p s) = searchMatch ((toyEngine StdOpts).search o p s)) ∧
    (∀ o gs n, (toyEngine StdOpts).search o [97, 98] (encodes .utf8 [97, 98, 99]) = .found gs → gs.head? = some (some (0, n)) →
      ∃ a b, [97, 98, 99] = a ++ b ∧ n = (encodes .utf8 a).length) := by
  refine ⟨toyEngine_ok _, fun _ _ _ => rfl, ?_⟩
  intro o gs n h hn
  rw [(toyEngine_found h).1] at hn
  cases hn
  exact ⟨[97, 98], [99], rfl, rfl⟩

/-- C80 fails for texts that begin with whitespace, as it is skipped for `regex_matches` only, and for matches that do not end between two
    characters, as only strings are checked: with `a` at ` a`, and with `.` at a character that the engine takes for two. -/
theorem C80_violated (E : Engine StdOpts) (hasMultiline : Bool) (loc : LocaleData) (wide : Enc) (old : Nat) :
    ((∀ o, E.search o [97] [97] = .found [some (0, 1)]) → (∀ o, E.search o [97] [32, 97] = .none) →
        Dest.readSpecs .utf8 wide { loc with regex := fun _ p f s => (stdString E hasMultiline p f s).getD .bad } old (.string .utf8) (regexSpecs [97] []) (fun _ => .contiguous) [32, 97] =
            .err .invalidScannedValue ∧
          matchesSpecs .utf8 .utf8 (stdMatches E hasMultiline) (regexSpecs [97] []) (fun _ => .contiguous) [32, 97] = .ok ([some ⟨[97], none⟩], [])) ∧
      ((∀ o, E.search o [46] [195, 169] = .found [some (0, 1)]) →
        Dest.readSpecs .utf8 wide { loc with regex := fun _ p f s => (stdString E hasMultiline p f s).getD .bad } old (.string .utf8) (regexSpecs [46] []) (fun _ => .contiguous) [195, 169] =
            .err .invalidScannedValue ∧
          matchesSpecs .utf8 .utf8 (stdMatches E hasMultiline) (regexSpecs [46] []) (fun _ => .contiguous) [195, 169] = .ok ([some ⟨[195], none⟩], [169])) := by
  have ho : stdFlags hasMultiline (flagBits []) = .ok ⟨false, false, false⟩ := by cases hasMultiline <;> rfl
  refine ⟨fun h1 h2 => ⟨?_, ?_⟩, fun h1 => ⟨?_, ?_⟩⟩
  · have h := string_at .utf8 wide { loc with regex := fun _ p f s => (stdString E hasMultiline p f s).getD .bad } old (p := [97]) (flags := []) (by simp) (by decide) [32, 97]
    simp only [stdString, ho, show encodes Enc.utf8 [32, 97] = [32, 97] from rfl, h2] at h
    exact h
  · have h := matchesSpecs_at .utf8 (stdMatches E hasMultiline) (p := [97]) (flags := []) (by simp) (by decide) (ws := [32]) (u := [97])
      (by intro c hc; simp only [List.mem_cons, List.not_mem_nil, or_false] at hc; subst hc; exact ⟨by unfold IsScalar; decide, by decide⟩)
      (by intro c hc; simp only [List.mem_cons, List.not_mem_nil, or_false] at hc; subst hc; unfold IsScalar; decide) (by simp) (by decide)
    simp only [stdMatches, ho, Res.bind, show encodes Enc.utf8 [97] = [97] from rfl, h1] at h
    exact h
  · have h := string_at .utf8 wide { loc with regex := fun _ p f s => (stdString E hasMultiline p f s).getD .bad } old (p := [46]) (flags := []) (by simp) (by decide) [233]
    simp only [stdString, ho, show encodes Enc.utf8 [233] = [195, 169] from rfl, h1] at h
    exact h
  · have h := matchesSpecs_at .utf8 (stdMatches E hasMultiline) (p := [46]) (flags := []) (by simp) (by decide) (ws := []) (u := [233])
      (by intro c hc; exact absurd hc List.not_mem_nil)
      (by intro c hc; simp only [List.mem_cons, List.not_mem_nil, or_false] at hc; subst hc; unfold IsScalar; decide) (by simp) (by decide)
    simp only [stdMatches, ho, Res.bind, show encodes Enc.utf8 [233] = [195, 169] from rfl, h1] at h
    exact h

/-- Engines for `a` and for `.` on units. -/
example : (∀ o : StdOpts, (⟨fun _ _ s => if s.head? = some 97 then .found [some (0, 1)] else .none, fun _ _ => []⟩ : Engine StdOpts).search o [97] [97] = .found [some (0, 1)]) ∧
    (∀ o : StdOpts, (⟨fun _ _ s => if s.head? = some 97 then .found [some (0, 1)] else .none, fun _ _ => []⟩ : Engine StdOpts).search o [97] [32, 97] = .none) := ⟨fun _ => rfl, fun _ => rfl⟩

end Scn
