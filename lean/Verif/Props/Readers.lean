import Verif.Lemmas.Records
import Verif.Props.Driver
/-
C18, C37, C38, C55, C61, C62, C63: words, booleans, characters, pointers, and whole records.
The vocabulary is in `Verif/Spec/Sequence.lean` and `Verif/Spec/Values.lean`.
-/
namespace Scn
open Spec

variable {V : Type}

/-! ### C61: left to right -/

/-- C61: in a call with default fields and literal text in between, the literal texts are matched and
    the arguments read strictly from left to right, each step at the position where the previous one
    ended; the values go to arguments 0, 1, 2, … and the unused range starts where the last step
    ended. The first failure makes the call fail, with the error of that step unless it is masked
    (C21). For any readers; below 64 arguments (C23). -/
theorem C61_left_to_right_partial {env : Env V} (gaps : List (List Nat)) (last : List Nat) (hg : ∀ g ∈ gaps, NoBrace g)
    (hl : NoBrace last) (hc : env.count = gaps.length) (h64 : env.count < 64) (src : List Nat) :
    (∀ vs r, leftToRight (litStep env) env.readDefault 0 gaps last src = .ok (vs, r) →
      ∃ evs, vscan env (fieldsFormat gaps last) src = some (.ok r, evs) ∧ stored evs = numberedFrom 0 vs) ∧
    (∀ e, leftToRight (litStep env) env.readDefault 0 gaps last src = .err e →
      ∃ evs e', vscan env (fieldsFormat gaps last) src = some (.error e', evs) ∧ (e' = e ∨ e' = .invalidFormatString)) :=
  ⟨fun vs r h => vscan_ok gaps last hg hl hc h64 src vs r h, fun e h => vscan_err gaps last hg hl hc h64 src e h⟩

/-- "x{}, {}" on "x1, 2!". -/
example : (∀ g ∈ [[120], [44, 32]], NoBrace g) ∧ NoBrace [] ∧
    leftToRight (litStep (intArgs [.int, .int])) (intArgs [.int, .int]).readDefault 0 [[120], [44, 32]] []
      [120, 49, 44, 32, 50, 33] = .ok ([1, 2], [33]) := by
  refine ⟨by unfold NoBrace; decide, by unfold NoBrace; decide, by decide +kernel⟩

/-! ### C18: words -/

/-- C18, below 64 fields: a source of non-empty words without whitespace, separated by whitespace,
    scanned with one default string field per word (with or without whitespace between the fields in
    the format string), gives exactly the words, and the unused range starts right after the last
    word. Any encoding, with source and strings of the same character type. -/
theorem C18_words_partial (e wide : Enc) (cfg : RegexCfg) (loc : LocaleData) (old : Nat) (ws : List Word) (rest : List Nat)
    (hn : ws.length < 64) (hok : ∀ w ∈ ws, w.Ok) (hsep : ∀ w ∈ ws.tail, w.sep ≠ [])
    (hr : ∀ c ∈ rest, IsScalar c) (hb : Breaks rest) :
    ∃ evs, vscan (stdEnv e wide cfg loc old (List.replicate ws.length (.string e)))
        (fieldsFormat (ws.map fun w => encodes e w.gap) []) (encodes e (wordsSource ws rest)) =
      some (.ok (encodes e rest), evs) ∧
      stored evs = numberedFrom 0 (ws.map fun w => Val.string (encodes e w.text)) := by
  apply vscan_ok
  · intro g hg
    obtain ⟨w, hw, rfl⟩ := List.mem_map.1 hg
    refine encodes_noBrace (fun c hc => ((hok w hw).gap c hc).1) fun c hc => ?_
    cases hx : isBrace c with
    | false => rfl
    | true =>
      have h1 : c = 123 ∨ c = 125 := by simpa [isBrace] using hx
      have h2 := ((hok w hw).gap c hc).2
      rcases h1 with rfl | rfl <;> exact absurd h2 (by decide)
  · intro c hc; cases hc
  · simp [stdEnv]
  · simpa [stdEnv] using hn
  · exact words_run e wide cfg loc old ws.length ws rest hr hb 0 (by omega) hok hsep

/-- " ab \n Ä x" with "{} {}": the words "ab" and "Ä". -/
example : (∀ w ∈ ([⟨[], [32], [97, 98]⟩, ⟨[32], [32, 10, 32], [0xC4]⟩] : List Word), w.Ok) ∧ Breaks [32, 120] := by
  refine ⟨?_, Or.inr ⟨32, [120], rfl, by decide⟩⟩
  intro w hw
  simp at hw
  rcases hw with rfl | rfl <;> exact ⟨by decide, by decide, by decide, by decide⟩

/-- C18 is violated from 64 words on: the call never succeeds. -/
theorem C18_violated_many (e wide : Enc) (cfg : RegexCfg) (loc : LocaleData) (old n : Nat) (hn : 64 ≤ n) (fmt src rest : List Nat)
    (evs : List (Event Val)) : vscan (stdEnv e wide cfg loc old (List.replicate n (.string e))) fmt src ≠ some (.ok rest, evs) :=
  C23_many_never_succeed (by simpa [stdEnv] using hn) fmt src rest evs

/-! ### C62: records -/

/-- C62, below 64 fields: text printed from a record (literal texts, then values shown as text) is read
    back by the format string with the same literal texts and default fields: all values, in order,
    and the unused range starts right after the record. Integers of every type, booleans, strings,
    characters, addresses, string views and floating-point numbers, in any mixture; the literal texts are made of whitespace and characters
    of one code unit (C24). -/
theorem C62_record_roundtrip_partial (e wide : Enc) (cfg : RegexCfg) (loc : LocaleData) (old : Nat) (es : List Entry)
    (last rest : List Nat) (hn : es.length < 64) (hsh : ∀ x ∈ es, Shows e x.dest x.val x.text x.follow)
    (hg : ∀ x ∈ es, ∀ c ∈ x.gap, Simple e c ∧ c ≠ 123 ∧ c ≠ 125) (hlast : ∀ c ∈ last, Simple e c ∧ c ≠ 123 ∧ c ≠ 125)
    (hend : EndsInText last) (hrest : ∀ c ∈ rest, IsScalar c) (hsep : WellSeparated es (last ++ rest)) :
    ∃ evs, vscan (stdEnv e wide cfg loc old (es.map fun x => x.dest))
        (fieldsFormat (es.map fun x => encodes e x.gap) (encodes e last)) (encodes e (printed es (last ++ rest))) =
      some (.ok (encodes e rest), evs) ∧ stored evs = numberedFrom 0 (es.map fun x => x.val) := by
  have hnb : ∀ t : List Nat, (∀ c ∈ t, Simple e c ∧ c ≠ 123 ∧ c ≠ 125) → NoBrace (encodes e t) := by
    intro t ht
    refine encodes_noBrace (fun c hc => (ht c hc).1.1) fun c hc => ?_
    have := (ht c hc).2
    simp [isBrace, this]
  apply vscan_ok
  · intro g hgm
    obtain ⟨x, hx, rfl⟩ := List.mem_map.1 hgm
    exact hnb _ (hg x hx)
  · exact hnb _ hlast
  · simp [stdEnv]
  · simpa [stdEnv] using hn
  · refine record_run e wide cfg loc old _ last rest (fun c hc => (hlast c hc).1) hrest hend es 0 ?_ hsh
      (fun x hx c hc => (hg x hx c hc).1) hsep
    intro j x hj
    rw [Nat.zero_add, List.getElem?_map, hj]; rfl

/-- "id {} at {}: {}" with -7, the address 0x2a, and true. -/
example : let es : List Entry :=
      [⟨[105, 100, 32], .int ⟨32, true⟩ .int, .int (-7), intText 10 (-7), NoDigitFirst 10⟩,
       ⟨[32, 97, 116, 32], .pointer, .pointer 42, [48, 120] ++ numeral 16 42, NoDigitFirst 16⟩,
       ⟨[58, 32], .bool, .bool true, trueWord, fun _ => True⟩]
    (∀ x ∈ es, Shows .utf8 x.dest x.val x.text x.follow) ∧ WellSeparated es [46] ∧
      (∀ x ∈ es, ∀ c ∈ x.gap, Simple .utf8 c ∧ c ≠ 123 ∧ c ≠ 125) := by
  refine ⟨?_, ?_, ?_⟩
  · intro x hx
    simp at hx
    rcases hx with rfl | rfl | rfl
    · exact .int ⟨32, true⟩ .int (-7) (by decide) (by decide)
    · exact .pointer 42 (by decide)
    · exact .bool true
  · refine ⟨?_, ?_, trivial, trivial⟩
    · intro c hc; simp [printed] at hc; subst hc; decide
    · intro c hc; simp [printed] at hc; subst hc; decide
  · unfold Simple; decide

/-- "-2.5 " into a `double`. -/
example {cv : FloatConv Nat} {round : List Nat → Rounded Nat} (hcv : ConvOk cv round) (v : Nat) (hv : round [50, 46, 53] = .finite v) :
    let x : Entry := ⟨[], .float .double cv false, .float (cv.copysign true v), [45] ++ [50, 46, 53],
      fun rest => Longest (FloatText .none) ([50, 46, 53] ++ encodes .utf8 rest) [50, 46, 53] ∧ ¬ BarePrefix ([50, 46, 53] ++ encodes .utf8 rest)⟩
    Shows .utf8 x.dest x.val x.text x.follow ∧ WellSeparated [x] [32] := by
  have hd : DecText true true [50, 46, 53] := ⟨[50, 46, 53], [], rfl, ⟨[50], [46, 53], rfl, by decide, Or.inr ⟨[53], rfl, by decide⟩, Or.inl (by decide)⟩, Or.inl ⟨rfl, rfl⟩⟩
  refine ⟨.float .double cv false round hcv [45] [50, 46, 53] v (by simp [SignText]) (Or.inl ⟨_, _, rfl, by decide⟩)
    (Or.inr (Or.inr ⟨Or.inl hd, _, Or.inl ⟨rfl, by simp⟩, hv.symm⟩)), ⟨longest_break (Or.inl hd) ⟨_, _, rfl, by decide⟩ ?_, ?_⟩, trivial⟩
  · rintro c cs h ⟨-, h'⟩
    cases h
    exact absurd h' (by decide)
  · rintro ⟨x, r, hx, -⟩
    cases hx

/-! ### C37: booleans -/

/-- C37: with any presentation type allowed for booleans, and from any source, a boolean is read
    exactly when the source begins with one of the documented spellings, with its value, and exactly
    the spelling is consumed; otherwise the error is `invalid_scanned_value`. -/
theorem C37_spellings (loc : LocaleData) (sp : Specs) (hl : sp.localized = false) (hc : runTypeCheck .bool sp = some true)
    (l : Layout) (s : List Nat) : ReadsWord (boolWords sp.type) s ((boolReader loc sp).read l s) := by
  have h := readBool_spec (boolOptions sp.type).1 (boolOptions sp.type).2 s
  have hr : (boolReader loc sp).read l s = readBool (boolOptions sp.type).1 (boolOptions sp.type).2 readBoolText s := by
    simp [boolReader, hl]
  have hw : offered (boolOptions sp.type).1 (boolOptions sp.type).2 = boolWords sp.type := by
    simp only [runTypeCheck, checkBool, Option.some.injEq] at hc
    cases ht : sp.type <;> first | rfl | (simp [ht] at hc)
  rw [hr, ← hw]
  exact h

/-- The spellings are not prefixes of each other, so `ReadsWord` has exactly one solution. -/
theorem C37_unambiguous (p : Pres) (s : List Nat) (r r' : Res (Bool × List Nat)) (h : ReadsWord (boolWords p) s r)
    (h' : ReadsWord (boolWords p) s r') : r = r' := by
  have key : ∀ p ∈ boolNumbers ++ boolText, ∀ q ∈ boolNumbers ++ boolText, p.1 <+: q.1 → p.1 = q.1 ∧ p.2 = q.2 := by decide
  have hsub : ∀ x ∈ boolWords p, x ∈ boolNumbers ++ boolText := by
    intro x hx
    cases p <;> simp only [boolWords] at hx <;> first
      | exact hx
      | exact List.mem_append_right _ hx
      | exact List.mem_append_left _ hx
  exact readsWord_det (fun w b w' b' hp hq => key (w, b) (hsub _ hp) (w', b') (hsub _ hq)) h h'

/-- C37, a whole default field: leading whitespace is skipped, then the spelling is read. -/
theorem C37_default_field (e wide : Enc) (cps : List Nat) (h : ∀ c ∈ cps, IsScalar c) :
    (cps.dropWhile isSpace = [] ∧
      defaultRead e (Dest.bool.defaultReader e wide) (fun _ => .contiguous) (encodes e cps) = .err .endOfInput) ∨
    (cps.dropWhile isSpace ≠ [] ∧ ∃ r, ReadsWord (boolWords .none) (encodes e (cps.dropWhile isSpace)) r ∧
      defaultRead e (Dest.bool.defaultReader e wide) (fun _ => .contiguous) (encodes e cps) = r.map fun x => (.bool x.1, x.2)) := by
  unfold defaultRead
  by_cases hnil : cps = []
  · left; subst hnil; exact ⟨rfl, by rw [encodes_nil, if_pos rfl]⟩
  rw [if_neg (by rw [encodes_eq_nil]; exact hnil), if_pos (by rfl), skipSpace_encodes e _ _ h (by cases e <;> trivial)]
  by_cases hd : cps.dropWhile isSpace = []
  · left
    refine ⟨hd, ?_⟩
    rw [if_pos ⟨rfl, (dropWhile_nil_iff _ _).1 hd⟩]; rfl
  · right
    refine ⟨hd, _, readBool_spec true true _, ?_⟩
    rw [if_neg (by rintro ⟨_, h2⟩; exact hd ((dropWhile_nil_iff _ _).2 h2)), Res.bind_ok]
    rfl

/-- "  truely" is true, leaving "ly"; "1" with `{:s}` is an error. -/
example : defaultRead .utf8 (Dest.bool.defaultReader .utf8 .utf32) (fun _ => .contiguous) [32, 32, 116, 114, 117, 101, 108, 121] =
      .ok (.bool true, [108, 121]) ∧
    runTypeCheck .bool { type := .string } = some true ∧
    (boolReader ⟨44, 46, [], [], fun _ _ _ _ => .bad⟩ { type := .string }).read .contiguous [49] = .err .invalidScannedValue := by decide +kernel

/-- C37 with the `L` flag: text is read by the names of the locale, when neither name begins with the
    other. -/
theorem C37_localized_partial (loc : LocaleData) (sp : Specs) (hl : sp.localized = true) (ht : sp.type = .string)
    (h1 : ¬ loc.truename <+: loc.falsename) (h2 : ¬ loc.falsename <+: loc.truename) (l : Layout) (s : List Nat) :
    ReadsWord [(loc.truename, true), (loc.falsename, false)] s ((boolReader loc sp).read l s) := by
  have hr : (boolReader loc sp).read l s = readBool false true (readBoolNames loc.truename loc.falsename) s := by
    simp [boolReader, hl, ht, boolOptions]
  rw [hr]
  unfold readBool
  rcases readBoolNames_spec loc.truename loc.falsename s h1 h2 with ⟨w, b, r, g1, g2, g3⟩ | ⟨g1, g2⟩
  · simp only [Bool.false_eq_true, if_false, if_true, g3]
    exact Or.inl ⟨w, b, r, g1, g2, rfl⟩
  · simp only [Bool.false_eq_true, if_false, if_true, g2]
    exact Or.inr ⟨g1, rfl⟩

example : ¬ [106, 97] <+: [110, 101, 105, 110] ∧ ¬ [110, 101, 105, 110] <+: [106, 97] := by decide

/-- With the `L` flag and a locale in which one name begins with the other ("yes", "yesn't") the
    longer name is never read: its beginning is taken for the shorter one. -/
theorem C37_violated_localized (loc : LocaleData) (sp : Specs) (hl : sp.localized = true) (ht : sp.type = .string)
    (h1 : loc.truename <+: loc.falsename) (l : Layout) (s r : List Nat) :
    (boolReader loc sp).read l s ≠ .ok (false, r) := by
  have hr : (boolReader loc sp).read l s = readBool false true (readBoolNames loc.truename loc.falsename) s := by
    simp [boolReader, hl, ht, boolOptions]
  rw [hr]
  have hle := h1.length_le
  unfold readBool readBoolNames
  simp only [Bool.false_eq_true, if_false, if_true, hle, decide_true]
  cases g : readMatchingString loc.truename s with
  | some r' => simp
  | none =>
    have : readMatchingString loc.falsename s = none := by
      rw [readMatchingString_none] at g ⊢
      exact fun h => g (h1.trans h)
    simp [this]

example : (boolReader ⟨44, 46, [121], [121, 110], fun _ _ _ _ => .bad⟩ { type := .string, localized := true }).read .contiguous [121, 110] = .ok (true, [110]) := by
  decide +kernel

/-! ### C38: characters -/

/-- C38, `char`: from any source (well-formed or not) exactly one code unit is consumed and stored,
    whitespace included; only the empty source is an error. With `{}` and any specification with no
    presentation type and neither width, precision nor alignment. (`{:c}` is rejected, see
    `C29_violated`.) -/
theorem C38_char (wide : Enc) (loc : LocaleData) (old : Nat) (sp : Specs) (hp : Plain sp)
    (ht : sp.type = .none) (lay : List Nat → Layout) (c : Nat) (s : List Nat) :
    defaultRead .utf8 (Dest.char.defaultReader .utf8 wide) lay (c :: s) = .ok (.char c, s) ∧
    Dest.char.readSpecs .utf8 wide loc old sp lay (c :: s) = .ok (.char c, s) ∧
    defaultRead .utf8 (Dest.char.defaultReader .utf8 wide) lay [] = .err .endOfInput ∧
    Dest.char.readSpecs .utf8 wide loc old sp lay [] = .err .endOfInput := by
  have hc : runTypeCheck .narrowChar sp = some true := by
    simp [runTypeCheck, checkChar, ht]; decide
  have hspec : ∀ s, Dest.char.readSpecs .utf8 wide loc old sp lay s = (readCodeUnit s).map fun r => (.char r.1, r.2) := by
    intro s
    show (match runTypeCheck .narrowChar sp with | none => _ | some false => _ | some true => _) = _
    rw [hc]
    show argRead .utf8 sp ((charReader .utf8 loc sp old).mapVal Val.char) lay s = _
    rw [argRead_plain _ _ hp]
    simp [charReader, Reader.mapVal, ht, readCharDefault]
  refine ⟨rfl, ?_, rfl, ?_⟩
  · rw [hspec]; rfl
  · rw [hspec]; rfl

example : Plain { localized := true } ∧ defaultRead .utf8 (Dest.char.defaultReader .utf8 .utf32) (fun _ => .contiguous) [32, 97] =
    .ok (.char 32, [97]) := ⟨⟨rfl, rfl, rfl⟩, by decide +kernel⟩

/-- C38, `char32_t` from well-formed text, and `wchar_t` from wide text: exactly one code point, or one
    code unit, is consumed and stored, whitespace included. -/
theorem C38_code_point_partial (e wide : Enc) (loc : LocaleData) (old : Nat) (sp : Specs) (hp : Plain sp)
    (ht : sp.type = .none ∨ sp.type = .character) (lay : List Nat → Layout) (cp : Nat) (h : IsScalar cp) (s : List Nat) :
    defaultRead e (Dest.codePoint.defaultReader e wide) lay (encode e cp ++ s) = .ok (.char cp, s) ∧
    Dest.codePoint.readSpecs e wide loc old sp lay (encode e cp ++ s) = .ok (.char cp, s) ∧
    (∀ c, e ≠ .utf8 → defaultRead e (Dest.wchar.defaultReader e wide) lay (c :: s) = .ok (.char c, s)) ∧
    (∀ c, e ≠ .utf8 → sp.type = .none → Dest.wchar.readSpecs e wide loc old sp lay (c :: s) = .ok (.char c, s)) := by
  have hne : encode e cp ++ s ≠ [] := by simp [encode_ne_nil]
  have hc : runTypeCheck .codePoint sp = some true := by
    rcases ht with h | h <;> simp [runTypeCheck, checkCodePoint, h]
  refine ⟨?_, ?_, ?_, ?_⟩
  · unfold defaultRead
    rw [if_neg hne, if_neg (by simp [Dest.defaultReader, codePointReader, Reader.mapVal])]
    show (readCodePoint e _).map _ = _
    rw [readCodePoint_encode e cp h]; rfl
  · show (match runTypeCheck .codePoint sp with | none => _ | some false => _ | some true => _) = _
    rw [hc]
    show argRead e sp ((codePointReader e).mapVal Val.char) lay _ = _
    rw [argRead_plain _ _ hp]
    show (readCodePoint e _).map _ = _
    rw [readCodePoint_encode e cp h]; rfl
  · intro c he
    unfold defaultRead
    rw [if_neg (by simp), if_neg (by simp [Dest.defaultReader, Reader.mapVal])]
    show (readWcharDefault e wide _).map _ = _
    rw [readWcharDefault, if_neg he]; rfl
  · intro c he hno
    have hc2 : runTypeCheck .wideChar sp = some true := by simp [runTypeCheck, checkChar, hno]; decide
    show (match runTypeCheck .wideChar sp with | none => _ | some false => _ | some true => _) = _
    rw [hc2]
    show argRead e sp ((wcharReader e wide loc sp old).mapVal Val.char) lay _ = _
    rw [argRead_plain _ _ hp]
    simp [wcharReader, Reader.mapVal, ht, readWcharDefault, he, readCodeUnit]

example : IsScalar 0x20AC ∧ defaultRead .utf8 (Dest.codePoint.defaultReader .utf8 .utf32) (fun _ => .contiguous)
    (encode .utf8 0x20AC ++ [32]) = .ok (.char 0x20AC, [32]) := ⟨by decide, by decide +kernel⟩

/-- C38 is violated at the end of the source: a `char32_t` field with any specification (say `{:c}`)
    and nothing left to read reads through the end (the violated `SCN_EXPECT` of
    `read_code_point_into`), while `{}` reports `end_of_input`. The same for `wchar_t` from a narrow
    source. -/
theorem C38_violated_at_end (e wide : Enc) (loc : LocaleData) (old : Nat) (lay : List Nat → Layout) (sp : Specs)
    (ht : sp.type = .none ∨ sp.type = .character) (hp : Plain sp) :
    Dest.codePoint.readSpecs e wide loc old sp lay [] = .ub ∧
    (sp.type = .none → Dest.wchar.readSpecs .utf8 wide loc old sp lay [] = .ub) ∧
    defaultRead e (Dest.codePoint.defaultReader e wide) lay [] = .err .endOfInput := by
  have hc : runTypeCheck .codePoint sp = some true := by
    rcases ht with h | h <;> simp [runTypeCheck, checkCodePoint, h]
  refine ⟨?_, ?_, rfl⟩
  · show (match runTypeCheck .codePoint sp with | none => _ | some false => _ | some true => _) = _
    rw [hc]
    show argRead e sp ((codePointReader e).mapVal Val.char) lay _ = _
    rw [argRead_plain _ _ hp]; rfl
  · intro hno
    have hc2 : runTypeCheck .wideChar sp = some true := by simp [runTypeCheck, checkChar, hno]; decide
    show (match runTypeCheck .wideChar sp with | none => _ | some false => _ | some true => _) = _
    rw [hc2]
    show argRead .utf8 sp ((wcharReader .utf8 wide loc sp old).mapVal Val.char) lay _ = _
    rw [argRead_plain _ _ hp]
    simp [wcharReader, Reader.mapVal, ht, readWcharDefault]
    rfl

example : Plain { type := .character } := ⟨rfl, rfl, rfl⟩

/-- C38 is violated on malformed text: a truncated sequence at the end of the source is handed to the
    decoder for valid text, for every lead byte of a multi-byte sequence. -/
theorem C38_violated_truncated (wide : Enc) (lay : List Nat → Layout) (c : Nat) (h1 : 0xC2 ≤ c) (h2 : c ≤ 0xF4) :
    defaultRead .utf8 (Dest.codePoint.defaultReader .utf8 wide) lay [c] = .ub := by
  have key : ∀ c : Fin 256, 0xC2 ≤ c.val → c.val ≤ 0xF4 → readCodePoint .utf8 [c.val] = .ub := by decide +kernel
  show (readCodePoint .utf8 [c]).map _ = _
  rw [key ⟨c, by omega⟩ h1 h2]; rfl

/-! ### C63: integer presentations of characters -/

/-- C63 is violated: a `char` field with an integer presentation (`{:d}` on "65") reads the integer,
    consumes it, and then stores the destination's previous value, whatever was read. The same for
    `wchar_t`. -/
theorem C63_violated (e wide : Enc) (loc : LocaleData) (old : Nat) (sp : Specs) (hp : Plain sp)
    (ht : sp.type ≠ .none ∧ sp.type ≠ .character) (lay : List Nat → Layout) (s : List Nat) (v : Val) (r : List Nat)
    (h : Dest.char.readSpecs e wide loc old sp lay s = .ok (v, r) ∨ Dest.wchar.readSpecs e wide loc old sp lay s = .ok (v, r)) :
    v = .char old := by
  have hn : ¬ (sp.type = .none ∨ sp.type = .character) := fun h => h.elim ht.1 ht.2
  have aux : ∀ (rd : Reader Int), ∀ l, Res.map (fun r : Nat × List Nat => (Val.char r.1, r.2))
      (Res.map (fun r : Int × List Nat => (old, r.2)) (rd.read l s)) = Res.ok (v, r) → v = .char old := by
    intro rd l h
    cases hr : rd.read l s with
    | ub => rw [hr] at h; cases h
    | err x => rw [hr] at h; cases h
    | ok a => rw [hr] at h; simp at h; exact h.1.symm
  rcases h with h | h
  · unfold Dest.readSpecs at h
    split at h
    · cases h
    · cases h
    · change argRead e sp ((charReader e loc sp old).mapVal Val.char) lay s = _ at h
      rw [argRead_plain _ _ hp] at h
      simp only [charReader, Reader.mapVal, if_neg hn] at h
      exact aux _ _ h
  · unfold Dest.readSpecs at h
    split at h
    · cases h
    · cases h
    · change argRead e sp ((wcharReader e wide loc sp old).mapVal Val.char) lay s = _ at h
      rw [argRead_plain _ _ hp] at h
      simp only [wcharReader, Reader.mapVal, if_neg hn] at h
      exact aux _ _ h

/-- `{:d}` on "65" into a `char` holding 0. -/
example : Dest.char.readSpecs .utf8 .utf32 ⟨44, 46, [], [], fun _ _ _ _ => .bad⟩ 0 { type := .intDecimal } (fun _ => .contiguous) [54, 53] = .ok (.char 0, []) := by
  decide +kernel

/-- What the integer presentations mean: the base (0 for "from the text") and whether a minus sign is rejected. -/
inductive Presentation : Pres → Nat → Bool → Prop
  | binary : Presentation .intBinary 2 false
  | octal : Presentation .intOctal 8 false
  | decimal : Presentation .intDecimal 10 false
  | unsigned : Presentation .intUnsigned 10 true
  | hex : Presentation .intHex 16 false
  | generic : Presentation .intGeneric 0 false

/-- C63, the part that holds: a `char` field with an integer presentation consumes and rejects exactly what a field of
    an 8-bit signed integer with that base does; a `wchar_t` field does so for 16 bits where `wchar_t` is UTF-16 and for 32
    bits where it is UTF-32. Missing from the full statement is the value, see `C63_violated`. -/
theorem C63_extent_partial (e wide : Enc) (loc : LocaleData) (old : Nat) (sp : Specs) (hp : Plain sp) (hl : sp.localized = false)
    {base : Nat} {uo : Bool} (ht : Presentation sp.type base uo) (lay : List Nat → Layout) (s : List Nat)
    (hq : e = .utf8 → (afterSign s).head? ≠ some 16) (hb : e = .utf8 → ∀ c ∈ s, c < 256) :
    Dest.char.readSpecs e wide loc old sp lay s = (scanInt ⟨8, true⟩ base uo s).map (fun r => (.char old, r.2)) ∧
    Dest.wchar.readSpecs e wide loc old sp lay s =
      (scanInt ⟨if wide = .utf16 then 16 else 32, true⟩ base uo s).map (fun r => (.char old, r.2)) := by
  have hpres : sp.getBase = some base ∧ decide (sp.type = .intUnsigned) = uo ∧ (base = 0 ∨ (2 ≤ base ∧ base ≤ 36)) ∧
      checkChar sp = true ∧ ¬ (sp.type = .none ∨ sp.type = .character) := by
    unfold Specs.getBase checkChar
    generalize sp.type = ty at ht
    cases ht <;> decide
  obtain ⟨h1, h2, h3, h4, h5⟩ := hpres
  have key : ∀ T, Upto32 T → ∀ l, (intSpecsReader e loc T sp).read l s = scanInt T base uo s := by
    intro T hT l
    unfold intSpecsReader
    simp only [h1, h2, hl]
    exact C01_reader_upto32 _ _ hT _ _ _ h3 (fun _ hn => hq (utf8_units hn)) (fun hn => hb (utf8_units hn))
  constructor
  · have hc : runTypeCheck Dest.char.argTy sp = some true := by simp [Dest.argTy, runTypeCheck, h4]
    unfold Dest.readSpecs
    rw [hc]
    dsimp only
    rw [argRead_plain _ _ hp]
    simp only [Dest.specsReader, charReader, Reader.mapVal, if_neg h5, key _ (show Upto32 ⟨8, true⟩ by simp [Upto32]), Bool.false_eq_true, if_false, Res.map_map]
  · have hc : runTypeCheck Dest.wchar.argTy sp = some true := by simp [Dest.argTy, runTypeCheck, h4]
    have hT : Upto32 ⟨if wide = .utf16 then 16 else 32, true⟩ := by unfold Upto32; split <;> simp
    unfold Dest.readSpecs
    rw [hc]
    dsimp only
    rw [argRead_plain _ _ hp]
    simp only [Dest.specsReader, wcharReader, Reader.mapVal, if_neg h5, key _ hT, Bool.false_eq_true, if_false]
    cases scanInt ⟨if wide = .utf16 then 16 else 32, true⟩ base uo s <;> rfl

/-- `{:d}` on "40000;" into a `wchar_t`: too large for UTF-16, read for UTF-32; "200" is too large for `char`. -/
example : let loc : LocaleData := ⟨44, 46, [], [], fun _ _ _ _ => .bad⟩
    Presentation .intDecimal 10 false ∧ Plain { type := .intDecimal } ∧
    Dest.wchar.readSpecs .utf8 .utf16 loc 7 { type := .intDecimal } (fun _ => .contiguous) [52, 48, 48, 48, 48, 59] = .err .valuePositiveOverflow ∧
    Dest.wchar.readSpecs .utf8 .utf32 loc 7 { type := .intDecimal } (fun _ => .contiguous) [52, 48, 48, 48, 48, 59] = .ok (.char 7, [59]) ∧
    Dest.char.readSpecs .utf8 .utf32 loc 7 { type := .intDecimal } (fun _ => .contiguous) [50, 48, 48] = .err .valuePositiveOverflow :=
  ⟨.decimal, ⟨rfl, rfl, rfl⟩, by decide +kernel, by decide +kernel, by decide +kernel⟩

/-! ### C55: pointers -/

/-- C55: hexadecimal digits of either case, with an optional `0x` or `0X`, whose value fits an address
    are read as that address, consuming exactly them; a value of 2^64 or more is an overflow error.
    (The last hypothesis excludes "0" followed by "x" or "X".) -/
theorem C55_accepts (k : Src) (pre t rest : List Nat) (hpre : pre = [] ∨ pre = [48, 120] ∨ pre = [48, 88])
    (ht : IsNumeral 16 t) (hb : ∀ c ∈ rest, c < 256) (hr : NoDigitFirst 16 rest)
    (hx : pre = [] → t = [48] → rest.head? ≠ some 120 ∧ rest.head? ≠ some 88) :
    readInt k ⟨64, false⟩ ⟨16, false, none⟩ (pre ++ (t ++ rest)) =
      if value 16 t < 2 ^ 64 then .ok ((value 16 t : Int), rest) else .err .valuePositiveOverflow := by
  have hdig : ∀ c, IsDigit 16 c → c < 128 ∧ c ≠ 45 ∧ c ≠ 43 ∧ c ≠ 16 ∧ c ≠ 120 ∧ c ≠ 88 := by
    rintro c ⟨d, h1, h2⟩
    unfold digit? at h1
    repeat' split at h1
    all_goals first | (cases h1; done) | (simp at h1; omega)
  obtain ⟨c, cs, rfl⟩ : ∃ c cs, t = c :: cs := by
    cases t with
    | nil => exact absurd rfl ht.1
    | cons c cs => exact ⟨c, cs, rfl⟩
  have hc := ht.2 c (by simp)
  have hcd := hdig c hc
  have hrun := digitRun_numeral 16 (c :: cs) rest ht.2 hr
  have hscan : scanDigits ⟨64, false⟩ false 16 (c :: cs ++ rest) =
      if value 16 (c :: cs) < 2 ^ 64 then .ok ((value 16 (c :: cs) : Int), rest) else .err .valuePositiveOverflow := by
    unfold scanDigits
    rw [hrun.1, hrun.2, if_neg (by simp)]
    have hin : InRange ⟨64, false⟩ (signed false (value 16 (c :: cs))) ↔ value 16 (c :: cs) < 2 ^ 64 := by
      unfold InRange signed; simp; omega
    by_cases h : value 16 (c :: cs) < 2 ^ 64
    · rw [if_pos (hin.2 h), if_pos h]; simp [signed]
    · rw [if_neg (fun h' => h (hin.1 h')), if_neg h]; rfl
  rw [pointer_scan]
  · rcases hpre with rfl | hpre
    · have hcb : chooseBase 16 (c :: cs ++ rest) = (16, c :: cs ++ rest) := by
        unfold chooseBase
        rw [if_pos rfl, if_neg]
        intro hp
        cases cs with
        | cons d ds =>
          have hd := hdig d (ht.2 d (by simp))
          rw [List.cons_append, List.cons_append] at hp
          obtain ⟨q, hq⟩ : ∃ q, ds ++ rest = q := ⟨_, rfl⟩
          rw [hq] at hp
          cases q with
          | nil => exact hp
          | cons x q => have := hp.2.1; omega
        | nil =>
          cases rest with
          | nil => exact hp
          | cons l rest =>
            cases rest with
            | nil => exact hp
            | cons x rest =>
              have h0 : c = 48 := hp.1
              subst h0
              have := hx rfl rfl
              simp at this
              exact hp.2.1.elim this.1 this.2
      rw [List.nil_append, ← hscan]
      unfold scanInt
      dsimp only [List.cons_append]
      rw [if_neg (by omega : ¬ (c = 45 ∨ c = 43))]
      have hneg : (c == 45) = false := by simp; omega
      rw [hneg, if_neg (by simp), ← List.cons_append, hcb]
    · obtain ⟨l, rfl, hl⟩ : ∃ l, pre = [48, l] ∧ (l = 120 ∨ l = 88) := by
        rcases hpre with rfl | rfl
        · exact ⟨_, rfl, Or.inl rfl⟩
        · exact ⟨_, rfl, Or.inr rfl⟩
      have hcb : chooseBase 16 (48 :: l :: (c :: cs ++ rest)) = (16, c :: cs ++ rest) := by
        unfold chooseBase
        rw [if_pos rfl, if_pos ⟨rfl, hl, hc⟩]; rfl
      rw [← hscan]
      show scanInt _ _ _ (48 :: l :: (c :: cs ++ rest)) = _
      unfold scanInt
      dsimp only
      rw [if_neg (by decide), if_neg (by decide), hcb]
      rfl
  · intro _ _
    rcases hpre with rfl | rfl | rfl
    · rw [List.nil_append, List.cons_append, afterSign, if_neg (by omega)]
      simp; omega
    · simp [afterSign]
    · simp [afterSign]
  · intro _ y hy
    rcases List.mem_append.1 hy with hy | hy
    · rcases hpre with rfl | rfl | rfl <;> simp at hy <;> omega
    · rcases List.mem_append.1 hy with hy | hy
      · have := (hdig y (ht.2 y hy)).1; omega
      · exact hb y hy

example : IsNumeral 16 [68, 101, 97, 68] ∧ value 16 [68, 101, 97, 68] = 0xDEAD ∧ NoDigitFirst 16 [32] := by
  refine ⟨⟨by simp, by decide⟩, by decide, by unfold NoDigitFirst; simp; decide⟩

/-- C55: every address printed as `0x…` and scanned by a default pointer field, or with `{:p}`, is
    itself. -/
theorem C55_roundtrip (e wide : Enc) (loc : LocaleData) (old : Nat) (a : Nat) (ha : a < 2 ^ 64) (rest : List Nat)
    (hr : ∀ c ∈ rest, IsScalar c) (hd : NoDigitFirst 16 rest) :
    defaultRead e (Dest.pointer.defaultReader e wide) (fun _ => .contiguous) (encodes e ([48, 120] ++ numeral 16 a ++ rest)) =
      .ok (.pointer a, encodes e rest) ∧
    Dest.pointer.readSpecs e wide loc old { type := .pointer } (fun _ => .contiguous)
      (encodes e ([48, 120] ++ numeral 16 a ++ rest)) = .ok (.pointer a, encodes e rest) := by
  have h := shows_read e wide (.pointer a ha) rest hr hd
  refine ⟨h, ?_⟩
  show argRead e { type := .pointer } ((pointerReader e).mapVal Val.pointer) (fun _ => .contiguous) _ = _
  rw [argRead_plain _ _ ⟨rfl, rfl, rfl⟩]
  rw [← h]
  unfold defaultRead
  have hne : encodes e ([48, 120] ++ numeral 16 a ++ rest) ≠ [] := by rw [Ne, encodes_eq_nil]; simp
  simp only [hne, if_false]
  rfl

example : (0xffffffffffffffff : Nat) < 2 ^ 64 ∧ NoDigitFirst 16 [41] := ⟨by decide, by unfold NoDigitFirst; simp; decide⟩

end Scn
