import Verif.Lemmas.Padded3
/-
C91: values printed with a width, a fill and an alignment are read back by fields with the same specification.
The vocabulary is in `Verif/Spec/Padded.lean`.
-/
namespace Scn
open Spec

/-- C91, one field: a value printed with a width, a precision, an alignment and a fill is read back by the field with the same
    specification, and reading stops right behind what was printed. Integers in every base, booleans, strings, characters,
    addresses and floating-point numbers, in every encoding and for every division of the source into segments. Missing from
    the full claim: nothing around the value may be confused with its padding, and words and booleans printed without an
    alignment must fill the field (both fail otherwise, C91_violated_…); localized fields. -/
theorem C91_field_partial (cfg : RegexCfg) {e wide : Enc} (loc : LocaleData) (old : Nat) {w : Written} {d : Dest}
    (hw : w.Readable e d.argTy []) (hne : w.render e ≠ []) (hloc : w.localized = false) {v : Val} {text : List Nat} {follow : List Nat → Prop}
    (h : ShownAs e w.field w.letter d v text follow) {tail : List Nat}
    (hc : w.field.Clear (rightByDefault d w.letter) (keepsSpace d) text follow tail) (htail : ∀ c ∈ tail, IsScalar c)
    (lay : List Nat → Layout) (hlay : ∀ t, t <:+ w.field.pad (rightByDefault d w.letter) text ++ tail → GoodLayout e (lay (encodes e t)) t) :
    ∃ sp : Specs, (∀ r, parseSpecs cfg e d.argTy ⟨{}, false⟩ (w.render e ++ 125 :: r) = some (⟨sp, false⟩, 125 :: r)) ∧
      d.readSpecs e wide loc old sp lay (encodes e (w.field.pad (rightByDefault d w.letter) text ++ tail)) = .ok (v, encodes e tail) := by
  refine ⟨w.specs e, fun r => ?_, shownAs_read loc old hw hloc h hc htail lay hlay⟩
  obtain ⟨sp, h1, h2⟩ := parseSpecs_written cfg e d.argTy w r
    ⟨hw.align, hw.width, hw.precision, hw.localized, hw.letter, fun h => absurd h hne⟩
  obtain ⟨_, _, _, _, _, _, _, _, _, _, _, rfl⟩ := h2
  exact h1

/-- "{:*^8x}" with -26: "**-1a***", before "!". -/
example : let w : Written := { align := some (some 42, 94), width := some 8, letter := some 120 }
    w.Readable .utf8 .int [] ∧ w.render .utf8 = [42, 94, 56, 120] ∧
    ShownAs .utf8 w.field w.letter (.int ⟨32, true⟩ .int) (.int (-26)) (intText 16 (-26))
      (fun rest => NoDigitFirst 16 rest ∧ ((-26 : Int) = 0 → (16 : Nat) ≠ 10 → ∀ l, rest.head? = some l → l ∉ [98, 66, 111, 79, 120, 88])) ∧
    w.field.pad true (intText 16 (-26)) = [42, 42, 45, 49, 97, 42, 42, 42] ∧
    w.field.Clear true false (intText 16 (-26))
      (fun rest => NoDigitFirst 16 rest ∧ ((-26 : Int) = 0 → (16 : Nat) ≠ 10 → ∀ l, rest.head? = some l → l ∉ [98, 66, 111, 79, 120, 88])) [33] := by
  refine ⟨⟨?_, ?_, ?_, ?_, ?_, ?_⟩, by decide +kernel, .int _ _ _ 16 false _ (by decide) (by decide) (by decide) (by decide) (by decide) (by decide), by decide +kernel, ⟨?_, ?_, ?_, ?_, ?_, ?_⟩⟩
  · rintro f a ⟨⟩
    exact ⟨by decide, by rintro cp ⟨⟩; exact ⟨by unfold IsScalar; decide, by decide, by decide, by decide⟩⟩
  · rintro n ⟨⟩; decide
  · rintro n ⟨⟩
  · decide
  · rintro c ⟨⟩; exact ⟨_, rfl⟩
  · intro h; exact absurd h (by decide +kernel)
  · decide
  · decide
  · decide
  · refine ⟨?_, by decide⟩
    rintro c hc
    have hc : c = 42 := by
      have hv : (({ align := some (some 42, 94), width := some 8, letter := some 120 } : Written).field.fills true (intText 16 (-26))).2 ++
        ({ align := some (some 42, 94), width := some 8, letter := some 120 } : Written).field.beyond true (intText 16 (-26)) [33] = [42, 42, 42, 33] := by decide +kernel
      rw [hv] at hc
      exact (Option.some.inj hc).symm
    subst hc
    decide
  · decide
  · decide

/-- A text in a fixed column: as many columns minimum as maximum. -/
theorem beyond_column {F : PaddedField} (right : Bool) (text tail : List Nat) (hp : F.precision ≠ 0) (hw : F.precision ≤ F.width) :
    F.beyond right text tail = [] := by
  unfold PaddedField.beyond PaddedField.view
  rw [if_neg hp]
  have h1 := pad_wide F right text
  have h2 := fit_cols (F.precision - cols (F.pad right text)) tail
  exact cols_eq_zero.1 (by omega)

theorem cols_replicate_one (n : Nat) {f : Nat} (h : columns f = 1) : cols (List.replicate n f) = n := by
  induction n with
  | zero => rfl
  | succ n ih => rw [List.replicate_succ, cols_cons, ih]; omega

theorem pad_column {F : PaddedField} (right : Bool) (text : List Nat) (hf : columns F.fill = 1) (ht : cols text ≤ F.width) :
    cols (F.pad right text) = F.width := by
  have h32 : columns 32 = 1 := by decide
  unfold PaddedField.pad PaddedField.fills
  dsimp only
  rw [cols_append, cols_append]
  split
  · rw [cols_replicate_one _ hf, cols_nil]; omega
  · rw [cols_replicate_one _ hf, cols_nil]; omega
  · rw [cols_replicate_one _ hf, cols_replicate_one _ hf]; omega
  · split
    · rw [cols_replicate_one _ h32, cols_nil]; omega
    · rw [cols_replicate_one _ h32, cols_nil]; omega

/-- C91, fixed columns: when the minimum and maximum width are the same, a value that fits is read back whatever comes after
    its column, even if that continues the value. (Only the fill around the value within the column has to be told apart from
    it.) -/
theorem C91_columns_partial {e wide : Enc} (loc : LocaleData) (old : Nat) {w : Written} {d : Dest}
    (hw : w.Readable e d.argTy []) (hloc : w.localized = false) {v : Val} {text : List Nat} {follow : List Nat → Prop}
    (h : ShownAs e w.field w.letter d v text follow) {n : Nat} (hn : n ≠ 0) (hwid : w.width = some n) (hprec : w.precision = some n)
    (hfill : columns w.fillChar = 1) (hcols : cols text ≤ n) (hfirst : w.side = .before ∨ w.side = .both → text.head? ≠ some w.fillChar)
    (hfol : follow (w.field.fills (rightByDefault d w.letter) text).2)
    (hwide : w.side = .unspecified → rightByDefault d w.letter = false → keepsSpace d = false → n ≤ cols text)
    {tail : List Nat} (htail : ∀ c ∈ tail, IsScalar c)
    (lay : List Nat → Layout) (hlay : ∀ t, t <:+ w.field.pad (rightByDefault d w.letter) text ++ tail → GoodLayout e (lay (encodes e t)) t) :
    cols (w.field.pad (rightByDefault d w.letter) text) = n ∧
    d.readSpecs e wide loc old (w.specs e) lay (encodes e (w.field.pad (rightByDefault d w.letter) text ++ tail)) = .ok (v, encodes e tail) := by
  have h1 : w.field.width = n := by show w.width.getD 0 = n; rw [hwid]; rfl
  have h2 : w.field.precision = n := by show w.precision.getD 0 = n; rw [hprec]; rfl
  have h3 := pad_column (F := w.field) (rightByDefault d w.letter) text hfill (by rw [h1]; exact hcols)
  have h4 : w.field.beyond (rightByDefault d w.letter) text tail = [] := beyond_column _ _ _ (by omega) (by omega)
  refine ⟨by omega, shownAs_read loc old hw hloc h ⟨hfirst, ?_, Or.inr (by omega), ?_, ?_, ?_⟩ htail lay hlay⟩
  · intro _; rw [h4]; exact fun h => nomatch h
  · rw [h4, List.append_nil]; exact hfol
  · intro a b c; rw [h1]; exact hwide a b c
  · intro _ _ _ c hc; rw [h4] at hc; cases hc

/-- "{:4.4}" with -17 before "99": " -1799" is -17, then "99". -/
example : let w : Written := { width := some 4, precision := some 4 }
    w.Readable .utf8 .int [] ∧ w.field.pad true (intText 10 (-17)) = [32, 45, 49, 55] ∧ w.field.fills true (intText 10 (-17)) = ([32], []) := by
  refine ⟨⟨?_, ?_, ?_, ?_, ?_, ?_⟩, by decide +kernel, by decide +kernel⟩
  · rintro f a ⟨⟩
  · rintro n ⟨⟩; decide
  · rintro n ⟨⟩; decide
  · decide
  · rintro c ⟨⟩
  · intro h; exact absurd h (by decide +kernel)

/-- C91, records, below 64 fields: a record printed with a format string (literal texts, values in default fields or in fields
    with a width, precision, alignment, fill and type) is read back by the same format string: all values, in order, and the
    unused range starts right after the record. -/
theorem C91_record_partial (e wide : Enc) (cfg : RegexCfg) (loc : LocaleData) (old : Nat) (es : List PrintedField) (last rest : List Nat)
    (hn : es.length < 64) (hok : ∀ x ∈ es, x.Ok e) (hg : ∀ x ∈ es, ∀ c ∈ x.gap, Simple e c ∧ c ≠ 123 ∧ c ≠ 125)
    (hgap : ∀ x ∈ es, EndsInText x.gap ∨ ∃ c r, x.shown = c :: r ∧ isSpace c = false)
    (hlast : ∀ c ∈ last, Simple e c ∧ c ≠ 123 ∧ c ≠ 125) (hend : EndsInText last) (hrest : ∀ c ∈ rest, IsScalar c)
    (hclear : AllClear es (last ++ rest)) :
    ∃ evs, vscan (stdEnv e wide cfg loc old (es.map fun x => x.dest)) (recordFormat e es last) (encodes e (printedRecord es (last ++ rest))) =
      some (.ok (encodes e rest), evs) ∧ stored evs = numberedFrom 0 (es.map fun x => x.val) := by
  have hnb : ∀ t : List Nat, (∀ c ∈ t, Simple e c ∧ c ≠ 123 ∧ c ≠ 125) → NoBrace (encodes e t) := by
    intro t ht
    refine encodes_noBrace (fun c hc => (ht c hc).1.1) fun c hc => ?_
    have := (ht c hc).2
    simp [isBrace, this]
  generalize henv : stdEnv e wide cfg loc old (es.map fun x => x.dest) = env
  have hcount : env.count = es.length := by rw [← henv]; simp [stdEnv]
  have henc : env.enc = e := by rw [← henv]; rfl
  rw [recordFormat_eq env e es last 0]
  refine C81_success_partial (hnb _ hlast) (by omega) ?_ ?_ ?_
  · intro f hf
    obtain ⟨j, x, h1, rfl⟩ := recordFields_mem hf
    have hx : x ∈ es := List.mem_of_getElem? h1
    refine ⟨?_, hnb _ (hg x hx)⟩
    have hd : (es.map fun x => x.dest)[0 + j]? = some x.dest := by rw [Nat.zero_add, List.getElem?_map, h1]; rfl
    have hty : env.argTy (0 + j) = x.dest.argTy := by rw [← henv]; exact std_argTy hd
    have hxo := hok x hx
    unfold PrintedField.Ok at hxo
    cases hs : x.spec with
    | none => exact rfl
    | some w =>
      rw [hs] at hxo
      have := fieldMeans_written (env := env) (w := w) (by rw [henc]; exact hxo.1) (id := 0 + j) (by rw [hty]; exact shownAs_not_custom hxo.2.2.2)
        (by rw [henc, hty]; exact hxo.2.1) (encodes e x.gap)
      rw [henc] at this
      exact this
  · have hids := recordFields_ids env e es 0
    rw [hids, hcount]
    exact ⟨List.nodup_range', by simp, by intro i hi; simp [List.mem_range'] at hi; omega, fun _ => by rw [List.range_eq_range']⟩
  · rw [← henv]
    refine paddedRecord_run e wide cfg loc old _ last rest (fun c hc => (hlast c hc).1) hrest hend es 0 ?_ hok (fun x hx c hc => (hg x hx c hc).1) hgap hclear
    intro j x hj
    rw [Nat.zero_add, List.getElem?_map, hj]; rfl

/-- "n={:6}, {:*<8s};" with 42 and "a b": "n=    42, a b*****;". -/
example : let es : List PrintedField :=
      [⟨[110, 61], some { width := some 6 }, .int ⟨32, true⟩ .int, .int 42, intText 10 42,
        fun rest => NoDigitFirst 10 rest ∧ ((42 : Int) = 0 → (10 : Nat) ≠ 10 → ∀ l, rest.head? = some l → l ∉ [98, 66, 111, 79, 120, 88])⟩,
       ⟨[44, 32], some { align := some (some 42, 60), width := some 8, letter := some 115 }, .string .utf8, .string (encodes .utf8 [97, 32, 98]), [97, 32, 98],
        fun rest => ∀ c, rest.head? = some c → c = 42⟩]
    recordFormat .utf8 es [59] = [110, 61, 123, 58, 54, 125, 44, 32, 123, 58, 42, 60, 56, 115, 125, 59] ∧
    printedRecord es [59] = [110, 61, 32, 32, 32, 32, 52, 50, 44, 32, 97, 32, 98, 42, 42, 42, 42, 42, 59] ∧
    (∀ x ∈ es, x.Ok .utf8) ∧ (∀ x ∈ es, EndsInText x.gap ∨ ∃ c r, x.shown = c :: r ∧ isSpace c = false) ∧ AllClear es [59] := by
  refine ⟨by decide +kernel, by decide +kernel, ?_, ?_, ?_, ?_, trivial⟩
  · intro x hx
    rcases List.mem_cons.1 hx with rfl | hx
    · refine ⟨by decide +kernel, ⟨?_, ?_, ?_, ?_, ?_, ?_⟩, rfl, .int _ _ _ 10 false _ (by decide) (by decide) (by decide) (by decide) (by decide) (by decide)⟩
      · rintro f a ⟨⟩
      · rintro n ⟨⟩; decide
      · rintro n ⟨⟩
      · decide
      · rintro c ⟨⟩
      · intro h; exact absurd h (by decide +kernel)
    · obtain rfl := List.mem_singleton.1 hx
      refine ⟨by decide +kernel, ⟨?_, ?_, ?_, ?_, ?_, ?_⟩, rfl, .filled _ (by decide) (by unfold IsScalar; decide) (by decide)⟩
      · rintro f a ⟨⟩
        exact ⟨by decide, by rintro cp ⟨⟩; exact ⟨by unfold IsScalar; decide, by decide, by decide, by decide⟩⟩
      · rintro n ⟨⟩; decide
      · rintro n ⟨⟩
      · decide
      · rintro c ⟨⟩; exact ⟨_, rfl⟩
      · intro h; exact absurd h (by decide +kernel)
  · intro x hx
    rcases List.mem_cons.1 hx with rfl | hx
    · exact Or.inl (by rintro c ⟨⟩; decide)
    · obtain rfl := List.mem_singleton.1 hx
      exact Or.inr ⟨97, _, rfl, by decide⟩
  · refine ⟨?_, ?_, Or.inl rfl, ⟨?_, ?_⟩, ?_, ?_⟩
    · decide
    · decide
    · intro c hc
      cases hc
      decide
    · decide
    · decide
    · decide
  · refine ⟨?_, ?_, Or.inl rfl, ?_, ?_, ?_⟩
    · decide
    · decide
    · intro c hc; cases hc; rfl
    · decide
    · decide

/-! ### Where it fails -/

theorem narrow_read {V : Type} (F : PaddedField) (hs : F.side = .unspecified) {text : List Nat} (hne : text ≠ [])
    (hsp : ∀ c, text.head? = some c → isSpace c = false) (hnar : cols text < F.width) (hfit : F.precision = 0 ∨ cols (F.pad false text) ≤ F.precision)
    {tail : List Nat} {v : V} {rds : List Nat → Res (V × List Nat)}
    (hrd : rds (text ++ ((F.fills false text).2 ++ F.beyond false text tail)) = .ok (v, (F.fills false text).2 ++ F.beyond false text tail)) :
    F.before true (F.pad false text ++ tail) = [] ∧ F.read true rds (F.pad false text ++ tail) = .err .lengthTooShort := by
  have hpad : F.pad false text = text ++ (F.fills false text).2 := by unfold PaddedField.pad PaddedField.fills; rw [hs]; rfl
  have hview : F.view 0 (F.pad false text ++ tail) = text ++ ((F.fills false text).2 ++ F.beyond false text tail) := by
    rw [view_append F 0 _ _ (by omega), Nat.zero_add, hpad, List.append_assoc, ← hpad]; rfl
  have hb : F.before true (F.pad false text ++ tail) = [] := by
    unfold PaddedField.before
    rw [hs]
    dsimp only
    rw [if_pos rfl, hview]
    refine takeWhile_none _ _ fun c hc => hsp c ?_
    rwa [head_append_ne_nil hne] at hc
  refine ⟨hb, ?_⟩
  unfold PaddedField.read
  dsimp only
  rw [hb, cols_nil, List.length_nil, List.drop_zero, hview, hrd, Res.bind_ok]
  dsimp only
  have hval : (text ++ ((F.fills false text).2 ++ F.beyond false text tail)).take
      ((text ++ ((F.fills false text).2 ++ F.beyond false text tail)).length - ((F.fills false text).2 ++ F.beyond false text tail).length) = text := by
    rw [List.length_append, Nat.add_sub_cancel, List.take_left]
  have ha : ∀ u r, F.after true u r = [] := by intro u r; unfold PaddedField.after; rw [hs]; simp
  rw [if_neg, if_neg (by omega), hval, ha, if_pos (by rw [cols_nil]; omega)]
  rintro ⟨_, _, h⟩
  have : text = [] := (List.append_eq_nil_iff.1 h.symm).1
  exact hne this

/-- C91 fails: a word or boolean printed without an alignment in a field wider than itself (with its padding at the right, as
    `std::format` prints it) is never read back by the field with the same specification; the field is reported to be too short,
    whatever follows. -/
theorem C91_violated_left {e wide : Enc} (loc : LocaleData) (old : Nat) {w : Written} {d : Dest} (hw : w.Readable e d.argTy [])
    (hloc : w.localized = false) (hal : w.align = none) {v : Val} {text : List Nat} {follow : List Nat → Prop}
    (h : ShownAs e w.field w.letter d v text follow) (hleft : rightByDefault d w.letter = false) (hk : keepsSpace d = false)
    (hnar : cols text < w.field.width) (hfit : w.field.precision = 0 ∨ cols (w.field.pad false text) ≤ w.field.precision) {tail : List Nat}
    (hfol : follow ((w.field.fills false text).2 ++ w.field.beyond false text tail)) (htail : ∀ c ∈ tail, IsScalar c)
    (lay : List Nat → Layout) (hlay : ∀ t, t <:+ w.field.pad false text ++ tail → GoodLayout e (lay (encodes e t)) t) :
    d.readSpecs e wide loc old (w.specs e) lay (encodes e (w.field.pad (rightByDefault d w.letter) text ++ tail)) = .err .lengthTooShort := by
  rw [hleft]
  have hs : w.side = .unspecified := by unfold Written.side; rw [hal]
  obtain ⟨h1, h2, h3, ⟨keeps, h4, h5, h6, h7⟩, h8⟩ := shownAs_facts e wide loc old hw hloc h
  have hkk : keeps = false := by rw [h6 hs, hk]
  subst hkk
  have hF := describes_written hw
  have hall : ∀ c ∈ w.field.pad false text ++ tail, IsScalar c := by
    intro c hc
    rcases List.mem_append.1 hc with h | h
    · exact pad_scalar hw _ h1 c h
    · exact htail c h
  have hpad : w.field.pad false text = text ++ (w.field.fills false text).2 := by
    unfold PaddedField.pad PaddedField.fills
    rw [show w.field.side = .unspecified from hs]; rfl
  have hview : w.field.view 0 (w.field.pad false text ++ tail) = text ++ ((w.field.fills false text).2 ++ w.field.beyond false text tail) := by
    rw [view_append _ 0 _ _ (by omega), Nat.zero_add, hpad, List.append_assoc, ← hpad]; rfl
  let rds : List Nat → Res (Val × List Nat) := fun _ => .ok (v, (w.field.fills false text).2 ++ w.field.beyond false text tail)
  obtain ⟨hb, hr⟩ := narrow_read (V := Val) w.field hs h2 (h7 rfl) hnar hfit (tail := tail) (v := v) (rds := rds) rfl
  unfold Dest.readSpecs
  rw [h3]
  dsimp only
  have hws : (d.specsReader e wide loc old (w.specs e)).skipWs = true := h4
  have hrest : ∀ c ∈ (w.field.fills false text).2 ++ w.field.beyond false text tail, IsScalar c := by
    intro c hc
    rcases List.mem_append.1 hc with h | h
    · exact hall c (List.mem_append_left _ (by rw [hpad]; exact List.mem_append_right _ h))
    · exact htail c ((view_prefix _ _ _).subset h)
  rw [argRead_at e _ w.field hF _ lay _ hall hlay rds [] (by rw [hws]; exact hb) ?_ ?_, hws, hr]
  · rfl
  · rw [cols_nil, List.length_nil, List.drop_zero, hview]
    refine h8 _ _ hrest ?_ hfol
    by_cases hp : w.field.precision = 0
    · rw [if_pos hp]
      have := hlay _ (List.suffix_refl _)
      rw [← hview]
      unfold PaddedField.view
      rw [if_pos hp]
      exact this
    · rw [if_neg hp]
      cases e
      · exact ⟨[], _, rfl, rfl⟩
      · trivial
      · trivial
  · intro v' r hr'
    cases hr'
    rw [cols_nil, List.length_nil, List.drop_zero, hview]
    exact List.suffix_append _ _

/-- The locale of the examples below (none of them is localized). -/
def padLocale : LocaleData := ⟨44, 46, [], [], fun _ _ _ _ => .bad⟩

/-- "{:5}" with "ab": "ab   ". -/
example : (({ width := some 5 } : Written).field.pad (rightByDefault (.string .utf8) none) [97, 98]) = [97, 98, 32, 32, 32] ∧
    ((Dest.string .utf8).readSpecs .utf8 .utf32 padLocale 0 (({ width := some 5 } : Written).specs .utf8) (fun _ => .contiguous)
      [97, 98, 32, 32, 32, 33]).map Prod.snd = .err .lengthTooShort := by decide +kernel

/-- C91 fails without the conditions of `PaddedField.Clear`: a word in a left-aligned field without the type `s` takes the fill
    with it ("{:*<6}" with "ab" reads back "ab****"); a value that begins with the fill loses it ("{:0>5}" with 0 is skipped
    completely, and with "{:0>5.5}" that is reported as an invalid fill); the fill is skipped beyond the width of the field, so that a
    following field loses what belongs to it ("{:*<4}" with 7 before "***" leaves nothing). -/
theorem C91_violated_confused :
    let fill : Written := { align := some (some 42, 60), width := some 6 }
    let zeros : Written := { align := some (some 48, 62), width := some 5 }
    let zeros5 : Written := { zeros with precision := some 5 }
    let stars : Written := { align := some (some 42, 60), width := some 4 }
    let lay : List Nat → Layout := fun _ => .contiguous
    (Dest.string .utf8).readSpecs .utf8 .utf32 padLocale 0 (fill.specs .utf8) lay (fill.field.pad false [97, 98] ++ [33]) =
        .ok (.string [97, 98, 42, 42, 42, 42, 33], []) ∧
      (Dest.int ⟨32, true⟩ .int).readSpecs .utf8 .utf32 padLocale 0 (zeros.specs .utf8) lay (zeros.field.pad true (intText 10 0)) =
        .err .endOfInput ∧
      (Dest.int ⟨32, true⟩ .int).readSpecs .utf8 .utf32 padLocale 0 (zeros5.specs .utf8) lay (zeros5.field.pad true (intText 10 0)) =
        .err .invalidFill ∧
      (Dest.int ⟨32, true⟩ .int).readSpecs .utf8 .utf32 padLocale 0 (stars.specs .utf8) lay (stars.field.pad true (intText 10 7) ++ [42, 42, 42]) =
        .ok (.int 7, []) := by decide +kernel

/-- C91 fails for a record with whitespace before a padded value: the whitespace of the format string takes the padding with
    it, and the field is then too short. "x {:5}" printed with 42 is "x    42"; without the width the record is read. -/
theorem C91_violated_record :
    let x (w : Option Written) : PrintedField := ⟨[120, 32], w, .int ⟨32, true⟩ .int, .int 42, intText 10 42, NoDigitFirst 10⟩
    let call (w : Option Written) : Option ((Err ⊕ List Nat) × List (Nat × Val)) := (vscan (stdEnv .utf8 .utf32 ⟨true, true, true⟩ padLocale 0 [.int ⟨32, true⟩ .int]) (recordFormat .utf8 [x w] []) (encodes .utf8 (printedRecord [x w] []))).map fun r => (match r.1 with | .error e => .inl e | .ok r => .inr r, stored r.2)
    call (some { width := some 5 }) = some (.inl .lengthTooShort, []) ∧
      call none = some (.inr [], [(0, .int 42)]) := by decide +kernel

end Scn
