import Verif.Lemmas.Advance
import Verif.Lemmas.SpecRound
import Verif.Model.Checks
/-
C24-C29: format strings. Literal text, whitespace in the format, parsing always inside the string,
numbers in specifications, specifications read back, documented presentation types.
The vocabulary is in `Verif/Spec/Format.lean` (`matchText`, `escape`, `Written`) and
`Verif/Spec/Types.lean` (tables transcribed from the documentation).
-/
namespace Scn
open Spec
variable {V : Type}

/-- Every literal recorded in the history of a call is one run of the literal matcher. -/
theorem literal_events {env : Env V} {fmt src : List Nat} {res : Except Err (List Nat)} {evs : List (Event V)}
    (h : vscan env fmt src = some (res, evs)) {t s r : List Nat} {f : Option Err} (hm : Event.literal t s r f ∈ evs) :
    litLoop env t.length s t = some (r, f) := by
  rcases vscan_cases h with ⟨_, _, h3 | h3⟩ | ⟨st, h1, rfl, _⟩
  · obtain ⟨e, _, _, rfl⟩ := h3; simp at hm
  · obtain ⟨v, q, _, _, rfl⟩ := h3; simp at hm
  · unfold vscanGeneral at h1
    split at h1
    · exact absurd h1 (by simp)
    · rename_i st1 h2
      have g := parseLoop_inv (events_preserved (env := env)
        (fun ev => ∀ t s r f, ev = .literal t s r f → litLoop env t.length s t = some (r, f))
        (by intro t s r f hl t' s' r' f' he; cases he; exact hl) (by intro id s res _ t' s' r' f' he; cases he))
        _ _ _ _ (by intro ev hev; simp [FH.init] at hev) h2
      rw [(checkExhausted_events h1).1] at hm
      exact g _ hm _ _ _ _ rfl

/-- The source's whitespace skipper removes exactly the leading whitespace of well-formed text; true
    of the modelled one (`skip_contiguous`). -/
def SkipsSpace (env : Env V) : Prop :=
  ∀ cps : List Nat, (∀ cp ∈ cps, IsScalar cp) →
    env.skip (encodes env.enc cps) = some (encodes env.enc (cps.dropWhile isSpace))

example : SkipsSpace (intArgs [.int]) := fun cps h => skip_contiguous .utf8 cps h

/-! ### C24 -/

/-- C24, a whole format string of literal text: braces doubled, no whitespace, every character one
    code unit. The call succeeds exactly when the text is a prefix of the source, consumes exactly
    that, and otherwise reports `invalid_literal`. Missing from the full claim: characters of
    several code units (`C24_multi_unit_never_matches`). -/
theorem C24_literal_partial {env : Env V} (hc : env.count = 0) (hsk : SkipsSpace env) (t s : List Nat)
    (ht : ∀ cp ∈ t, IsScalar cp ∧ isSpace cp = false ∧ (encode env.enc cp).length = 1)
    (hs : ∀ cp ∈ s, IsScalar cp) :
    ∃ evs, vscan env (encodes env.enc (escape t)) (encodes env.enc s) =
      some (if t <+: s then .ok (encodes env.enc (s.drop t.length)) else .error .invalidLiteral, evs) := by
  obtain ⟨evs, res, h1, h2⟩ := vscan_literal env hc hsk t s (fun cp h => ⟨(ht cp h).1, Or.inr (ht cp h).2.2⟩) hs
  refine ⟨evs, ?_⟩
  rw [h1]
  have hm := matchText_text t (fun c h => (ht c h).2.1) s
  rcases h2 with ⟨rfl, h3⟩ | ⟨r, rfl, h3⟩
  · rw [if_neg]
    rintro ⟨r, hr⟩
    have := (h3 r ((hm r).2 hr.symm)).2
    apply this
    intro c hcl
    exact (ht c (List.mem_of_getLast? hcl)).2.1
  · have := (hm r).1 h3
    subst this
    rw [if_pos (List.prefix_append t r), List.drop_left]

/-- "{{a}}" matches "{a}" and leaves what follows; it does not match "{b}". -/
example : outcome (vscan (intArgs []) [123, 123, 97, 125, 125] [123, 97, 125, 33]) = some (.inr [33], []) ∧
    outcome (vscan (intArgs []) [123, 123, 97, 125, 125] [123, 98, 125]) = some (.inl .invalidLiteral, []) ∧
    encodes .utf8 (escape [123, 97, 125]) = [123, 123, 97, 125, 125] ∧
    ∀ cp ∈ [123, 97, 125], IsScalar cp ∧ isSpace cp = false ∧ (encode Enc.utf8 cp).length = 1 := by decide +kernel

/-- C24, literal text between fields: in any call, whatever the format string, a literal made of
    one-unit characters succeeds exactly when it is a prefix of the source at its position, consumes
    exactly that, and otherwise fails with `invalid_literal`. -/
theorem C24_literal_between_fields_partial {env : Env V} (hsk : SkipsSpace env) {fmt src : List Nat}
    {res : Except Err (List Nat)} {evs : List (Event V)} (h : vscan env fmt src = some (res, evs))
    (t s : List Nat) (ht : ∀ cp ∈ t, IsScalar cp ∧ isSpace cp = false ∧ (encode env.enc cp).length = 1)
    (hs : ∀ cp ∈ s, IsScalar cp) {r : List Nat} {f : Option Err}
    (hm : Event.literal (encodes env.enc t) (encodes env.enc s) r f ∈ evs) :
    (t <+: s → f = none ∧ r = encodes env.enc (s.drop t.length)) ∧ (¬ t <+: s → f = some .invalidLiteral) := by
  obtain ⟨r', f', h1, _, h3, h4, h5⟩ := litLoop_spec env hsk _ t s
    (fun cp h => ⟨(ht cp h).1, Or.inr (ht cp h).2.2⟩) hs (Nat.le_refl _)
  rw [literal_events h hm] at h1
  simp only [Option.some.injEq, Prod.mk.injEq] at h1
  obtain ⟨rfl, rfl⟩ := h1
  have hm' := matchText_text t (fun c h => (ht c h).2.1) s
  constructor
  · rintro ⟨q, hq⟩
    have hf := h5 q ((hm' q).2 hq.symm) (Or.inr fun c hcl => (ht c (List.mem_of_getLast? hcl)).2.1)
    refine ⟨hf, ?_⟩
    have := (hm' r').1 (h4 hf)
    rw [this, List.drop_left]
  · intro hn
    rcases h3 with rfl | rfl
    · exact absurd ⟨r', ((hm' r').1 (h4 rfl)).symm⟩ hn
    · rfl

/-- "{}kg" on "5kg": the literal event after the field. -/
example : literals (vscan (intArgs [.int]) [123, 125, 107, 103] [53, 107, 103, 33]) =
    some [([], [53, 107, 103, 33], [53, 107, 103, 33], none), ([107, 103], [107, 103, 33], [33], none)] := by
  decide +kernel

/-- C24 is violated for every character of several code units (every non-ASCII character in a
    narrow format string): as the first character of a literal it never matches, whatever the
    source. -/
theorem C24_multi_unit_never_matches {env : Env V} {fmt src : List Nat} {res : Except Err (List Nat)}
    {evs : List (Event V)} (h : vscan env fmt src = some (res, evs)) (cp : Nat) (hcp : IsScalar cp)
    (hsp : isSpace cp = false) (hmulti : (encode env.enc cp).length > 1) (t s r : List Nat) (f : Option Err)
    (hm : Event.literal (encode env.enc cp ++ t) s r f ∈ evs) : f ≠ none ∧ ∃ e, res = .error e := by
  have hf := litLoop_multi env _ cp hcp hsp hmulti s t r f (literal_events h hm)
  refine ⟨hf, ?_⟩
  unfold vscan at h
  split at h
  · rename_i hcase
    exfalso
    unfold scanSimple at h
    split at h <;> simp at h <;> rw [← h.2] at hm <;> simp at hm
  · simp only [Option.map_eq_some_iff, Prod.mk.injEq] at h
    obtain ⟨st, h1, h2, h3⟩ := h
    subst h3
    cases he : st.err with
    | some e => exact ⟨e, by rw [← h2, he]⟩
    | none => exact absurd ((general_quiet h1).2 he _ hm) (by simpa [Spec.failure] using hf)

/-- "Ä" does not match "Ä". -/
theorem C24_violated : ¬ ∀ (env : Env Int) (t s : List Nat), env.count = 0 → SkipsSpace env →
    (∀ cp ∈ t, IsScalar cp ∧ isSpace cp = false) → (∀ cp ∈ s, IsScalar cp) → t <+: s →
    ∃ evs, vscan env (encodes env.enc (escape t)) (encodes env.enc s) =
      some (.ok (encodes env.enc (s.drop t.length)), evs) := by
  intro H
  obtain ⟨evs, h⟩ := H (intArgs []) [0xC4] [0xC4] rfl (fun cps h => skip_contiguous .utf8 cps h) (by decide)
    (by decide) (List.prefix_refl _)
  have h2 : outcome (vscan (intArgs []) [0xC3, 0x84] [0xC3, 0x84]) = some (.inl .invalidFormatString, []) := by
    decide +kernel
  have h3 : vscan (intArgs []) [0xC3, 0x84] [0xC3, 0x84] = some (.ok [], evs) := h
  rw [h3] at h2
  simp [outcome] at h2

/-! ### C25 -/

/-- C25, a format string of text and whitespace, each whitespace character matching all whitespace
    (possibly none): success means the text matched that way, and the text matched that way means
    success unless it ends in whitespace and uses up the source. Missing from the full claim: that
    last case (`C25_violated`). -/
theorem C25_whitespace_partial {env : Env V} (hc : env.count = 0) (hsk : SkipsSpace env) (t s : List Nat)
    (ht : ∀ cp ∈ t, IsScalar cp ∧ (isSpace cp = true ∨ (encode env.enc cp).length = 1))
    (hs : ∀ cp ∈ s, IsScalar cp) :
    ∃ evs res, vscan env (encodes env.enc (escape t)) (encodes env.enc s) = some (res, evs) ∧
      (∀ rest, res = .ok rest → ∃ r, rest = encodes env.enc r ∧ matchText t s = some r) ∧
      (∀ r, matchText t s = some r → r ≠ [] ∨ (∀ c, t.getLast? = some c → isSpace c = false) →
        res = .ok (encodes env.enc r)) := by
  obtain ⟨evs, res, h1, h2⟩ := vscan_literal env hc hsk t s ht hs
  refine ⟨evs, res, h1, ?_, ?_⟩
  · rintro rest rfl
    rcases h2 with ⟨h, _⟩ | ⟨r, h, h3⟩
    · cases h
    · cases h; exact ⟨r, rfl, h3⟩
  · intro r hr hor
    rcases h2 with ⟨_, h⟩ | ⟨r', rfl, h3⟩
    · obtain ⟨h4, h5⟩ := h r hr
      rcases hor with h6 | h6
      · exact absurd h4 h6
      · exact absurd h6 h5
    · rw [hr] at h3; cases h3; rfl

/-- "a b" (with a tab and a next-line character too) on "ab" and on "a \t b". -/
example : matchText [97, 9, 0x85, 98] [97, 98, 99] = some [99] ∧ matchText [97, 32, 98] [97, 32, 9, 32, 98] = some [] ∧
    outcome (vscan (intArgs []) [97, 32, 98] [97, 98, 99]) = some (.inr [99], []) ∧
    outcome (vscan (intArgs []) [97, 9, 0xC2, 0x85, 98] [97, 32, 9, 0xC2, 0x85, 98]) = some (.inr [], []) := by
  decide +kernel

/-- C25, one whitespace character between fields: it consumes exactly the leading whitespace of a
    source that is not at its end; it never fails there. -/
theorem C25_between_fields_partial {env : Env V} (hsk : SkipsSpace env) {fmt src : List Nat}
    {res : Except Err (List Nat)} {evs : List (Event V)} (h : vscan env fmt src = some (res, evs))
    (ws s : List Nat) (hw : ∀ cp ∈ ws, IsScalar cp ∧ isSpace cp = true) (hne : ws ≠ [])
    (hs : ∀ cp ∈ s, IsScalar cp) (hmore : s.dropWhile isSpace ≠ []) {r : List Nat} {f : Option Err}
    (hm : Event.literal (encodes env.enc ws) (encodes env.enc s) r f ∈ evs) :
    f = none ∧ r = encodes env.enc (s.dropWhile isSpace) := by
  obtain ⟨r', f', h1, _, h3, h4, h5⟩ := litLoop_spec env hsk _ ws s
    (fun cp h => ⟨(hw cp h).1, Or.inl (hw cp h).2⟩) hs (Nat.le_refl _)
  rw [literal_events h hm] at h1
  simp only [Option.some.injEq, Prod.mk.injEq] at h1
  obtain ⟨rfl, rfl⟩ := h1
  have hidem : ∀ l : List Nat, (l.dropWhile isSpace).dropWhile isSpace = l.dropWhile isSpace := by
    intro l
    induction l with
    | nil => rfl
    | cons a l ih =>
      by_cases ha : isSpace a = true
      · rw [List.dropWhile_cons_of_pos ha]; exact ih
      · rw [List.dropWhile_cons_of_neg ha, List.dropWhile_cons_of_neg ha]
  have hmt : ∀ (l u : List Nat), (∀ cp ∈ l, isSpace cp = true) → matchText l (u.dropWhile isSpace) =
      some (u.dropWhile isSpace) := by
    intro l
    induction l with
    | nil => intro u _; rfl
    | cons a l ih =>
      intro u hl
      simp only [matchText, hl a (by simp), if_true, hidem]
      exact ih u fun c hc => hl c (by simp [hc])
  have hmatch : matchText ws s = some (s.dropWhile isSpace) := by
    cases ws with
    | nil => exact absurd rfl hne
    | cons a l =>
      simp only [matchText, (hw a (by simp)).2, if_true]
      exact hmt l s fun c hc => (hw c (by simp [hc])).2
  have hf := h5 _ hmatch (Or.inl hmore)
  refine ⟨hf, ?_⟩
  have := h4 hf
  rw [hmatch] at this
  rw [Option.some.inj this]

example : literals (vscan (intArgs [.int, .int]) [123, 125, 32, 123, 125] [49, 9, 10, 50]) =
    some [([], [49, 9, 10, 50], [49, 9, 10, 50], none), ([32], [9, 10, 50], [50], none), ([], [], [], none)] := by
  decide +kernel

/-- C25 is violated at the end of the source: "{} " on "42" fails although "possibly none" is
    present. -/
theorem C25_violated : ¬ ∀ (env : Env Int) (t s : List Nat), env.count = 0 → SkipsSpace env →
    (∀ cp ∈ t, IsScalar cp ∧ (isSpace cp = true ∨ (encode env.enc cp).length = 1)) → (∀ cp ∈ s, IsScalar cp) →
    ∀ r, matchText t s = some r →
      ∃ evs, vscan env (encodes env.enc (escape t)) (encodes env.enc s) = some (.ok (encodes env.enc r), evs) := by
  intro H
  obtain ⟨evs, h⟩ := H (intArgs []) [97, 32] [97] rfl (fun cps h => skip_contiguous .utf8 cps h) (by decide)
    (by decide) [] (by decide)
  have h2 : outcome (vscan (intArgs []) [97, 32] [97]) = some (.inl .invalidLiteral, []) := by decide +kernel
  have h3 : vscan (intArgs []) [97, 32] [97] = some (.ok [], evs) := h
  rw [h3] at h2
  simp [outcome] at h2

/-- The same after a field. -/
example : outcome (vscan (intArgs [.int]) [123, 125, 32] [52, 50]) = some (.inl .invalidLiteral, [(0, 42)]) := by
  decide +kernel

/-! ### C26 -/

/-- C26 at run time: for every sequence of format characters, every source and well-behaved
    readers, parsing ends and never reads outside the string (a read at the end of the string is
    undefined in the model) - for up to 63 arguments; those of the regex match types only if there is no `L` in the format string. -/
theorem C26_run_time_partial {env : Env V} {U : List Nat → Prop} {fmt : List Nat} (ho : EnvOk env U fmt) (hc : env.count < 64)
    (src : List Nat) (hU : U src) (hu : UnitsOk env.enc fmt) : ∃ st, vscanGeneral env fmt src = some st :=
  general_total ho hc src hU hu

example : EnvOk (intArgs [.int]) Bytes [123, 48, 48, 58, 91, 255, 123] ∧ UnitsOk .utf8 [123, 48, 48, 58, 91, 255, 123] :=
  ⟨intArgs_ok _ (by decide) _, fun _ => by decide⟩

/-- C26 at compile time: the checker reaches a verdict on every sequence of format characters, for
    any number of arguments; if there are regex match arguments, on those without `L`. -/
theorem C26_compile_time_partial {env : CTEnv} {fmt : List Nat} (ho : CTEnvOk env fmt) : ∃ c, compileCheck env fmt = some c :=
  compileCheck_total ho

example : CTEnvOk (intCheck [.int, .narrowString]) [123, 58, 76, 255, 123] ∧ CTEnvOk (intCheck [.int, .narrowRegex]) [123, 58, 47, 125, 123] :=
  ⟨⟨by decide⟩, ⟨by decide⟩⟩

/-- C26 for one specification: parsing ends at a position inside the string. -/
theorem C26_specs_partial (cfg : RegexCfg) (e : Enc) (ty : ArgTy) (st : Setter) (s : List Nat)
    (hty : (ty ≠ .narrowRegex ∧ ty ≠ .wideRegex) ∨ 76 ∉ s) : ∃ st' p, parseSpecs cfg e ty st s = some (st', p) ∧ p <:+ s :=
  parseSpecs_steps cfg e ty st s (hty.imp_left fun ⟨h1, h2⟩ => by cases ty <;> simp_all [ArgTy.category])

example : parseSpecs ⟨false, true, true⟩ .utf8 .int ⟨{}, false⟩ [255, 60] = some (⟨{}, true⟩, [60]) ∧
    parseSpecs ⟨false, true, true⟩ .utf8 .int ⟨{}, false⟩ [42, 60, 53, 46, 57, 76, 120, 125, 33] =
      some (⟨{ fill := ⟨[42, 0, 0, 0], 1⟩, align := .left, width := 5, precision := 9, localized := true,
               type := .intHex }, false⟩, [125, 33]) := by decide +kernel

/-- C26 is violated for regex match arguments: `L` in their specification reaches an assertion. -/
theorem C26_regex_localized_violated (cfg : RegexCfg) (e : Enc) (st : Setter) (rest : List Nat) :
    parseSpecs cfg e .narrowRegex st (76 :: 47 :: rest) = none := by
  rw [parseSpecs_long]
  have h1 := parseAlign_none e st 76 (47 :: rest) (by unfold PlainChar; decide)
    (by intro d hd; simp at hd; omega)
  rw [parseSpecsLong, unlessEnd_cons, h1, unlessEnd_cons, parseWidth_none _ _ _ (by decide), unlessEnd_cons,
    precStage_skip _ _ _ (by decide), unlessEnd_cons]
  rfl

example : parseSpecs ⟨false, true, true⟩ .utf8 .narrowRegex ⟨{}, false⟩ [76, 47, 97, 47, 125] = none := by decide +kernel

/-! ### C27 -/

/-- C27, width: any digit string is read to its exact value, or, when it exceeds the `int` range,
    rejected. -/
theorem C27_width (ds rest : List Nat) (hn : IsNumeral 10 ds) (hr : NoDigitFirst 10 rest) (st : Setter)
    (hp : st.specs.precision = 0) :
    (value 10 ds ≤ 2147483647 → parseWidth st (ds ++ rest) =
      some ({ st with specs := { st.specs with width := value 10 ds } }, rest)) ∧
    (value 10 ds > 2147483647 → ∃ st' p, parseWidth st (ds ++ rest) = some (st', p) ∧ st'.err = true) := by
  obtain ⟨h1, h2⟩ := parseWidth_digits st ds rest hn hr
  refine ⟨fun h => ?_, fun h => ?_⟩
  · rw [h1 h]
    simp [Setter.onWidth, hp]
  · obtain ⟨p, h3⟩ := h2 h
    exact ⟨_, p, h3, rfl⟩

example : IsNumeral 10 [48, 49, 50] ∧ NoDigitFirst 10 [125] ∧ value 10 [48, 49, 50] = 12 ∧
    value 10 [50, 49, 52, 55, 52, 56, 51, 54, 52, 56] = 2147483648 ∧
    (parseWidth ⟨{}, false⟩ [50, 49, 52, 55, 52, 56, 51, 54, 52, 56, 125]).map (fun r => r.1.err) = some true := by
  refine ⟨⟨by decide, ?_⟩, ?_, by decide +kernel, by decide +kernel, by decide +kernel⟩
  · intro c hc; rw [← isDec_iff]; revert c; decide
  · intro c hc; rw [← isDec_iff]; revert c; decide

/-- C27, precision: exact, unless it is below the width, which is rejected as well. -/
theorem C27_precision (ds rest : List Nat) (hn : IsNumeral 10 ds) (hr : NoDigitFirst 10 rest) (st : Setter) :
    (value 10 ds ≤ 2147483647 → st.specs.width ≤ value 10 ds → parsePrecision st (ds ++ rest) =
      some ({ st with specs := { st.specs with precision := value 10 ds } }, rest)) ∧
    (value 10 ds > 2147483647 ∨ value 10 ds < st.specs.width →
      ∃ st' p, parsePrecision st (ds ++ rest) = some (st', p) ∧ st'.err = true) := by
  obtain ⟨h1, h2⟩ := parsePrecision_digits st ds rest hn hr
  refine ⟨fun h hw => ?_, fun h => ?_⟩
  · rw [h1 h]
    simp only [Setter.onPrecision]
    rw [if_neg (by omega)]
  · by_cases hb : value 10 ds > 2147483647
    · obtain ⟨p, h3⟩ := h2 hb
      exact ⟨_, p, h3, rfl⟩
    · refine ⟨st.onError, rest, ?_, rfl⟩
      rw [h1 (by unfold intMax; omega)]
      simp only [Setter.onPrecision]
      rw [if_pos (by omega)]

example : parsePrecision ⟨{ width := 3 }, false⟩ [57, 57, 125] = some (⟨{ width := 3, precision := 99 }, false⟩, [125]) ∧
    (parsePrecision ⟨{ width := 3 }, false⟩ [50, 125]).map (fun r => r.1.err) = some true := by decide +kernel

/-- C27, argument ids: whatever handler the parser drives, the number `n` written in decimal is
    handed over as exactly `n`, or the error callback is called when it exceeds the `int` range. -/
theorem C27_arg_id {σ : Type} (H : Handler σ) (st : σ) (n d : Nat) (rest : List Nat) (hd : d = 125 ∨ d = 58) :
    (n ≤ 2147483647 → parseArgId H st (numeral 10 n ++ d :: rest) =
      some ((H.onManualId st n).1, (H.onManualId st n).2, d :: rest)) ∧
    (n > 2147483647 → ∃ p, parseArgId H st (numeral 10 n ++ d :: rest) = some (H.onError st, 0, p)) :=
  parseArgId_numeral H st n d rest hd

/-- C27, argument ids with a leading zero are rejected. -/
theorem C27_arg_id_leading_zero {σ : Type} (H : Handler σ) (st : σ) (c : Nat) (rest : List Nat) (hc : IsDigit 10 c) :
    parseArgId H st (48 :: c :: rest) = some (H.onError st, 0, c :: rest) :=
  parseArgId_leading_zero H st c rest hc

example : numeral 10 17 = [49, 55] ∧
    outcome (vscan (intArgs [.int]) [123, 48, 125] [55]) = some (.inr [], [(0, 7)]) ∧
    outcome (vscan (intArgs [.int]) [123, 48, 48, 125] [55]) = some (.inl .invalidFormatString, []) ∧
    outcome (vscan (intArgs [.int]) [123, 52, 50, 57, 52, 57, 54, 55, 50, 57, 54, 125] [55]) =
      some (.inl .invalidFormatString, []) := by decide +kernel

/-! ### C28 -/

/-- C28: a specification written in the documented grammar - any fill (not `{`, not `[`), any
    alignment, width and precision up to `INT_MAX` with width not above precision, `L` for numbers
    and Booleans, any documented letter - parses without error to the same fill, alignment, width,
    precision, `L` and type, and the parser stops at the closing brace. Missing from the full claim
    (see the `C28_violated_…` theorems): the fill `[`, fills above U+00FF in wide format strings,
    `L` on other types, an empty specification followed by an alignment character. -/
theorem C28_roundtrip_partial (cfg : RegexCfg) (e : Enc) (ty : ArgTy) (w : Written) (rest : List Nat)
    (hfill : ∀ cp a, w.align = some (some cp, a) → IsScalar cp ∧ cp ≠ 123 ∧ cp ≠ 91 ∧ (e ≠ .utf8 → cp < 256))
    (halign : ∀ f a, w.align = some (f, a) → a = 60 ∨ a = 62 ∨ a = 94)
    (hwidth : ∀ n, w.width = some n → n ≤ 2147483647)
    (hprec : ∀ n, w.precision = some n → n ≤ 2147483647 ∧ w.width.getD 0 ≤ n)
    (hloc : w.localized = true → ty.category = some .integer ∨ ty.category = some .unsignedInteger ∨
      ty.category = some .floating ∨ ty.category = some .boolean)
    (hletter : ∀ c, w.letter = some c → ∃ p, letterMeaning c = some p)
    (hfollow : w.render e = [] → ∀ d, rest.head? = some d → d ≠ 60 ∧ d ≠ 62 ∧ d ≠ 94) :
    ∃ sp : Specs, parseSpecs cfg e ty ⟨{}, false⟩ (w.render e ++ 125 :: rest) = some (⟨sp, false⟩, 125 :: rest) ∧
      sp.fill.units e = encode e ((w.align.bind Prod.fst).getD 32) ∧
      sp.align = ((w.align.map fun x => alignMeaning x.2).getD .none) ∧
      sp.width = w.width.getD 0 ∧ sp.precision = w.precision.getD 0 ∧ sp.localized = w.localized ∧
      sp.type = (w.letter.bind letterMeaning).getD .none := by
  obtain ⟨sp, h1, h2, h3, h4, h5, h6, h7, _⟩ := parseSpecs_written cfg e ty w rest
    ⟨fun f a h => ⟨halign f a h, fun cp hcp => hfill cp a (by rw [h, hcp])⟩, hwidth, hprec, hloc, hletter, hfollow⟩
  exact ⟨sp, h1, h7, h6, h2, h3, h4, h5⟩

/-- "Ä^5.10Lx": everything at once. -/
example : Written.render .utf8 ⟨some (some 0xC4, 94), some 5, some 10, true, some 120⟩ =
      [0xC3, 0x84, 94, 53, 46, 49, 48, 76, 120] ∧ ArgTy.int.category = some .integer ∧
    letterMeaning 120 = some .intHex ∧
    parseSpecs ⟨false, true, true⟩ .utf8 .int ⟨{}, false⟩ [0xC3, 0x84, 94, 53, 46, 49, 48, 76, 120, 125, 33] =
      some (⟨{ fill := ⟨[0xC3, 0x84, 0, 0], 2⟩, align := .center, width := 5, precision := 10, localized := true,
               type := .intHex }, false⟩, [125, 33]) := by decide +kernel

/-- The width and precision contradicting each other is rejected. -/
theorem C28_width_above_precision_rejected (n m : Nat) (rest : List Nat) (hn : n ≤ 2147483647) (hm : m < n)
    (cfg : RegexCfg) (e : Enc) (ty : ArgTy) :
    ∃ st p, parseSpecs cfg e ty ⟨{}, false⟩ (numeral 10 n ++ 46 :: numeral 10 m ++ 125 :: rest) = some (st, p) ∧
      st.err = true := by
  rw [parseSpecs_long]
  obtain ⟨c, cs, hc, hd⟩ := numeral_cons n
  obtain ⟨_, hdig⟩ := numeral_isNumeral 10 n (by omega) (by omega)
  have hpl := plain_digit hd
  have hal : parseAlign e ⟨{}, false⟩ (numeral 10 n ++ 46 :: numeral 10 m ++ 125 :: rest) =
      some (⟨{}, false⟩, numeral 10 n ++ 46 :: numeral 10 m ++ 125 :: rest) := by
    rw [hc]
    refine parseAlign_none e _ c _ hpl ?_
    intro d hdd
    cases cs with
    | nil => simp at hdd; omega
    | cons a as =>
      simp at hdd; subst hdd
      have := plain_digit ((isDec_iff a).2 (hdig a (by rw [hc]; simp)))
      exact ⟨this.2.1, this.2.2.1, this.2.2.2.1⟩
  have hw := (parseWidth_digits ⟨{}, false⟩ (numeral 10 n) (46 :: numeral 10 m ++ 125 :: rest)
    (numeral_isNumeral 10 n (by omega) (by omega)) (plain_of_noDigit _ _ (by decide))).1
    (by rw [numeral_value 10 n (by omega) (by omega)]; exact hn)
  rw [numeral_value 10 n (by omega) (by omega)] at hw
  have hp := (parsePrecision_digits ⟨{ width := n }, false⟩ (numeral 10 m) (125 :: rest)
    (numeral_isNumeral 10 m (by omega) (by omega)) (plain_of_noDigit _ _ (by decide))).1
    (by rw [numeral_value 10 m (by omega) (by omega)]; unfold intMax; omega)
  rw [numeral_value 10 m (by omega) (by omega)] at hp
  have hp' : precStage ⟨{ width := n }, false⟩ (46 :: numeral 10 m ++ 125 :: rest) =
      some (⟨{ width := n }, true⟩, 125 :: rest) := by
    show unlessEnd (some (_, numeral 10 m ++ 125 :: rest)) _ = _
    rw [unlessEnd_ne _ _ (by simp), hp, unlessEnd_cons]
    simp only [Setter.onPrecision]
    rw [if_pos hm]
    rfl
  refine ⟨⟨{ width := n }, true⟩, 125 :: rest, ?_, rfl⟩
  unfold parseSpecsLong
  rw [unlessEnd_ne _ _ (by simp), hal, unlessEnd_ne _ _ (by simp), List.append_assoc, hw]
  show unlessEnd (precStage ⟨{ width := n }, false⟩ (46 :: numeral 10 m ++ 125 :: rest)) _ = _
  rw [hp', unlessEnd_cons, locStage_skip _ _ _ _ (by decide), unlessEnd_cons]
  rfl

example : (parseSpecs ⟨false, true, true⟩ .utf8 .int ⟨{}, false⟩ [53, 46, 51, 125]).map (fun r => r.1.err) = some true := by
  decide +kernel

/-- C28 is violated: the fill `[` (documented: any character but `{` and `}`) is taken for a
    character set. -/
theorem C28_violated_bracket_fill :
    Written.render .utf8 ⟨some (some 91, 60), some 5, none, false, none⟩ = [91, 60, 53] ∧
    (parseSpecs ⟨false, true, true⟩ .utf8 .int ⟨{}, false⟩ [91, 60, 53, 125]).map (fun r => r.1.err) = some true := by
  decide +kernel

/-- C28 is violated: in a wide format string the fill U+2014 is read back as U+0014. -/
theorem C28_violated_wide_fill :
    Written.render .utf32 ⟨some (some 0x2014, 60), some 5, none, false, none⟩ = [0x2014, 60, 53] ∧
    (parseSpecs ⟨false, true, true⟩ .utf32 .int ⟨{}, false⟩ [0x2014, 60, 53, 125]).map
      (fun r => (r.1.err, r.1.specs.fill.units .utf32)) = some (false, [0x14]) := by decide +kernel

/-- C28 is violated for every fill above U+00FF in a wide format string: of any character that is one unit the low eight
    bits are kept, whatever it is and whatever follows. -/
theorem C28_wide_fill_truncated (cfg : RegexCfg) (ty : ArgTy) (e : Enc) (he : e ≠ .utf8) (c a : Nat)
    (hc : c ≠ 123 ∧ c ≠ 91) (ha : a = 60 ∨ a = 62 ∨ a = 94) (rest : List Nat) :
    ∃ sp : Specs, parseSpecs cfg e ty ⟨{}, false⟩ (c :: a :: 125 :: rest) = some (⟨sp, false⟩, 125 :: rest) ∧
      sp.align = alignMeaning a ∧ sp.fill.units e = [c % 256] := by
  have hf : fillLength e c = 1 := by cases e <;> first | exact absurd rfl he | rfl
  have hm : checkAlign a ≠ .none ∧ checkAlign a = alignMeaning a := by rcases ha with rfl | rfl | rfl <;> decide
  have hfill : ∃ f, Fill.assign e [c] = some f ∧ f.units e = [c % 256] := by
    cases e with
    | utf8 => exact absurd rfl he
    | utf16 => exact ⟨_, rfl, by simp [Fill.units]⟩
    | utf32 => exact ⟨_, rfl, by simp [Fill.units]⟩
  obtain ⟨f, hf1, hf2⟩ := hfill
  have hal : parseAlign e ⟨{}, false⟩ (c :: a :: 125 :: rest) = some (⟨{ fill := f, align := checkAlign a }, false⟩, 125 :: rest) := by
    simp only [parseAlign, hf]
    rw [if_neg (by simp)]
    simp only [List.drop_succ_cons, List.drop_zero, List.take_succ_cons, List.take_zero]
    rw [if_neg (by omega), if_neg (by omega), if_neg hm.1]
    simp only [Setter.onFill, hf1, Option.map_some]
    rfl
  refine ⟨{ fill := f, align := checkAlign a }, ?_, hm.2, hf2⟩
  rw [parseSpecs_long, parseSpecsLong, unlessEnd_cons, hal, unlessEnd_cons, parseWidth_none _ _ _ (by decide), unlessEnd_cons,
    precStage_skip _ _ _ (by decide), unlessEnd_cons, locStage_skip _ _ _ _ (by decide), unlessEnd_cons]
  rfl

/-- C28 is violated: a fill that is a surrogate pair in a UTF-16 format string is always rejected. -/
theorem C28_pair_fill_rejected (cfg : RegexCfg) (ty : ArgTy) (cp a : Nat) (h1 : 0x10000 ≤ cp) (h2 : cp ≤ 0x10FFFF) (rest : List Nat) :
    ∃ st p, parseSpecs cfg .utf16 ty ⟨{}, false⟩ (encode .utf16 cp ++ a :: rest) = some (st, p) ∧ st.err = true := by
  have henc : ∃ h l, encode .utf16 cp = [h, l] ∧ 0xD800 ≤ h ∧ 0xDC00 ≤ l := by
    refine ⟨_, _, (by show Spec.utf16 cp = _; unfold Spec.utf16; rw [if_neg (by omega)]), by omega, by omega⟩
  obtain ⟨h, l, henc, hh, hl⟩ := henc
  rw [henc]
  show ∃ st p, parseSpecs cfg .utf16 ty ⟨{}, false⟩ (h :: l :: a :: rest) = some (st, p) ∧ st.err = true
  have hal : parseAlign .utf16 ⟨{}, false⟩ (h :: l :: a :: rest) = some (⟨{}, false⟩, h :: l :: a :: rest) := by
    have hf : fillLength .utf16 h = 1 := rfl
    simp only [parseAlign, hf]
    rw [if_neg (by simp)]
    simp only [List.drop_succ_cons, List.drop_zero]
    rw [if_neg (by omega), if_neg (by omega), if_pos (checkAlign_none (by omega)), if_neg (by rw [checkAlign_none (by omega)]; simp)]
  have hd : isDec h = false := by simp only [isDec, Bool.and_eq_false_iff, decide_eq_false_iff_not]; omega
  have hpt : parsePresType h = some .none := by
    unfold parsePresType
    repeat rw [if_neg (by omega)]
  have hp : parsePresentation cfg .utf16 ⟨{}, false⟩ (h :: l :: a :: rest) = some (⟨{}, true⟩, l :: a :: rest) := by
    simp only [parsePresentation]
    rw [if_neg (by omega), if_neg (by omega), hpt]
    rfl
  refine ⟨⟨{}, true⟩, l :: a :: rest, ?_, rfl⟩
  rw [parseSpecs_long, parseSpecsLong, unlessEnd_cons, hal, unlessEnd_cons, parseWidth_none _ _ _ hd, unlessEnd_cons,
    precStage_skip _ _ _ (by omega), unlessEnd_cons, locStage_skip _ _ _ _ (by omega), unlessEnd_cons,
    typeStage_pres _ _ _ _ _ (by omega), hp]
  rfl

example : (parseSpecs ⟨false, true, true⟩ .utf16 .int ⟨{}, false⟩ [0x2014, 62, 125]).map (fun r => (r.1.err, r.1.specs.fill.units .utf16)) =
      some (false, [0x14]) ∧
    (parseSpecs ⟨false, true, true⟩ .utf16 .int ⟨{}, false⟩ (encode .utf16 0x1F600 ++ [62, 125])).map (fun r => r.1.err) = some true := by
  decide +kernel
/-- C28 is violated: `L` is documented to have no effect on strings, but is rejected. -/
theorem C28_violated_localized_string :
    (parseSpecs ⟨false, true, true⟩ .utf8 .narrowString ⟨{}, false⟩ [76, 125]).map (fun r => r.1.err) = some true := by
  decide +kernel

/-- C28 is violated: in "{:}<" the empty specification's closing brace is taken for a fill, and the
    field never ends. -/
theorem C28_violated_empty_before_align :
    Written.render .utf8 {} = [] ∧
    parseSpecs ⟨false, true, true⟩ .utf8 .int ⟨{}, false⟩ [125, 60] =
      some (⟨{ fill := ⟨[125, 0, 0, 0], 1⟩, align := .left }, true⟩, []) := by decide +kernel

/-! ### C29 -/

/-- C29 at run time: for every built-in argument type and every specification (any width, fill, set,
    ...) without `L`, the check accepts exactly the documented presentation types, `c` on strings
    exactly with a precision, as documented. (Regex arguments need a pattern.) Missing from the full claim:
    `c` and `r` on integers and `c` on `char`/`wchar_t` (`C29_violated_…`). -/
theorem C29_run_time_partial (ty : ArgTy) (hty : ty ∈ builtin) (sp : Specs) (hloc : sp.localized = false)
    (hpat : ty = .narrowRegex ∨ ty = .wideRegex → sp.setString ≠ [])
    (hexc : ¬ ((sp.type = .character ∨ sp.type = .intArbitrary) ∧
      (ty.category = some .integer ∨ ty.category = some .unsignedInteger)))
    (hexc2 : ¬ (sp.type = .character ∧ (ty = .narrowChar ∨ ty = .wideChar))) :
    runTypeCheck ty sp = some (decide (sp.type ∈ documented ty ∧
      (sp.type = .character → ty.category = some .string → sp.precision ≠ 0))) := by
  obtain ⟨w, p, f, t, l, na, inv, ss, rf, al, lo⟩ := sp
  dsimp only at hloc hpat hexc hexc2
  subst hloc
  cases ty <;> cases t <;>
    simp_all [runTypeCheck, checkInt, checkBool, checkChar, checkCodePoint, checkFloat, checkString, checkPointer,
      checkRegex, documented, Pres.ord, ArgTy.category, builtin]
  all_goals rfl

example : runTypeCheck .double { type := .floatFixed } = some true ∧ runTypeCheck .double { type := .intHex } = some false ∧
    runTypeCheck .narrowString { type := .character, precision := 3 } = some true ∧
    runTypeCheck .narrowString { type := .character } = some false ∧
    Pres.floatFixed ∈ documented .double ∧ Pres.intHex ∉ documented .double := by decide

/-- C29, the compile-time check says what the run-time check says, for every specification, except
    for code points (`char32_t`) and regex arguments without a pattern. -/
theorem C29_compile_agrees_partial (ty : ArgTy) (sp : Specs) (h1 : ty ≠ .codePoint)
    (h2 : ty = .narrowRegex ∨ ty = .wideRegex → sp.setString ≠ []) : compileTypeCheck ty sp = runTypeCheck ty sp := by
  cases ty <;> simp_all [compileTypeCheck, runTypeCheck]

example : compileTypeCheck .bool { type := .string } = some true := by decide

/-- C29, with `L`: integers additionally reject `b`; nothing else changes. -/
theorem C29_localized (ty : ArgTy) (sp : Specs) :
    runTypeCheck ty { sp with localized := true } =
      if (ty.category = some .integer ∨ ty.category = some .unsignedInteger) ∧ sp.type = .intBinary then some false
      else runTypeCheck ty { sp with localized := false } := by
  obtain ⟨w, p, f, t, l, na, inv, ss, rf, al, lo⟩ := sp
  cases ty <;> cases t <;>
    simp [runTypeCheck, checkInt, checkBool, checkChar, checkCodePoint, checkFloat, checkString, checkPointer,
      checkRegex, Pres.ord, ArgTy.category]

example : runTypeCheck .int { type := .intHex, localized := true } = some true ∧
    runTypeCheck .int { type := .intBinary, localized := true } = some false := by decide

/-- C29 is violated: `c` and `r` are documented for integers, `c` for `char`, and `c` is the only
    letter for `char32_t`, which the compile-time check rejects while accepting all the integer
    letters that the run-time check rejects. The documented letter `O` is no letter at all. -/
theorem C29_violated (sp : Specs) :
    (Pres.character ∈ documented .int ∧ runTypeCheck .int { sp with type := .character } = some false) ∧
    (Pres.intArbitrary ∈ documented .int ∧ runTypeCheck .int { sp with type := .intArbitrary } = some false) ∧
    (Pres.character ∈ documented .narrowChar ∧ runTypeCheck .narrowChar { sp with type := .character } = some false) ∧
    (Pres.character ∈ documented .codePoint ∧ compileTypeCheck .codePoint { sp with type := .character } = some false ∧
      runTypeCheck .codePoint { sp with type := .character } = some true) ∧
    (Pres.intHex ∉ documented .codePoint ∧ compileTypeCheck .codePoint { sp with type := .intHex } = some true ∧
      runTypeCheck .codePoint { sp with type := .intHex } = some false) ∧
    parsePresType 79 = some .none := by
  refine ⟨⟨by decide, rfl⟩, ⟨by decide, rfl⟩, ⟨by decide, rfl⟩, ⟨by decide, rfl, rfl⟩, ⟨by decide, rfl, rfl⟩, rfl⟩

example : runTypeCheck .int { type := .character } = some false := by decide

end Scn
