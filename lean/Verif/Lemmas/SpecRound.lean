import Verif.Lemmas.Format2
import Verif.Lemmas.Literal
import Verif.Spec.Types
/-
Writing a format specification and parsing it back.
-/
namespace Scn
open Spec

/-- The precision step of `parse_format_specs`. -/
def precStage (st : Setter) (s : List Nat) : Option (Setter × List Nat) :=
  match s with
  | 46 :: s1 => unlessEnd (some (st, s1)) fun st s => unlessEnd (parsePrecision st s) fun st s => some (st, s)
  | s => some (st, s)

/-- The `L` step. -/
def locStage (ty : ArgTy) (st : Setter) (s : List Nat) : Option (Setter × List Nat) :=
  match s with
  | 76 :: s1 => (st.onLocalized ty).map fun st => (st, s1)
  | s => some (st, s)

/-- The type step. -/
def typeStage (cfg : RegexCfg) (e : Enc) (st : Setter) (s : List Nat) : Option (Setter × List Nat) :=
  match s with
  | 125 :: _ => some (st, s)
  | s => parsePresentation cfg e st s

/-- The part of `parse_format_specs` after the one-letter short cut. -/
def parseSpecsLong (cfg : RegexCfg) (e : Enc) (ty : ArgTy) (st : Setter) (s : List Nat) : Option (Setter × List Nat) :=
  unlessEnd (some (st, s)) fun st s =>
  unlessEnd (parseAlign e st s) fun st s =>
  unlessEnd (parseWidth st s) fun st s =>
  unlessEnd (precStage st s) fun st s =>
  unlessEnd (locStage ty st s) fun st s =>
  unlessEnd (typeStage cfg e st s) fun st s => some (st, s)

theorem precStage_skip (st : Setter) (c : Nat) (cs : List Nat) (h : c ≠ 46) : precStage st (c :: cs) = some (st, c :: cs) := by
  unfold precStage
  split
  · rename_i hx; simp at hx; exact absurd hx.1 h
  · rfl

theorem locStage_skip (ty : ArgTy) (st : Setter) (c : Nat) (cs : List Nat) (h : c ≠ 76) :
    locStage ty st (c :: cs) = some (st, c :: cs) := by
  unfold locStage
  split
  · rename_i hx; simp at hx; exact absurd hx.1 h
  · rfl

theorem typeStage_pres (cfg : RegexCfg) (e : Enc) (st : Setter) (c : Nat) (cs : List Nat) (h : c ≠ 125) :
    typeStage cfg e st (c :: cs) = parsePresentation cfg e st (c :: cs) := by
  unfold typeStage
  split
  · rename_i hx; simp at hx; exact absurd hx.1 h
  · rfl

theorem unlessEnd_cons (st : Setter) (c : Nat) (cs : List Nat) (k : Setter → List Nat → Option (Setter × List Nat)) :
    unlessEnd (some (st, c :: cs)) k = k st (c :: cs) := rfl

theorem unlessEnd_ne (st : Setter) (s : List Nat) (hs : s ≠ []) (k : Setter → List Nat → Option (Setter × List Nat)) :
    unlessEnd (some (st, s)) k = k st s := by
  cases s with
  | nil => exact absurd rfl hs
  | cons c cs => rfl

/-- A plain ASCII character: not an alignment character, not an opening brace or bracket. -/
def PlainChar (c : Nat) : Prop := c < 128 ∧ c ≠ 60 ∧ c ≠ 62 ∧ c ≠ 94 ∧ c ≠ 123 ∧ c ≠ 91

theorem checkAlign_none {c : Nat} (h : c ≠ 60 ∧ c ≠ 62 ∧ c ≠ 94) : checkAlign c = .none := by
  unfold checkAlign; simp [h.1, h.2.1, h.2.2]

theorem fillLength_ascii (e : Enc) (c : Nat) (h : c < 128) : fillLength e c = 1 := by
  cases e with
  | utf8 =>
    show cpLength8 c = 1
    have := (encode_head .utf8 c ⟨by omega, by omega⟩)
    obtain ⟨a, as, h1, h2, _⟩ := this
    rw [encode_ascii .utf8 c h] at h1
    simp only [List.cons.injEq] at h1
    obtain ⟨rfl, rfl⟩ := h1
    exact h2
  | utf16 => rfl
  | utf32 => rfl

/-- No alignment written: `parse_align` does nothing. -/
theorem parseAlign_none (e : Enc) (st : Setter) (c : Nat) (cs : List Nat) (hc : PlainChar c)
    (hd : ∀ d, cs.head? = some d → d ≠ 60 ∧ d ≠ 62 ∧ d ≠ 94) : parseAlign e st (c :: cs) = some (st, c :: cs) := by
  obtain ⟨h1, h2, h3, h4, h5, h6⟩ := hc
  have hl : (1 : Nat) = 0 ∨ (c :: cs).length < 1 ↔ False := by simp
  simp only [parseAlign, fillLength_ascii e c h1]
  rw [if_neg (by simp)]
  cases cs with
  | nil => rfl
  | cons d ds =>
    have hd := hd d rfl
    simp only [List.drop_succ_cons, List.drop_zero]
    rw [if_neg (by omega), if_neg (by omega), if_pos (checkAlign_none hd)]
    simp [checkAlign_none ⟨h2, h3, h4⟩]

theorem checkAlign_of {a : Nat} (h : a = 60 ∨ a = 62 ∨ a = 94) : checkAlign a ≠ .none := by
  rcases h with rfl | rfl | rfl <;> decide

/-- Only an alignment character. -/
theorem parseAlign_align (e : Enc) (st : Setter) (a c : Nat) (cs : List Nat) (ha : a = 60 ∨ a = 62 ∨ a = 94)
    (hc : c ≠ 60 ∧ c ≠ 62 ∧ c ≠ 94) :
    parseAlign e st (a :: c :: cs) = some (st.onAlign (checkAlign a), c :: cs) := by
  have h1 : a < 128 := by omega
  simp only [parseAlign, fillLength_ascii e a h1]
  rw [if_neg (by simp)]
  simp only [List.drop_succ_cons, List.drop_zero]
  rw [if_neg (by omega), if_neg (by omega), if_pos (checkAlign_none hc), if_pos (checkAlign_of ha)]

/-- Fill and alignment. -/
theorem parseAlign_fill (e : Enc) (st : Setter) (cp a : Nat) (cs : List Nat) (ha : a = 60 ∨ a = 62 ∨ a = 94)
    (hcp : IsScalar cp) (h1 : cp ≠ 123) (h2 : cp ≠ 91) (hw : e = .utf16 → cp < 65536) :
    ∃ f, Fill.assign e (encode e cp) = some f ∧
      parseAlign e st (encode e cp ++ a :: cs) =
        some (({ st with specs := { st.specs with fill := f } } : Setter).onAlign (checkAlign a), cs) := by
  obtain ⟨c, us, hc, hl, _⟩ := encode_head e cp hcp
  have hlen : fillLength e c = (encode e cp).length := by
    cases e with
    | utf8 => rw [hc]; exact hl
    | utf16 =>
      have : encode .utf16 cp = [cp] := by
        show utf16 cp = [cp]
        unfold utf16
        rw [if_pos (hw rfl)]
      rw [this]; rfl
    | utf32 => rfl
  have hf : ∃ f, Fill.assign e (encode e cp) = some f := by
    cases e with
    | utf8 =>
      show ∃ f, Fill.assign .utf8 (utf8 cp) = some f
      rcases utf8_cases cp with ⟨_, hx⟩ | ⟨_, hx⟩ | ⟨_, hx⟩ | ⟨_, hx⟩ <;> rw [hx] <;> exact ⟨_, rfl⟩
    | utf16 =>
      have : encode .utf16 cp = [cp] := by
        show utf16 cp = [cp]
        unfold utf16
        rw [if_pos (hw rfl)]
      rw [this]; exact ⟨_, rfl⟩
    | utf32 => exact ⟨_, rfl⟩
  obtain ⟨f, hf⟩ := hf
  refine ⟨f, hf, ?_⟩
  have hbr : ∀ x, x < 128 → cp ≠ x → (encode e cp).length = 1 → c ≠ x := by
    rintro x hx hne h1 rfl
    have hmem : c ∈ encode e cp := by rw [hc]; simp
    have := encode_mem_ascii e cp c hcp hmem (by omega)
    exact hne this
  have e1 : encode e cp ++ a :: cs = c :: (us ++ a :: cs) := by rw [hc]; rfl
  have e2 : (c :: (us ++ a :: cs)).take (encode e cp).length = encode e cp := by rw [← e1, List.take_left]
  have e3 : (c :: (us ++ a :: cs)).drop (encode e cp).length = a :: cs := by rw [← e1, List.drop_left]
  have hpos : 0 < (encode e cp).length := by rw [hc]; simp
  have hle : ¬ ((encode e cp).length = 0 ∨ (c :: (us ++ a :: cs)).length < (encode e cp).length) := by
    rw [← e1, List.length_append]; omega
  rw [e1]
  simp only [parseAlign]
  rw [hlen]
  simp only [e2, e3]
  rw [if_neg hle, if_neg (fun h => hbr 123 (by omega) h1 h.1 h.2), if_neg (fun h => hbr 91 (by omega) h2 h.1 h.2),
    if_neg (checkAlign_of ha)]
  simp only [Setter.onFill, hf, Option.map_some]

/-- What the fill stored for a written fill character denotes. -/
theorem fill_units (e : Enc) (cp : Nat) (hw : e ≠ .utf8 → cp < 256) (f : Fill)
    (h : Fill.assign e (encode e cp) = some f) : f.units e = encode e cp := by
  cases e with
  | utf8 =>
    replace h : Fill.assign .utf8 (utf8 cp) = some f := h
    show f.units .utf8 = utf8 cp
    rcases utf8_cases cp with ⟨_, hx⟩ | ⟨_, hx⟩ | ⟨_, hx⟩ | ⟨_, hx⟩ <;> rw [hx] at h ⊢ <;>
      simp only [Fill.assign, List.length_cons, List.length_nil] at h <;> simp at h <;> subst h <;>
      simp [Fill.units]
  | utf16 =>
    have hlt := hw (by simp)
    have he : encode .utf16 cp = [cp] := by
      show utf16 cp = [cp]
      unfold utf16
      rw [if_pos (by omega)]
    rw [he] at h ⊢
    simp only [Fill.assign, Option.some.injEq] at h
    subst h
    simp [Fill.units, Nat.mod_eq_of_lt hlt]
  | utf32 =>
    have hlt := hw (by simp)
    replace h : Fill.assign .utf32 [cp] = some f := h
    show f.units .utf32 = [cp]
    simp only [Fill.assign, Option.some.injEq] at h
    subst h
    simp [Fill.units, Nat.mod_eq_of_lt hlt]

/-! ### Width and precision -/

theorem parseWidth_none (st : Setter) (c : Nat) (cs : List Nat) (h : isDec c = false) :
    parseWidth st (c :: cs) = some (st, c :: cs) := by
  simp [parseWidth, h]

theorem numeral_cons (n : Nat) : ∃ c cs, numeral 10 n = c :: cs ∧ isDec c = true := by
  obtain ⟨hne, hd⟩ := numeral_isNumeral 10 n (by omega) (by omega)
  cases h : numeral 10 n with
  | nil => exact absurd h hne
  | cons c cs => exact ⟨c, cs, rfl, (isDec_iff c).2 (hd c (by rw [h]; simp))⟩

theorem parseWidth_digits (st : Setter) (ds rest : List Nat) (hn : IsNumeral 10 ds) (hr : NoDigitFirst 10 rest) :
    (value 10 ds ≤ intMax → parseWidth st (ds ++ rest) = some (st.onWidth (value 10 ds), rest)) ∧
    (value 10 ds > intMax → ∃ p, parseWidth st (ds ++ rest) = some (st.onError, p)) := by
  obtain ⟨c, cs, rfl⟩ : ∃ c cs, ds = c :: cs := by
    cases ds with
    | nil => exact absurd rfl hn.1
    | cons c cs => exact ⟨c, cs, rfl⟩
  have hc : isDec c = true := (isDec_iff c).2 (hn.2 c (by simp))
  obtain ⟨h1, h2⟩ := parseSimpleInt_value (c :: cs) rest hn hr
  have hp : parseWidth st (c :: cs ++ rest) = (parseSimpleInt (c :: cs ++ rest)).map fun r =>
        if r.1 ≠ -1 then (st.onWidth r.1.toNat, r.2) else (st.onError, r.2) := by
    simp only [List.cons_append, parseWidth, hc, if_true]
  rw [hp]
  refine ⟨fun h => ?_, fun h => ?_⟩
  · rw [h1 h]
    simp only [Option.map_some, Int.toNat_natCast]
    rw [if_pos (by omega)]
  · obtain ⟨d, p, h3, _⟩ := h2 h
    exact ⟨d :: p, by rw [h3]; rfl⟩

theorem parsePrecision_digits (st : Setter) (ds rest : List Nat) (hn : IsNumeral 10 ds) (hr : NoDigitFirst 10 rest) :
    (value 10 ds ≤ intMax → parsePrecision st (ds ++ rest) = some (st.onPrecision (value 10 ds), rest)) ∧
    (value 10 ds > intMax → ∃ p, parsePrecision st (ds ++ rest) = some (st.onError, p)) := by
  obtain ⟨c, cs, rfl⟩ : ∃ c cs, ds = c :: cs := by
    cases ds with
    | nil => exact absurd rfl hn.1
    | cons c cs => exact ⟨c, cs, rfl⟩
  have hc : isDec c = true := (isDec_iff c).2 (hn.2 c (by simp))
  obtain ⟨h1, h2⟩ := parseSimpleInt_value (c :: cs) rest hn hr
  have hp : parsePrecision st (c :: cs ++ rest) = (parseSimpleInt (c :: cs ++ rest)).map fun r =>
        if r.1 ≠ -1 then (st.onPrecision r.1.toNat, r.2) else (st.onError, r.2) := by
    simp only [List.cons_append, parsePrecision, hc, if_true]
  rw [hp]
  refine ⟨fun h => ?_, fun h => ?_⟩
  · rw [h1 h]
    simp only [Option.map_some, Int.toNat_natCast]
    rw [if_pos (by omega)]
  · obtain ⟨d, p, h3, _⟩ := h2 h
    exact ⟨d :: p, by rw [h3]; rfl⟩

/-! ### A whole specification -/

/-- What may be written, and what the parser is known to read back: the conditions on the fill, on
    the numbers, on `L`, and on what follows an empty specification. -/
structure Spec.Written.Readable (e : Enc) (ty : ArgTy) (w : Written) (rest : List Nat) : Prop where
  align : ∀ f a, w.align = some (f, a) → (a = 60 ∨ a = 62 ∨ a = 94) ∧
    ∀ cp, f = some cp → IsScalar cp ∧ cp ≠ 123 ∧ cp ≠ 91 ∧ (e ≠ .utf8 → cp < 256)
  width : ∀ n, w.width = some n → n ≤ 2147483647
  precision : ∀ n, w.precision = some n → n ≤ 2147483647 ∧ w.width.getD 0 ≤ n
  localized : w.localized = true → ty.category = some .integer ∨ ty.category = some .unsignedInteger ∨
    ty.category = some .floating ∨ ty.category = some .boolean
  letter : ∀ c, w.letter = some c → ∃ p, letterMeaning c = some p
  follow : w.render e = [] → ∀ d, rest.head? = some d → d ≠ 60 ∧ d ≠ 62 ∧ d ≠ 94

theorem letter_facts {c : Nat} {p : Pres} (h : letterMeaning c = some p) :
    parsePresType c = some p ∧ p ≠ .none ∧ PlainChar c ∧ isDec c = false ∧ c ≠ 46 ∧ c ≠ 76 ∧ c ≠ 125 ∧ c ≠ 47 := by
  have key : ∀ x ∈ letterTable, parsePresType x.1 = some x.2 ∧ x.2 ≠ .none ∧ PlainChar x.1 ∧ isDec x.1 = false ∧
      x.1 ≠ 46 ∧ x.1 ≠ 76 ∧ x.1 ≠ 125 ∧ x.1 ≠ 47 := by
    unfold PlainChar; decide
  have hm : (c, p) ∈ letterTable := by
    have h' := h
    unfold letterMeaning at h'
    rw [List.lookup_eq_some_iff] at h'
    obtain ⟨l1, l2, h1, _⟩ := h'
    rw [h1]; simp
  exact key _ hm

theorem parsePresentation_letter (cfg : RegexCfg) (e : Enc) (st : Setter) {c : Nat} {p : Pres} (cs : List Nat)
    (h : letterMeaning c = some p) : parsePresentation cfg e st (c :: cs) = some (st.onType p, cs) := by
  obtain ⟨h1, h2, h3, _, _, _, _, h8⟩ := letter_facts h
  simp only [parsePresentation]
  rw [if_neg h3.2.2.2.2.2, if_neg h8, h1]
  cases p <;> first | rfl | exact absurd rfl h2

/-- The short cut for one-letter specifications gives what the long way gives. -/
theorem parseSpecs_long (cfg : RegexCfg) (e : Enc) (ty : ArgTy) (st : Setter) (s : List Nat) :
    parseSpecs cfg e ty st s = parseSpecsLong cfg e ty st s := by
  unfold parseSpecs
  dsimp only
  split
  · rename_i c r
    split
    · rename_i hc
      have hl := hc.1
      simp only [isAsciiLetter, Bool.or_eq_true, Bool.and_eq_true, decide_eq_true_eq] at hl
      have hp : PlainChar c := by unfold PlainChar; omega
      have hd : isDec c = false := by
        simp only [isDec, Bool.and_eq_false_iff, decide_eq_false_iff_not]; omega
      have hal := parseAlign_none e st c (125 :: r) hp (by intro d hd; simp at hd; omega)
      have hwd := parseWidth_none st c (125 :: r) hd
      have hpr : ∃ st', parsePresentation cfg e st (c :: 125 :: r) = some (st', 125 :: r) := by
        obtain ⟨st', h⟩ := parseSpecs_letter cfg e ty st c r hc.1 hc.2
        refine ⟨st', ?_⟩
        rw [← h]
        exact (if_pos hc).symm
      obtain ⟨st', hpr⟩ := hpr
      rw [hpr, parseSpecsLong, unlessEnd_cons, hal, unlessEnd_cons, hwd, unlessEnd_cons,
        precStage_skip _ _ _ (by omega), unlessEnd_cons, locStage_skip _ _ _ _ hc.2, unlessEnd_cons,
        typeStage_pres _ _ _ _ _ (by omega), hpr, unlessEnd_cons]
    · rfl
  · rfl

theorem plain_digit {c : Nat} (h : isDec c = true) : PlainChar c := by
  simp only [isDec, Bool.and_eq_true, decide_eq_true_eq] at h
  unfold PlainChar; omega

theorem plain_of_noDigit (c : Nat) (cs : List Nat) (h : isDec c = false) : NoDigitFirst 10 (c :: cs) := by
  intro x hx
  simp at hx; subst hx
  intro hd
  rw [← isDec_iff] at hd
  rw [h] at hd; cases hd

theorem tailT (w : Written) (rest : List Nat) (hl : ∀ c, w.letter = some c → ∃ p, letterMeaning c = some p) :
    ∃ c cs, w.letterPart ++ 125 :: rest = c :: cs ∧ isDec c = false ∧ c ≠ 46 ∧ c ≠ 76 := by
  unfold Written.letterPart
  cases h : w.letter with
  | none => exact ⟨125, rest, rfl, by decide, by decide, by decide⟩
  | some c =>
    obtain ⟨p, hp⟩ := hl c h
    obtain ⟨_, _, _, h4, h5, h6, _⟩ := letter_facts hp
    exact ⟨c, 125 :: rest, rfl, h4, h5, h6⟩

theorem tailL (w : Written) (rest : List Nat) (hl : ∀ c, w.letter = some c → ∃ p, letterMeaning c = some p) :
    ∃ c cs, w.localizedPart ++ (w.letterPart ++ 125 :: rest) = c :: cs ∧ isDec c = false ∧ c ≠ 46 := by
  unfold Written.localizedPart
  split
  · exact ⟨76, _, rfl, by decide, by decide⟩
  · obtain ⟨c, cs, h1, h2, h3, _⟩ := tailT w rest hl
    exact ⟨c, cs, h1, h2, h3⟩

theorem tailP (w : Written) (rest : List Nat) (hl : ∀ c, w.letter = some c → ∃ p, letterMeaning c = some p) :
    ∃ c cs, w.precisionPart ++ (w.localizedPart ++ (w.letterPart ++ 125 :: rest)) = c :: cs ∧ isDec c = false := by
  unfold Written.precisionPart
  split
  · obtain ⟨c, cs, h1, h2, _⟩ := tailL w rest hl
    exact ⟨c, cs, h1, h2⟩
  · exact ⟨46, _, rfl, by decide⟩

theorem body_plain (w : Written) (hl : ∀ c, w.letter = some c → ∃ p, letterMeaning c = some p) :
    ∀ c ∈ w.widthPart ++ (w.precisionPart ++ (w.localizedPart ++ w.letterPart)), PlainChar c := by
  intro c hc
  have hnum : ∀ n, c ∈ numeral 10 n → PlainChar c := fun n h =>
    plain_digit ((isDec_iff c).2 ((numeral_isNumeral 10 n (by omega) (by omega)).2 c h))
  simp only [List.mem_append] at hc
  rcases hc with h | h | h | h
  · unfold Written.widthPart at h
    split at h
    · simp at h
    · exact hnum _ h
  · unfold Written.precisionPart at h
    split at h
    · simp at h
    · rcases List.mem_cons.1 h with rfl | h
      · unfold PlainChar; decide
      · exact hnum _ h
  · unfold Written.localizedPart at h
    split at h
    · simp at h; subst h; unfold PlainChar; decide
    · simp at h
  · unfold Written.letterPart at h
    split at h
    · simp at h
    · rename_i x hx
      simp at h; subst h
      obtain ⟨p, hp⟩ := hl c hx
      exact (letter_facts hp).2.2.1

/-- The body and what follows it: its first character, and the next one, are no alignment. -/
theorem body_head (body rest : List Nat) (hb : ∀ c ∈ body, PlainChar c)
    (hf : body = [] → ∀ d, rest.head? = some d → d ≠ 60 ∧ d ≠ 62 ∧ d ≠ 94) :
    ∃ c cs, body ++ 125 :: rest = c :: cs ∧ PlainChar c ∧ ∀ d, cs.head? = some d → d ≠ 60 ∧ d ≠ 62 ∧ d ≠ 94 := by
  cases body with
  | nil => exact ⟨125, rest, rfl, by unfold PlainChar; decide, hf rfl⟩
  | cons a body =>
    refine ⟨a, body ++ 125 :: rest, rfl, hb a (by simp), ?_⟩
    intro d hd
    cases body with
    | nil => simp at hd; omega
    | cons b body =>
      simp at hd; subst hd
      obtain ⟨_, h⟩ := hb b (by simp)
      exact ⟨h.1, h.2.1, h.2.2.1⟩

theorem checkAlign_meaning (a : Nat) : checkAlign a = alignMeaning a := rfl

/-- The specification read back. -/
def readBack (f : Fill) (al : Align) (width precision : Option Nat) (localized : Bool) (t : Pres) : Specs :=
  { fill := f, align := al, width := width.getD 0, precision := precision.getD 0, localized := localized, type := t }

/-- The fill read back. -/
def Spec.Written.fillOf (e : Enc) (w : Written) : Fill := ((w.align.bind Prod.fst).bind fun cp => Fill.assign e (encode e cp)).getD Fill.default

/-- The specification read back from what is written. -/
def Spec.Written.specs (e : Enc) (w : Written) : Specs :=
  readBack (w.fillOf e) ((w.align.map fun x => alignMeaning x.2).getD .none) w.width w.precision w.localized ((w.letter.bind letterMeaning).getD .none)

/-- Everything about reading back a written specification. -/
theorem parseSpecs_written (cfg : RegexCfg) (e : Enc) (ty : ArgTy) (w : Written) (rest : List Nat)
    (h : w.Readable e ty rest) :
    ∃ sp : Specs, parseSpecs cfg e ty ⟨{}, false⟩ (w.render e ++ 125 :: rest) = some (⟨sp, false⟩, 125 :: rest) ∧
      sp.width = w.width.getD 0 ∧ sp.precision = w.precision.getD 0 ∧ sp.localized = w.localized ∧
      sp.type = (w.letter.bind letterMeaning).getD .none ∧
      sp.align = ((w.align.map fun x => alignMeaning x.2).getD .none) ∧
      sp.fill.units e = encode e ((w.align.bind Prod.fst).getD 32) ∧
      sp.literals = 0 ∧ sp.nonascii = false ∧ sp.inverted = false ∧ sp.setString = [] ∧ sp.regexFlags = 0 ∧ sp = w.specs e := by
  rw [parseSpecs_long]
  have e1 : w.render e ++ 125 :: rest =
      w.alignPart e ++ (w.widthPart ++ (w.precisionPart ++ (w.localizedPart ++ (w.letterPart ++ 125 :: rest)))) := by
    simp [Written.render, List.append_assoc]
  have hpl := body_plain w h.letter
  have eb : w.widthPart ++ (w.precisionPart ++ (w.localizedPart ++ (w.letterPart ++ 125 :: rest))) =
      (w.widthPart ++ (w.precisionPart ++ (w.localizedPart ++ w.letterPart))) ++ 125 :: rest := by
    simp [List.append_assoc]
  -- alignment
  have hA : ∃ st1 : Setter, parseAlign e ⟨{}, false⟩ (w.render e ++ 125 :: rest) =
        some (st1, w.widthPart ++ (w.precisionPart ++ (w.localizedPart ++ (w.letterPart ++ 125 :: rest)))) ∧
      ∃ f : Fill, st1 = ⟨{ fill := f, align := ((w.align.map fun x => alignMeaning x.2).getD .none) }, false⟩ ∧
        f.units e = encode e ((w.align.bind Prod.fst).getD 32) ∧ f = w.fillOf e := by
    have hdef : Fill.default.units e = encode e 32 := by cases e <;> decide
    cases ha : w.align with
    | none =>
      obtain ⟨c, cs, h1, h2, h3⟩ := body_head _ rest hpl (by
        intro hnil; exact h.follow (by rw [Written.render, Written.alignPart, ha]; simpa using hnil))
      refine ⟨⟨{}, false⟩, ?_, Fill.default, rfl, hdef, by simp [Written.fillOf, ha]⟩
      rw [e1, Written.alignPart, ha, List.nil_append, eb, h1]
      exact parseAlign_none e _ c cs h2 h3
    | some x =>
      obtain ⟨f, a⟩ := x
      obtain ⟨h1, h2⟩ := h.align f a ha
      cases f with
      | none =>
        obtain ⟨c, cs, h3, h4, _⟩ : ∃ c cs, w.widthPart ++ (w.precisionPart ++ (w.localizedPart ++ (w.letterPart ++ 125 :: rest))) =
            c :: cs ∧ PlainChar c ∧ True := by
          rw [eb]
          cases hbd : w.widthPart ++ (w.precisionPart ++ (w.localizedPart ++ w.letterPart)) with
          | nil => exact ⟨125, rest, rfl, by unfold PlainChar; decide, trivial⟩
          | cons b bs => exact ⟨b, bs ++ 125 :: rest, rfl, hpl b (by rw [hbd]; simp), trivial⟩
        refine ⟨⟨{ align := alignMeaning a }, false⟩, ?_, Fill.default, rfl, hdef, by simp [Written.fillOf, ha]⟩
        rw [e1, Written.alignPart, ha, h3]
        exact parseAlign_align e _ a c cs h1 ⟨h4.2.1, h4.2.2.1, h4.2.2.2.1⟩
      | some cp =>
        obtain ⟨h3, h4, h5, h6⟩ := h2 cp rfl
        obtain ⟨f, hf1, hf2⟩ := parseAlign_fill e ⟨{}, false⟩ cp a
          (w.widthPart ++ (w.precisionPart ++ (w.localizedPart ++ (w.letterPart ++ 125 :: rest)))) h1 h3 h4 h5
          (fun he => by have := h6 (by rw [he]; simp); omega)
        refine ⟨⟨{ fill := f, align := alignMeaning a }, false⟩, ?_, f, rfl, ?_, by simp [Written.fillOf, ha, hf1]⟩
        · rw [e1, Written.alignPart, ha]
          simp only [List.append_assoc, List.singleton_append]
          exact hf2
        · exact fill_units e cp h6 f hf1
  obtain ⟨st1, hA1, f, rfl, hA3, hA4⟩ := hA
  unfold Written.specs
  rw [← hA4]
  generalize ((w.align.map fun x => alignMeaning x.2).getD .none) = al at hA1 ⊢
  -- width
  obtain ⟨cP, csP, hP1, hP2⟩ := tailP w rest h.letter
  obtain ⟨cL, csL, hL1, hL2, hL3⟩ := tailL w rest h.letter
  obtain ⟨cT, csT, hT1, hT2, hT3, hT4⟩ := tailT w rest h.letter
  have hW : parseWidth ⟨{ fill := f, align := al }, false⟩
      (w.widthPart ++ (w.precisionPart ++ (w.localizedPart ++ (w.letterPart ++ 125 :: rest)))) =
      some (⟨{ fill := f, align := al, width := w.width.getD 0 }, false⟩, cP :: csP) := by
    rw [hP1, Written.widthPart]
    cases hw : w.width with
    | none => exact parseWidth_none _ _ _ hP2
    | some n =>
      have := (parseWidth_digits ⟨{ fill := f, align := al }, false⟩ (numeral 10 n) (cP :: csP)
        (numeral_isNumeral 10 n (by omega) (by omega)) (plain_of_noDigit _ _ hP2)).1 (by
          rw [numeral_value 10 n (by omega) (by omega)]; exact h.width n hw)
      rw [numeral_value 10 n (by omega) (by omega)] at this
      exact this
  have hWne : w.widthPart ++ (w.precisionPart ++ (w.localizedPart ++ (w.letterPart ++ 125 :: rest))) ≠ [] := by
    rw [hP1]; simp
  -- precision
  have hP : precStage ⟨{ fill := f, align := al, width := w.width.getD 0 }, false⟩ (cP :: csP) =
      some (⟨{ fill := f, align := al, width := w.width.getD 0, precision := w.precision.getD 0 }, false⟩, cL :: csL) := by
    rw [← hP1, Written.precisionPart, hL1]
    cases hp : w.precision with
    | none => exact precStage_skip _ _ _ hL3
    | some n =>
      obtain ⟨hp1, hp2⟩ := h.precision n hp
      have := (parsePrecision_digits ⟨{ fill := f, align := al, width := w.width.getD 0 }, false⟩ (numeral 10 n) (cL :: csL)
        (numeral_isNumeral 10 n (by omega) (by omega)) (plain_of_noDigit _ _ hL2)).1 (by
          rw [numeral_value 10 n (by omega) (by omega)]; exact hp1)
      rw [numeral_value 10 n (by omega) (by omega)] at this
      show unlessEnd (some (_, numeral 10 n ++ cL :: csL)) _ = _
      rw [unlessEnd_ne _ _ (by simp), this, unlessEnd_cons]
      simp only [Setter.onPrecision]
      rw [if_neg (by omega)]
      rfl
  -- `L`
  have hL : locStage ty ⟨{ fill := f, align := al, width := w.width.getD 0, precision := w.precision.getD 0 }, false⟩
      (cL :: csL) =
      some (⟨readBack f al w.width w.precision w.localized .none, false⟩, cT :: csT) := by
    rw [← hL1, Written.localizedPart, hT1]
    cases hl : w.localized with
    | false => exact locStage_skip _ _ _ _ hT4
    | true =>
      have hcat := h.localized hl
      show (Setter.onLocalized ty _).map _ = _
      rcases hcat with hc | hc | hc | hc <;> simp [Setter.onLocalized, hc, readBack]
  -- type
  have hT : typeStage cfg e ⟨readBack f al w.width w.precision w.localized .none, false⟩ (cT :: csT) =
      some (⟨readBack f al w.width w.precision w.localized ((w.letter.bind letterMeaning).getD .none), false⟩, 125 :: rest) := by
    rw [← hT1, Written.letterPart]
    cases hl : w.letter with
    | none => rfl
    | some c =>
      obtain ⟨p, hp⟩ := h.letter c hl
      have hne : c ≠ 125 := (letter_facts hp).2.2.2.2.2.2.1
      simp only [List.cons_append, List.nil_append]
      rw [typeStage_pres _ _ _ _ _ hne, parsePresentation_letter _ _ _ _ hp]
      simp [Setter.onType, hp, readBack]
  refine ⟨readBack f al w.width w.precision w.localized ((w.letter.bind letterMeaning).getD .none), ?_,
    rfl, rfl, rfl, rfl, rfl, hA3, rfl, rfl, rfl, rfl, rfl, rfl⟩
  unfold parseSpecsLong
  rw [unlessEnd_ne _ _ (by rw [e1]; simp), hA1, unlessEnd_ne _ _ hWne, hW, unlessEnd_cons, hP, unlessEnd_cons, hL,
    unlessEnd_cons, hT, unlessEnd_cons]

end Scn
