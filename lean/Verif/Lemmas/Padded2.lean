import Verif.Lemmas.Padded
/-
The readers of values shown with a presentation type.
-/
namespace Scn
open Spec

theorem describes_written {e : Enc} {ty : ArgTy} {w : Written} (hw : w.Readable e ty []) : Describes e (w.specs e) w.field := by
  obtain ⟨sp, _, h1, h2, _, _, h5, h6, _, _, _, _, _, rfl⟩ := parseSpecs_written ⟨false, true, true⟩ e ty w [] hw
  refine ⟨h1, h2, ?_, h6, ?_⟩
  · rw [h5]
    show _ = w.side
    unfold Written.side
    cases ha : w.align with
    | none => rfl
    | some x =>
      obtain ⟨f, a⟩ := x
      rcases (hw.align f a ha).1 with rfl | rfl | rfl <;> rfl
  · show IsScalar w.fillChar
    unfold Written.fillChar
    cases ha : w.align with
    | none => exact ⟨by decide, by decide⟩
    | some x =>
      obtain ⟨f, a⟩ := x
      cases f with
      | none => exact ascii_scalar (c := 32) (by decide)
      | some cp => exact ((hw.align _ a ha).2 cp rfl).1

/-- A text in the base of an integer presentation. -/
theorem int_shown (e : Enc) (l : Layout) (T : IntTy) (hT : T.Std) (b : Nat) (h2 : 2 ≤ b) (h36 : b ≤ 36) (uo : Bool) (x : Int) (hx : InRange T x)
    (hu : uo = true → 0 ≤ x) (rest : List Nat) (hr : ∀ c ∈ rest, IsScalar c) (hf : NoDigitFirst b rest)
    (hp : x = 0 → b ≠ 10 → ∀ l, rest.head? = some l → l ∉ [98, 66, 111, 79, 120, 88]) :
    readInt (srcOf e l) T ⟨b, uo, none⟩ (encodes e (intText b x ++ rest)) = .ok (x, encodes e rest) := by
  have hd := numeral_digits b x.natAbs h2 h36
  have hascii : ∀ c ∈ intText b x, c < 128 := by
    intro c hc
    unfold intText at hc
    rcases List.mem_append.1 hc with h | h
    · split at h
      · simp at h; omega
      · cases h
    · exact (hd c h).2
  have hbytes : (srcOf e l).narrow = true → ∀ c ∈ encodes e rest, c < 256 := fun hn => by cases utf8_units hn; exact utf8s_bytes rest hr
  have hprefix : x = 0 → (b = 2 ∨ b = 8 ∨ b = 16) → ∀ l ∈ (encodes e rest).head?, l ∉ [98, 66, 111, 79, 120, 88] := by
    intro h0 hb y hy
    cases rest with
    | nil => rw [encodes_nil] at hy; cases hy
    | cons c rest =>
      rcases encodes_cases e c rest (hr c (by simp)) with ⟨_, hE⟩ | ⟨_, u, us, hu', hE⟩
      · rw [hE] at hy
        exact hp h0 (by omega) y (by simpa using hy)
      · rw [hE] at hy
        simp only [List.head?_cons, Option.mem_some_iff] at hy
        subst hy
        intro hm
        simp at hm
        omega
  rw [encodes_append, encodes_asciis e _ hascii]
  have key := C03_roundtrip (srcOf e l) T hT b h2 h36 x hx (encodes e rest) (noDigitFirst_encodes e b rest hr hf) hbytes hprefix
  cases uo with
  | false => exact key
  | true =>
    have h0 := hu rfl
    have hti : intText b x = numeral b x.natAbs := by unfold intText; rw [if_neg (by omega)]; rfl
    obtain ⟨c, cs, hc⟩ : ∃ c cs, numeral b x.natAbs = c :: cs := List.exists_cons_of_ne_nil (numeral_ne_nil b x.natAbs)
    have hcd : IsDigit b c := (hd c (by rw [hc]; simp)).1
    have hcne : c ≠ 45 ∧ c ≠ 43 ∧ c ≠ 16 := by
      refine ⟨?_, ?_, ?_⟩ <;> (rintro rfl; obtain ⟨d, hd, _⟩ := hcd; simp [digit?] at hd)
    have hq : (srcOf e l).contiguous = true → (srcOf e l).narrow = true → (afterSign (intText b x ++ encodes e rest)).head? ≠ some 16 := by
      intro _ _
      rw [hti, hc, List.cons_append]
      unfold afterSign
      simp [hcne]
    have hby : (srcOf e l).narrow = true → ∀ c ∈ intText b x ++ encodes e rest, c < 256 := by
      intro hn y hy
      rcases List.mem_append.1 hy with h | h
      · have := hascii y h; omega
      · exact hbytes hn y h
    rw [readInt_W _ T hT b false _ (Or.inr ⟨h2, h36⟩) hq hby] at key
    rw [readInt_W _ T hT b true _ (Or.inr ⟨h2, h36⟩) hq hby, ← key, hti, hc, List.cons_append]
    unfold scanIntW
    dsimp only
    simp only [beq_iff_eq, hcne.1, hcne.2.1, false_and, or_self, if_false]

/-- A boolean in one of the offered words. -/
theorem bool_shown (e : Enc) (numeric text : Bool) (w : List Nat) (b : Bool) (hw : (w, b) ∈ offered numeric text) (rest : List Nat) :
    readBool numeric text readBoolText (encodes e (w ++ rest)) = .ok (b, encodes e rest) := by
  have hall : ∀ p ∈ offered numeric text, ∀ q ∈ offered numeric text, p.1 <+: q.1 → p.1 = q.1 ∧ p.2 = q.2 := by
    cases numeric <;> cases text <;> decide
  have hascii : ∀ c ∈ w, c < 128 := by
    have : ∀ p ∈ offered numeric text, ∀ c ∈ p.1, c < 128 := by cases numeric <;> cases text <;> decide
    exact this (w, b) hw
  rw [encodes_append, encodes_asciis e _ hascii]
  exact readsWord_det (fun w b w' b' hp hq => hall (w, b) hp (w', b') hq) (readBool_spec numeric text (w ++ encodes e rest))
    (Or.inl ⟨w, b, _, hw, rfl, rfl⟩)

theorem takeWhile_until {α : Type} (p : α → Bool) (a b : List α) (ha : ∀ x ∈ a, p x = true) (hb : b = [] ∨ ∃ x t, b = x :: t ∧ p x = false) :
    (a ++ b).takeWhile p = a := by
  induction a with
  | nil =>
    rcases hb with rfl | ⟨x, t, rfl, h⟩
    · rfl
    · simp [h]
  | cons x a ih => rw [List.cons_append, List.takeWhile_cons, if_pos (ha x (by simp)), ih fun y hy => ha y (by simp [hy])]

/-- The presentation type read back from a letter. -/
theorem written_type (e : Enc) (w : Written) : (w.specs e).type = (w.letter.bind letterMeaning).getD .none := rfl

theorem intText_starts (b : Nat) (h2 : 2 ≤ b) (h36 : b ≤ 36) (x : Int) :
    (∀ c ∈ intText b x, IsScalar c) ∧ intText b x ≠ [] ∧ ∀ c, (intText b x).head? = some c → isSpace c = false := by
  have hd := numeral_digits b x.natAbs h2 h36
  obtain ⟨c, cs, hc⟩ : ∃ c cs, numeral b x.natAbs = c :: cs := List.exists_cons_of_ne_nil (numeral_ne_nil b x.natAbs)
  unfold intText
  refine ⟨?_, by simp [hc], ?_⟩
  · intro c hc
    rcases List.mem_append.1 hc with h | h
    · split at h
      · simp at h; subst h; exact ascii_scalar (by decide)
      · cases h
    · exact ascii_scalar (hd c h).2
  · intro y hy
    split at hy
    · simp at hy; subst hy; decide
    · rw [List.nil_append, hc] at hy
      simp at hy; subst hy
      exact digit_not_space (hd c (by rw [hc]; simp)).1

theorem getBase_letter {letter : Option Nat} {b : Nat} {uo : Bool} (hl : (letter.map intLetter).getD (some (10, false)) = some (b, uo)) :
    ∃ p, (letter.bind letterMeaning).getD .none = p ∧ p.ord ≤ Pres.intHex.ord ∧ uo = decide (p = .intUnsigned) ∧
      (∀ sp : Specs, sp.type = p → sp.getBase = some b) ∧ (b = 0 ∨ (2 ≤ b ∧ b ≤ 36)) := by
  cases letter with
  | none =>
    simp only [Option.map_none, Option.getD_none, Option.some.injEq, Prod.mk.injEq] at hl
    obtain ⟨rfl, rfl⟩ := hl
    exact ⟨.none, rfl, by decide, by decide, fun sp hsp => by unfold Specs.getBase; rw [hsp], by decide⟩
  | some c =>
    simp only [Option.map_some, Option.getD_some] at hl
    obtain ⟨p, h1, h2, h3, h4, h5, h6, h7⟩ := intLetter_facts hl
    exact ⟨p, by simp [h1], h2, h4, h5, h6⟩

/-- What `ShownAs` says about the text and the reader: a reader that skips no whitespace is one for characters, or one for
    strings up to a fill character. -/
theorem shownAs_facts (e wide : Enc) (loc : LocaleData) (old : Nat) {w : Written} {ty : ArgTy} (hw : w.Readable e ty []) (hloc : w.localized = false)
    {d : Dest} {v : Val} {text : List Nat} {follow : List Nat → Prop} (h : ShownAs e w.field w.letter d v text follow) :
    (∀ c ∈ text, IsScalar c) ∧ text ≠ [] ∧ runTypeCheck d.argTy (w.specs e) = some true ∧
    (∃ keeps, (d.specsReader e wide loc old (w.specs e)).skipWs = ! keeps ∧ (keeps = true → rightByDefault d w.letter = false) ∧
      (w.side = .unspecified → keeps = keepsSpace d) ∧ (keeps = false → ∀ c, text.head? = some c → isSpace c = false)) ∧
    (∀ l rest, (∀ c ∈ rest, IsScalar c) → GoodLayout e l (text ++ rest) → follow rest →
      (d.specsReader e wide loc old (w.specs e)).read l (encodes e (text ++ rest)) = .ok (v, encodes e rest)) := by
  have hty := written_type e w
  have hsl : (w.specs e).localized = false := hloc
  have hF := describes_written hw
  generalize w.specs e = sp at hty hsl hF ⊢
  generalize hlet : w.letter = letter at h hty
  cases h with
  | int T ty letter b uo x hT hca hl hb hx hu =>
    obtain ⟨p, h1, h2, h4, h5, h6⟩ := getBase_letter hl
    have h6 := h6.resolve_left hb
    obtain ⟨g1, g2, g3⟩ := intText_starts b h6.1 h6.2 x
    rw [h1] at hty
    refine ⟨g1, g2, ?_, ⟨false, rfl, (fun h => by cases h), fun _ => rfl, fun _ => g3⟩, ?_⟩
    · have hci : checkInt sp = true := by
        unfold checkInt
        rw [hty, if_neg (by omega), hsl]; rfl
      show runTypeCheck ty sp = _
      cases ty <;> simp [ArgTy.category] at hca <;> exact congrArg some hci
    · intro l rest hr hg hf
      show Res.map _ ((intSpecsReader e loc T sp).read l _) = _
      unfold intSpecsReader
      dsimp only
      rw [h5 sp hty]
      dsimp only
      rw [hsl, hty, ← h4, if_neg (by simp), int_shown e l T hT b h6.1 h6.2 uo x hx hu rest hr hf.1 hf.2]
      rfl
  | boolWord letter b hl =>
    have hp : sp.type = .none ∨ sp.type = .string := by
      rcases hl with rfl | rfl
      · exact Or.inl hty
      · exact Or.inr hty
    have htext : (∀ c ∈ (if b then trueWord else falseWord), IsScalar c ∧ isSpace c = false) := by
      have : ∀ c ∈ trueWord ++ falseWord, c < 128 ∧ isSpace c = false := by decide
      intro c hc
      have := this c (by cases b <;> simp at hc <;> simp [hc])
      exact ⟨ascii_scalar this.1, this.2⟩
    refine ⟨fun c hc => (htext c hc).1, by cases b <;> simp [trueWord, falseWord], ?_, ⟨false, rfl, (fun h => by cases h), fun _ => rfl, fun _ c hc => ?_⟩, ?_⟩
    · show some (checkBool sp) = _
      unfold checkBool
      rcases hp with h | h <;> rw [h] <;> rfl
    · exact (htext c (List.mem_of_mem_head? hc)).2
    · intro l rest hr hg hf
      show Res.map _ (readBool _ _ (if sp.localized then _ else _) _) = _
      rw [hsl, if_neg (by simp), bool_shown e _ _ _ b (by
        rcases hp with h | h <;> rw [h] <;> cases b <;> decide) rest]
      rfl
  | boolNumber c b hl =>
    obtain ⟨⟨bb, uo⟩, hx⟩ := hl
    have hp : boolOptions sp.type = (true, false) ∧ checkBool sp = true := by
      have : sp.type = (some c |>.bind letterMeaning).getD .none := hty
      unfold checkBool
      rw [this]
      clear hty this
      unfold intLetter at hx
      split at hx <;> first | (cases hx; done) | exact ⟨rfl, rfl⟩
    refine ⟨?_, by cases b <;> simp, congrArg some hp.2, ⟨false, rfl, (fun h => by cases h), fun _ => rfl, fun _ c hc => ?_⟩, ?_⟩
    · intro c hc; cases b <;> simp at hc <;> exact ascii_scalar (by omega)
    · cases b <;> simp at hc <;> subst hc <;> decide
    · intro l rest hr hg hf
      show Res.map _ (readBool _ _ (if sp.localized then _ else _) _) = _
      rw [hsl, if_neg (by simp), hp.1, bool_shown e true false _ b (by cases b <;> decide) rest]
      rfl
  | word letter t hl hside ht hne =>
    have hp : sp.type = .none ∨ sp.type = .string := by
      rcases hl with rfl | rfl
      · exact Or.inl hty
      · exact Or.inr hty
    have hk : strKind sp = some .word := by
      have hal : ¬ (sp.align = .left ∨ sp.align = .center) := by
        have := hF.side
        rintro (h | h) <;> rw [h] at this <;> rw [← this] at hside <;> simp [Align.side] at hside
      unfold strKind
      rcases hp with h | h <;> rw [h]
      dsimp only
      rw [if_neg hal]
    have hrd : (Dest.string e).specsReader e wide loc old sp = (stringReader e e sp .word).mapVal .string := by
      show (match strKind sp with | some k => _ | none => _) = _
      rw [hk]
    refine ⟨fun c hc => (ht c hc).1, hne, ?_, ⟨false, by rw [hrd]; rfl, (fun h => by cases h), fun _ => rfl, fun _ c hc => ?_⟩, ?_⟩
    · have : checkString sp = true := by unfold checkString; rcases hp with h | h <;> rw [h] <;> rfl
      cases e <;> exact congrArg some this
    · exact (ht c (List.mem_of_mem_head? hc)).2
    · intro l rest hr hg hf
      have hall : ∀ c ∈ text ++ rest, IsScalar c := fun c hc => (List.mem_append.1 hc).elim (fun h => (ht c h).1) (hr c)
      have := (stringReader_whole e sp _ hF .word (fun _ => false) (fun h => by cases h) (fun h => by cases h)).read l _ hall hg
      rw [hrd]
      show Res.map _ ((stringReader e e sp .word).read l _) = _
      rw [this]
      rw [if_neg (by simp), Res.map_ok, Res.map_ok]
      dsimp only [kindStops]
      rw [dropWhile_stop _ _ _ (fun c h => by rw [(ht c h).2]; rfl), takeWhile_until _ _ _ (fun c h => by rw [(ht c h).2]; rfl)]
      all_goals
        rcases hf with rfl | ⟨c, t, rfl, h⟩
        · exact Or.inl rfl
        · exact Or.inr ⟨c, t, rfl, by rw [h]; rfl⟩
  | filled t hside ht hne =>
    have hp : sp.type = .string := hty
    have hk : strKind sp = some .customWord := by
      have hal : sp.align = .left ∨ sp.align = .center := by
        have := hF.side
        rcases hside with h | h <;> rw [h] at this <;> cases hs : sp.align <;> rw [hs] at this <;> simp [Align.side] at this <;> simp
      unfold strKind
      rw [hp]
      dsimp only
      rw [if_pos hal]
    have hrd : (Dest.string e).specsReader e wide loc old sp = (stringReader e e sp .customWord).mapVal .string := by
      show (match strKind sp with | some k => _ | none => _) = _
      rw [hk]
    refine ⟨fun c hc => (ht c hc).1, hne, ?_, ⟨true, by rw [hrd]; rfl, fun _ => rfl, fun h => ?_, (fun h => by cases h)⟩, ?_⟩
    · have : checkString sp = true := by unfold checkString; rw [hp]; rfl
      cases e <;> exact congrArg some this
    · exfalso
      have h : w.field.side = .unspecified := h
      rw [h] at hside; simp at hside
    · intro l rest hr hg hf
      have hall : ∀ c ∈ text ++ rest, IsScalar c := fun c hc => (List.mem_append.1 hc).elim (fun h => (ht c h).1) (hr c)
      have := (stringReader_whole e sp _ hF .customWord (fun _ => false) (fun h => by cases h) (fun h => by cases h)).read l _ hall hg
      rw [hrd]
      show Res.map _ ((stringReader e e sp .customWord).read l _) = _
      rw [this]
      rw [if_neg (by simp), Res.map_ok, Res.map_ok]
      dsimp only [kindStops]
      rw [dropWhile_stop _ _ _ (fun c h => by simpa using (ht c h).2), takeWhile_until _ _ _ (fun c h => by simpa using (ht c h).2)]
      all_goals
        cases rest with
        | nil => exact Or.inl rfl
        | cons c t => exact Or.inr ⟨c, t, rfl, by rw [hf c rfl]; simp⟩
  | char c hc he =>
    subst he
    have hp : sp.type = .none := hty
    refine ⟨by intro x hx; simp at hx; subst hx; exact ascii_scalar hc, by simp, ?_, ⟨true, rfl, fun _ => rfl, fun _ => rfl, (fun h => by cases h)⟩, ?_⟩
    · show some (checkChar sp) = _
      unfold checkChar
      rw [hp]; rfl
    · intro l rest hr hg hf
      show Res.map _ ((charReader .utf8 loc sp old).read l _) = _
      unfold charReader
      dsimp only
      rw [if_pos (Or.inl hp), encodes_append, encodes_asciis _ [c] (by simpa using hc)]
      rfl
  | codePoint letter c hl hc =>
    have hp : sp.type = .none ∨ sp.type = .character := by
      rcases hl with rfl | rfl
      · exact Or.inl hty
      · exact Or.inr hty
    refine ⟨by intro x hx; simp at hx; subst hx; exact hc, by simp, ?_, ⟨true, rfl, (fun _ => by cases letter <;> rfl), fun _ => rfl, (fun h => by cases h)⟩, ?_⟩
    · show some (checkCodePoint sp) = _
      unfold checkCodePoint
      rcases hp with h | h <;> rw [h] <;> rfl
    · intro l rest hr hg hf
      show Res.map _ (readCodePoint e _) = _
      rw [encodes_append, show encodes e [c] = encode e c by rw [encodes_cons, encodes_nil, List.append_nil],
        readCodePoint_encode e c hc]
      rfl
  | pointer letter a hl ha =>
    have hd := numeral_digits 16 a (by decide) (by decide)
    have hp : sp.type = .none ∨ sp.type = .pointer := by
      rcases hl with rfl | rfl
      · exact Or.inl hty
      · exact Or.inr hty
    refine ⟨?_, by simp, ?_, ⟨false, rfl, (fun h => by cases h), fun _ => rfl, fun _ c hc => ?_⟩, ?_⟩
    · intro c hc
      rcases List.mem_append.1 hc with h | h
      · simp at h; exact ascii_scalar (by omega)
      · exact ascii_scalar (hd c h).2
    · show some (checkPointer sp) = _
      unfold checkPointer
      rcases hp with h | h <;> rw [h] <;> rfl
    · simp at hc; subst hc; decide
    · intro l rest hr hg hf
      exact pointer_shown e l a ha rest hr hf
  | float letter ty p cv seg round hcv hca hl hp sg t v hsg ht hv =>
    have hpl : ∀ c ∈ sg ++ t, PlainUnit c := fun c hc => (List.mem_append.1 hc).elim (sign_plain hsg c) ((float_plain ht hv).2 c)
    have hp' : sp.type = p := by
      rw [hty]
      rcases hl with ⟨rfl, rfl⟩ | ⟨c, rfl, hm⟩
      · rfl
      · show (letterMeaning c).getD .none = p
        rw [hm]; rfl
    refine ⟨fun c hc => (plain_scalar (hpl c hc)).1, by simp [(float_plain ht hv).1], ?_,
      ⟨false, rfl, (fun h => by cases h), fun _ => rfl, fun _ c hc => (plain_scalar (hpl c (List.mem_of_mem_head? hc))).2⟩, ?_⟩
    · have : checkFloat sp = true := by
        unfold checkFloat
        rw [hp']
        rcases hp with rfl | rfl | rfl | rfl | rfl <;> rfl
      show runTypeCheck ty sp = _
      cases ty <;> simp [ArgTy.category] at hca <;> exact congrArg some this
    · intro l rest hr hg hf
      show Res.map _ (readFloatAs cv e (srcOf e l) seg (floatLocOf loc sp.localized) sp.type _) = _
      rw [hsl, hp']
      show Res.map _ (readFloatAs cv e (srcOf e l) seg .classic p _) = _
      rw [float_shown hcv e _ seg hp hsg ht hv rest hr hf]
      rfl

/-- A field reads back what was printed with its specification. -/
theorem shownAs_read {e wide : Enc} (loc : LocaleData) (old : Nat) {w : Written} {ty : ArgTy} (hw : w.Readable e ty []) (hloc : w.localized = false)
    {d : Dest} {v : Val} {text : List Nat} {follow : List Nat → Prop} (h : ShownAs e w.field w.letter d v text follow) {tail : List Nat}
    (hc : w.field.Clear (rightByDefault d w.letter) (keepsSpace d) text follow tail) (htail : ∀ c ∈ tail, IsScalar c)
    (lay : List Nat → Layout) (hlay : ∀ t, t <:+ w.field.pad (rightByDefault d w.letter) text ++ tail → GoodLayout e (lay (encodes e t)) t) :
    d.readSpecs e wide loc old (w.specs e) lay (encodes e (w.field.pad (rightByDefault d w.letter) text ++ tail)) = .ok (v, encodes e tail) := by
  obtain ⟨h1, h2, h3, ⟨keeps, h4, h5, h6, h7⟩, h8⟩ := shownAs_facts e wide loc old hw hloc h
  unfold Dest.readSpecs
  rw [h3]
  dsimp only
  refine argRead_pad (describes_written hw) _ keeps ?_ h2 h5 h7 h1 htail lay hlay _ h4 v h8
  exact ⟨hc.first, hc.beyond, hc.fits, hc.follow, fun a b c => hc.wide a b (by rw [← h6 a]; exact c), fun a b c => hc.still a (by rw [← h6 a]; exact b) c⟩

end Scn
