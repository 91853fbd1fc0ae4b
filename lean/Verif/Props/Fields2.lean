import Verif.Lemmas.FloatText
import Verif.Props.Fields
import Verif.Props.Readers
import Verif.Props.Float
/-
Property C36 for the destinations other than integers and strings: booleans, characters, addresses and floating-point numbers.
-/
namespace Scn
open Spec

/-- The value of the first of these words that the text begins with, and what follows it. -/
def Spec.readTruth (words : List (List Nat × Bool)) (cps : List Nat) : Res (Bool × List Nat) :=
  match words.find? fun w => w.1.isPrefixOf cps with
  | some w => .ok (w.2, cps.drop w.1.length)
  | none => .err .invalidScannedValue

theorem readTruth_suffix {words : List (List Nat × Bool)} {cps r : List Nat} {b : Bool} (h : readTruth words cps = .ok (b, r)) : r <:+ cps := by
  unfold readTruth at h
  split at h
  · cases h; exact List.drop_suffix _ _
  · cases h

/-- Words that are read from the units of a text are read from its characters. -/
theorem readTruth_words (e : Enc) (words : List (List Nat × Bool)) (hw : ∀ w ∈ words, ∀ c ∈ w.1, IsScalar c) (cps : List Nat)
    (h : ∀ c ∈ cps, IsScalar c) :
    ReadsWord (words.map fun w => (encodes e w.1, w.2)) (encodes e cps) ((readTruth words cps).map fun r => (r.1, encodes e r.2)) := by
  unfold readTruth
  split
  · rename_i w hf
    have hp := List.find?_some hf
    have hm := List.mem_of_find?_eq_some hf
    rw [List.isPrefixOf_iff_prefix] at hp
    obtain ⟨t, rfl⟩ := hp
    left
    refine ⟨encodes e w.1, w.2, encodes e t, List.mem_map.2 ⟨w, hm, rfl⟩, encodes_append e _ _, ?_⟩
    rw [List.drop_left]; rfl
  · rename_i hf
    right
    refine ⟨?_, rfl⟩
    intro w b hm hp
    obtain ⟨w', hm', hw'⟩ := List.mem_map.1 hm
    cases hw'
    have := List.find?_eq_none.1 hf w' hm'
    apply this
    rw [List.isPrefixOf_iff_prefix]
    exact (encodes_prefix_iff e (hw w' hm') h).1 hp

/-- The readers of booleans read whole characters. -/
theorem boolReader_whole (e : Enc) (loc : LocaleData) (sp : Specs) (hl : sp.localized = false) (hc : runTypeCheck .bool sp = some true) :
    Whole e IsScalar (boolReader loc sp).read (readTruth (boolWords sp.type)) where
  read l cps h _ := by
    have hsub : ∀ x ∈ boolWords sp.type, x ∈ boolNumbers ++ boolText := by
      intro x hx
      cases hp : sp.type <;> rw [hp] at hx <;> simp only [boolWords] at hx <;> first
        | exact hx
        | exact List.mem_append_right _ hx
        | exact List.mem_append_left _ hx
    have ha : ∀ x ∈ boolWords sp.type, ∀ c ∈ x.1, c < 128 := by
      have : ∀ x ∈ boolNumbers ++ boolText, ∀ c ∈ x.1, c < 128 := by decide
      exact fun x hx => this x (hsub x hx)
    have hm : (boolWords sp.type).map (fun w => (encodes e w.1, w.2)) = boolWords sp.type := by
      conv => rhs; rw [← List.map_id (boolWords sp.type)]
      apply List.map_congr_left
      intro w hw
      rw [encodes_asciis e w.1 (ha w hw)]; rfl
    have h1 := readTruth_words e (boolWords sp.type) (fun w hw c hc => ascii_scalar (ha w hw c hc)) cps h
    rw [hm] at h1
    exact C37_unambiguous sp.type _ _ _ (C37_spellings loc sp hl hc l _) h1
  scalar _ h := h
  suffix _ _ _ h := readTruth_suffix h

/-- With the names of the locale. -/
theorem boolReader_names_whole (e : Enc) (loc : LocaleData) (sp : Specs) (hl : sp.localized = true) (ht : sp.type = .string) (tn fn : List Nat)
    (h1 : ¬ tn <+: fn) (h2 : ¬ fn <+: tn) (htn : ∀ c ∈ tn, IsScalar c) (hfn : ∀ c ∈ fn, IsScalar c) (hT : loc.truename = encodes e tn)
    (hF : loc.falsename = encodes e fn) : Whole e IsScalar (boolReader loc sp).read (readTruth [(tn, true), (fn, false)]) where
  read l cps h _ := by
    have hw := readTruth_words e [(tn, true), (fn, false)] (by
      intro w hw
      rcases List.mem_cons.1 hw with rfl | hw
      · exact htn
      · rw [List.mem_singleton] at hw; subst hw; exact hfn) cps h
    have n1 : ¬ encodes e tn <+: encodes e fn := fun h => h1 ((encodes_prefix_iff e htn hfn).1 h)
    have n2 : ¬ encodes e fn <+: encodes e tn := fun h => h2 ((encodes_prefix_iff e hfn htn).1 h)
    have hr := C37_localized_partial loc sp hl ht (by rw [hT, hF]; exact n1) (by rw [hT, hF]; exact n2) l (encodes e cps)
    rw [hT, hF] at hr
    refine readsWord_det ?_ hr hw
    intro w b w' b' hm hm' hp
    rcases List.mem_cons.1 hm with hm | hm <;> rcases List.mem_cons.1 hm' with hm' | hm'
    · cases hm; cases hm'; exact ⟨rfl, rfl⟩
    · rw [List.mem_singleton] at hm'; cases hm; cases hm'; exact absurd hp n1
    · rw [List.mem_singleton] at hm; cases hm; cases hm'; exact absurd hp n2
    · rw [List.mem_singleton] at hm hm'; cases hm; cases hm'; exact ⟨rfl, rfl⟩
  scalar _ h := h
  suffix _ _ _ h := readTruth_suffix h

/-- C36 for booleans: a field with width, precision, fill and alignment is read as specified, and its value is the one of the
    spellings of the presentation (of the locale, with `L` and the presentation `s`) that the rest of the view begins with. -/
theorem C36_bool_partial (e : Enc) (loc : LocaleData) (sp : Specs) (F : PaddedField) (hF : Describes e sp F) (lay : List Nat → Layout)
    (cps : List Nat) (h : ∀ cp ∈ cps, IsScalar cp) (hlay : ∀ t, t <:+ cps → GoodLayout e (lay (encodes e t)) t) :
    (sp.localized = false → runTypeCheck .bool sp = some true →
      argRead e sp (boolReader loc sp) lay (encodes e cps) = (F.read true (readTruth (boolWords sp.type)) cps).map fun r => (r.1, encodes e r.2)) ∧
    ∀ tn fn, sp.localized = true → sp.type = .string → ¬ tn <+: fn → ¬ fn <+: tn → (∀ c ∈ tn, IsScalar c) → (∀ c ∈ fn, IsScalar c) →
      loc.truename = encodes e tn → loc.falsename = encodes e fn →
      argRead e sp (boolReader loc sp) lay (encodes e cps) = (F.read true (readTruth [(tn, true), (fn, false)]) cps).map fun r => (r.1, encodes e r.2) :=
  ⟨fun hl hc => argRead_spec e sp F hF _ _ (boolReader_whole e loc sp hl hc) lay cps h hlay,
    fun tn fn hl ht h1 h2 h3 h4 h5 h6 => argRead_spec e sp F hF _ _ (boolReader_names_whole e loc sp hl ht tn fn h1 h2 h3 h4 h5 h6) lay cps h hlay⟩

/-- "{:*^6}" of a `bool` on "*true**": hypotheses met, and the field read. -/
example : Describes .utf8 { ({} : Specs) with width := 6, align := .center, fill := ⟨[42, 0, 0, 0], 1⟩ } ⟨6, 0, .both, 42⟩ ∧
    argRead .utf8 { ({} : Specs) with width := 6, align := .center, fill := ⟨[42, 0, 0, 0], 1⟩ } (boolReader ⟨44, 46, [], [], fun _ _ _ _ => .bad⟩
      { ({} : Specs) with width := 6, align := .center, fill := ⟨[42, 0, 0, 0], 1⟩ }) (fun _ => .contiguous) [42, 116, 114, 117, 101, 42, 42, 33] =
      .ok (true, [33]) := by
  refine ⟨⟨rfl, rfl, rfl, rfl, ⟨by show (42:Nat) < _; decide, by show ¬ (_ ≤ (42:Nat) ∧ _); decide⟩⟩, ?_⟩
  decide +kernel

/-- The readers of `char32_t` read whole characters; at the end of the text they are not defined (C38). -/
theorem codePointReader_whole (e : Enc) : Whole e IsScalar (codePointReader e).read (fun
    | [] => .ub
    | c :: cs => .ok (c, cs)) where
  read l cps h _ := by
    cases cps with
    | nil => rfl
    | cons c cs =>
      show readCodePoint e (encodes e (c :: cs)) = _
      rw [encodes_cons, readCodePoint_encode e c (h c (by simp))]; rfl
  scalar _ h := h
  suffix cps v r h := by
    cases cps with
    | nil => cases h
    | cons c cs => cases h; exact List.suffix_cons _ _

/-- So do those of `char` (on ASCII text) and `wchar_t` (for characters of one unit). -/
theorem charReader_whole (loc : LocaleData) (sp : Specs) (ht : sp.type = .none ∨ sp.type = .character) (old : Nat) :
    Whole .utf8 (fun c => c < 128) (charReader .utf8 loc sp old).read (fun
    | [] => .err .endOfInput
    | c :: cs => .ok (c, cs)) where
  read l cps h _ := by
    show (if sp.type = .none ∨ sp.type = .character then readCharDefault .utf8 (encodes .utf8 cps) else _) = _
    rw [if_pos ht, encodes_asciis .utf8 cps h]
    cases cps with
    | nil => rfl
    | cons c cs => simp [readCharDefault, readCodeUnit, Res.map, encodes_asciis .utf8 cs (fun x hx => h x (by simp [hx]))]
  scalar _ h := ascii_scalar h
  suffix cps v r h := by
    cases cps with
    | nil => cases h
    | cons c cs => cases h; exact List.suffix_cons _ _

theorem wcharReader_whole (e : Enc) (he : e ≠ .utf8) (loc : LocaleData) (sp : Specs) (ht : sp.type = .none ∨ sp.type = .character) (old : Nat) :
    Whole e (fun c => IsScalar c ∧ (e = .utf16 → c < 0x10000)) (wcharReader e e loc sp old).read (fun
    | [] => .err .endOfInput
    | c :: cs => .ok (c, cs)) where
  read l cps h _ := by
    show (if sp.type = .none ∨ sp.type = .character then readWcharDefault e e (encodes e cps) else _) = _
    rw [if_pos ht]
    unfold readWcharDefault
    rw [if_neg he]
    cases cps with
    | nil => rfl
    | cons c cs =>
      obtain ⟨h1, h2⟩ := h c (by simp)
      have : encode e c = [c] := by
        cases e with
        | utf8 => exact absurd rfl he
        | utf16 => simp only [encode, utf16]; rw [if_pos (h2 rfl)]
        | utf32 => rfl
      rw [encodes_cons, this]; rfl
  scalar _ h := h.1
  suffix cps v r h := by
    cases cps with
    | nil => cases h
    | cons c cs => cases h; exact List.suffix_cons _ _

/-- C36 for characters: the value of a field is the first character of the view, after the fill. A `char` is read from ASCII
    text, a `wchar_t` from text in characters of one unit. A `char32_t` has no value at the end of the view (C38). -/
theorem C36_char_partial (e : Enc) (loc : LocaleData) (sp : Specs) (ht : sp.type = .none ∨ sp.type = .character) (old : Nat) (F : PaddedField)
    (hF : Describes e sp F) (lay : List Nat → Layout) (cps : List Nat) (hlay : ∀ t, t <:+ cps → GoodLayout e (lay (encodes e t)) t) :
    ((∀ cp ∈ cps, IsScalar cp) → argRead e sp (codePointReader e) lay (encodes e cps) =
      (F.read false (fun | [] => .ub | c :: cs => .ok (c, cs)) cps).map fun r => (r.1, encodes e r.2)) ∧
    (e = .utf8 → (∀ cp ∈ cps, cp < 128) → argRead e sp (charReader e loc sp old) lay (encodes e cps) =
      (F.read false (fun | [] => .err .endOfInput | c :: cs => .ok (c, cs)) cps).map fun r => (r.1, encodes e r.2)) ∧
    (e ≠ .utf8 → (∀ cp ∈ cps, IsScalar cp ∧ (e = .utf16 → cp < 0x10000)) → argRead e sp (wcharReader e e loc sp old) lay (encodes e cps) =
      (F.read false (fun | [] => .err .endOfInput | c :: cs => .ok (c, cs)) cps).map fun r => (r.1, encodes e r.2)) := by
  refine ⟨fun h => argRead_spec e sp F hF _ _ (codePointReader_whole e) lay cps h hlay, ?_,
    fun he h => argRead_spec e sp F hF _ _ (wcharReader_whole e he loc sp ht old) lay cps h hlay⟩
  rintro rfl h
  exact argRead_spec _ sp F hF _ _ (charReader_whole loc sp ht old) lay cps h hlay

/-- "{:_>4}" of a `char32_t` on three underscores and U+00E9 in UTF-8. -/
example : Describes .utf8 { ({} : Specs) with width := 4, align := .right, fill := ⟨[95, 0, 0, 0], 1⟩ } ⟨4, 0, .before, 95⟩ ∧
    argRead .utf8 { ({} : Specs) with width := 4, align := .right, fill := ⟨[95, 0, 0, 0], 1⟩ } (codePointReader .utf8) (fun _ => .contiguous)
      [95, 95, 95, 0xc3, 0xa9, 33] = .ok (0xe9, [33]) := by
  refine ⟨⟨rfl, rfl, rfl, rfl, ⟨by show (95:Nat) < _; decide, by show ¬ (_ ≤ (95:Nat) ∧ _); decide⟩⟩, ?_⟩
  decide +kernel

/-- C36 for addresses: the value of a field is a hexadecimal number that fits 64 bits. -/
theorem C36_pointer_partial (e : Enc) (sp : Specs) (F : PaddedField) (hF : Describes e sp F) (lay : List Nat → Layout) (cps : List Nat)
    (h : ∀ cp ∈ cps, IsScalar cp ∧ cp ≠ 16) (hlay : ∀ t, t <:+ cps → GoodLayout e (lay (encodes e t)) t) :
    argRead e sp (pointerReader e) lay (encodes e cps) =
      (F.read true (scanIntW ⟨64, false⟩ 16 false) cps).map fun r => (r.1, encodes e r.2) :=
  argRead_spec e sp F hF _ _ (intReader_whole e ⟨64, false⟩ (by unfold IntTy.Std; decide) 16 false (by decide)) lay cps h hlay

example : argRead .utf8 { ({} : Specs) with width := 8 } (pointerReader .utf8) (fun _ => .contiguous) [32, 32, 32, 32, 48, 120, 49, 102] =
    .ok (31, []) := by decide +kernel

/-- The readers of floating-point numbers on a source of one kind: all positions are in contiguous sources, or none is. -/
theorem floatReader_whole {cv : FloatConv Nat} {round : List Nat → Rounded Nat} (hcv : ConvOk cv round) (e : Enc) (loc : LocaleData) (seg : Bool)
    (sp : Specs) (hl : sp.localized = false) (c : Bool) :
    Whole e IsScalar (fun _ s => (floatReader e loc cv seg sp).read (if c then .contiguous else .segmented 0) s)
      (readFloatAs cv .utf32 ⟨false, c⟩ false .classic sp.type) where
  read l cps h _ := by
    show readFloatAs cv e _ seg (floatLocOf loc sp.localized) sp.type _ = _
    rw [hl]
    refine readFloatAs_encodes hcv e _ ⟨false, c⟩ ?_ seg false sp.type cps h
    cases c <;> rfl
  scalar _ h := h
  suffix cps v r h := by
    unfold readFloatAs at h
    split at h
    · cases h
    · unfold readFloat at h
      split at h
      · cases h
      · cases hb : floatBody ⟨false, c⟩ .classic ‹_› ‹_› with
        | ub => rw [hb] at h; cases h
        | err x => rw [hb] at h; cases h
        | ok b =>
          rw [hb, Res.bind_ok] at h
          dsimp only at h
          split at h
          · cases h
          · cases h
          · cases h; exact List.drop_suffix _ _

/-- C36 for floating-point numbers: the value of a field is read from its view as from a text of its own (C39: the longest number
    the view begins with). With a precision, the view is not contiguous in memory, which makes a difference for a prefix `0x`
    without digits (C39). -/
theorem C36_float_partial {cv : FloatConv Nat} {round : List Nat → Rounded Nat} (hcv : ConvOk cv round) (e : Enc) (loc : LocaleData) (seg : Bool)
    (sp : Specs) (hl : sp.localized = false) (F : PaddedField) (hF : Describes e sp F) (lay : List Nat → Layout) (c : Bool)
    (hc : ∀ s, lay s = .contiguous ↔ c = true) (cps : List Nat)
    (h : ∀ cp ∈ cps, IsScalar cp) (hlay : ∀ t, t <:+ cps → GoodLayout e (lay (encodes e t)) t) :
    argRead e sp (floatReader e loc cv seg sp) lay (encodes e cps) =
      (F.read true (readFloatAs cv .utf32 ⟨false, c && F.precision == 0⟩ false .classic sp.type) cps).map fun r => (r.1, encodes e r.2) := by
  rw [← argRead_spec e sp F hF ⟨true, fun _ s => (floatReader e loc cv seg sp).read (if (c && F.precision == 0) then .contiguous else .segmented 0) s⟩
    _ (floatReader_whole hcv e loc seg sp hl _) lay cps h hlay]
  have hsame : ∀ l l' s, (l = .contiguous ↔ l' = .contiguous) → (floatReader e loc cv seg sp).read l s = (floatReader e loc cv seg sp).read l' s := by
    intro l l' s hll
    show readFloatAs cv e (srcOf e l) seg _ _ s = readFloatAs cv e (srcOf e l') seg _ _ s
    have : srcOf e l = srcOf e l' := by unfold srcOf; simp [hll]
    rw [this]
  unfold argRead
  congr 1
  funext b
  congr 1
  unfold argValue
  rw [hF.precision]
  split
  · rename_i hp
    have hp' : (F.precision == 0) = false := by simpa using hp
    simp only [hp', Bool.and_false]
    rfl
  · rename_i hp
    have hp' : (F.precision == 0) = true := by simpa using hp
    simp only [hp', Bool.and_true]
    rw [hsame (lay b.1) (if c then .contiguous else .segmented 0) b.1 (by rw [hc]; cases c <;> simp)]

/-- "{:6}" of a `double` on three blanks and "2.5". -/
example {cv : FloatConv Nat} {round : List Nat → Rounded Nat} (hcv : ConvOk cv round) (loc : LocaleData) (v : Nat) (hv : round [50, 46, 53] = .finite v) :
    argRead .utf8 { ({} : Specs) with width := 6 } (floatReader .utf8 loc cv false { ({} : Specs) with width := 6 }) (fun _ => .contiguous)
      (encodes .utf8 [32, 32, 32, 50, 46, 53]) = .ok (cv.copysign false v, []) := by
  rw [C36_float_partial hcv .utf8 loc false _ rfl ⟨6, 0, .unspecified, 32⟩ (describes_default _ 6 0) _ true (by simp)
    [32, 32, 32, 50, 46, 53] (by unfold IsScalar; decide) (fun t _ => by trivial)]
  have hd : DecText true true [50, 46, 53] := ⟨[50, 46, 53], [], rfl, ⟨[50], [46, 53], rfl, by decide, Or.inr ⟨[53], rfl, by decide⟩, Or.inl (by decide)⟩, Or.inl ⟨rfl, rfl⟩⟩
  have hr := C39_roundtrip_partial hcv .utf32 ⟨false, true⟩ false .none (Or.inl rfl) [] [50, 46, 53] [] (Or.inl rfl) (by simp)
    (by rw [List.append_nil]; exact longest_self (Or.inr (Or.inr (Or.inl hd)))) (.finite v)
    (Or.inr (Or.inr ⟨Or.inl hd, _, Or.inl ⟨rfl, by simp⟩, hv.symm⟩)) (Or.inl ⟨_, _, rfl, by decide⟩) (Or.inl rfl)
  have hb : PaddedField.before ⟨6, 0, .unspecified, 32⟩ true [32, 32, 32, 50, 46, 53] = [32, 32, 32] := by decide +kernel
  unfold PaddedField.read
  rw [hb]
  show (((readFloatAs cv .utf32 ⟨false, true⟩ false .classic .none ([] ++ [50, 46, 53] ++ [])).bind _).map _ : Res (Nat × List Nat)) = _
  rw [hr]
  rfl

end Scn
