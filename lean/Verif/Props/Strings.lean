import Verif.Props.Specs
import Verif.Lemmas.Padded2
import Verif.Props.Charset
import Verif.Props.Fields
/-
Properties of string fields in scan calls: C105.
-/
namespace Scn
open Spec

/-- Does a string field take this character? As documented: a field `c` takes anything, up to its precision; a field aligned to the
    left or centered goes up to the fill character; any other field up to whitespace. -/
def Spec.stringTakes (w : Written) (c : Nat) : Bool :=
  if w.letter = some 99 then true
  else if w.side = .after ∨ w.side = .both then c != w.fillChar
  else ! isSpace c

/-- The value of a string field, and what it leaves of the text it may look at. -/
def Spec.stringTaken (e : Enc) (w : Written) (cps : List Nat) : Res (Val × List Nat) :=
  .ok (.string (encodes e (cps.takeWhile (stringTakes w))), cps.dropWhile (stringTakes w))

/-- Whether whitespace is skipped before values only matters without an alignment. -/
theorem read_skip {V : Type} {F : PaddedField} (h : F.side ≠ .unspecified) (a b : Bool) (rd : List Nat → Res (V × List Nat)) (cps : List Nat) :
    F.read a rd cps = F.read b rd cps := by
  obtain ⟨width, precision, side, fill⟩ := F
  cases side <;> first | exact absurd rfl h | rfl

theorem viewReader_same (e : Enc) (sp : Specs) (k : StrKind) : viewReader e e false sp k = stringReader e e sp k := by
  have hs : ∀ s rest, readStringView e e false s rest = readString e e s rest := by
    intro s rest
    unfold readStringView readString transcodeIfNecessary
    simp only [Bool.false_eq_true, if_false, ne_eq, not_true_eq_false, if_true]
    cases validateUnicode e (between s rest) with
    | none => rfl
    | some b => cases b <;> rfl
  unfold viewReader stringReader
  congr 1
  funext l s
  cases k with
  | word =>
    dsimp only [stringEnd, readWord]
    cases readUntilSpace e l s with
    | none => rfl
    | some it => exact hs _ _
  | customWord =>
    dsimp only [stringEnd, readCustomWord]
    generalize sp.fill.units e = us
    rcases us with _ | ⟨u, _ | ⟨v, t⟩⟩ <;> exact hs _ _
  | character =>
    dsimp only [stringEnd, readCharacters]
    split
    · exact hs _ _
    · rfl
  | characterSet =>
    dsimp only [stringEnd, readCharset]
    cases charsetSource e sp s with
    | ok it => exact hs _ _
    | err c => rfl
    | ub => rfl

/-- A field reads what the reader of its type does, in code points. -/
theorem string_read {e wide : Enc} {loc : LocaleData} {old : Nat} {d : Dest} (hde : d = .string e ∨ d = .view e false) {w : Written}
    (hw : w.Readable e d.argTy []) (hl : w.letter = none ∨ w.letter = some 115 ∨ w.letter = some 99)
    (hnone : w.letter = none → w.side ≠ .after ∧ w.side ≠ .both) (hc : w.letter = some 99 → w.precision.getD 0 ≠ 0)
    (lay : List Nat → Layout) (cps : List Nat) (h : ∀ c ∈ cps, IsScalar c) (hlay : ∀ t, t <:+ cps → GoodLayout e (lay (encodes e t)) t) :
    d.readSpecs e wide loc old (w.specs e) lay (encodes e cps) =
      (w.field.read (decide (w.letter ≠ some 99)) (stringTaken e w) cps).map fun r => (r.1, encodes e r.2) := by
  have hF := describes_written hw
  have hside : (w.specs e).align.side = w.side := hF.side
  have hal : ((w.specs e).align = .left ∨ (w.specs e).align = .center) ↔ (w.side = .after ∨ w.side = .both) := by
    rw [← hside]
    cases (w.specs e).align <;> simp [Align.side]
  obtain ⟨k, hk, hkind, hcheck⟩ : ∃ k, strKind (w.specs e) = some k ∧
      (k = if w.letter = some 99 then .character else if w.side = .after ∨ w.side = .both then .customWord else .word) ∧
      checkString (w.specs e) = true := by
    rcases hl with hl | hl | hl
    · have ht : (w.specs e).type = .none := by show (w.letter.bind letterMeaning).getD .none = _; rw [hl]; rfl
      refine ⟨.word, by unfold strKind; rw [ht], ?_, by unfold checkString; rw [ht]; rfl⟩
      rw [if_neg (by rw [hl]; simp), if_neg (by have := hnone hl; simp [this.1, this.2])]
    · have ht : (w.specs e).type = .string := by show (w.letter.bind letterMeaning).getD .none = _; rw [hl]; rfl
      refine ⟨if w.side = .after ∨ w.side = .both then .customWord else .word, ?_, ?_, by unfold checkString; rw [ht]; rfl⟩
      · unfold strKind
        rw [ht]
        dsimp only
        by_cases hs : w.side = .after ∨ w.side = .both
        · rw [if_pos hs, if_pos (hal.2 hs)]
        · rw [if_neg hs, if_neg fun h => hs (hal.1 h)]
      · rw [if_neg (show ¬ w.letter = some 99 by rw [hl]; simp)]
    · have ht : (w.specs e).type = .character := by show (w.letter.bind letterMeaning).getD .none = _; rw [hl]; rfl
      refine ⟨.character, by unfold strKind; rw [ht], by rw [if_pos hl], ?_⟩
      unfold checkString
      rw [ht, if_neg (by simp), if_pos rfl]
      exact bne_iff_ne.2 (hc hl)
  have hks : k ≠ .characterSet := by
    rw [hkind]
    split
    · simp
    · split <;> simp
  have hrd : d.readSpecs e wide loc old (w.specs e) lay (encodes e cps) = argRead e (w.specs e) ((stringReader e e (w.specs e) k).mapVal .string) lay (encodes e cps) := by
    rcases hde with rfl | rfl
    · have ht : runTypeCheck (Dest.string e).argTy (w.specs e) = some true := by
        cases e <;> exact congrArg some hcheck
      show (match runTypeCheck (Dest.string e).argTy (w.specs e) with | none => _ | some false => _ | some true => _) = _
      rw [ht]
      dsimp only [Dest.specsReader]
      rw [hk]
    · have ht : runTypeCheck (Dest.view e false).argTy (w.specs e) = some true := by
        cases e <;> exact congrArg some hcheck
      show (match runTypeCheck (Dest.view e false).argTy (w.specs e) with | none => _ | some false => _ | some true => _) = _
      rw [ht]
      dsimp only [Dest.specsReader]
      rw [hk]
      dsimp only
      rw [viewReader_same e _ k]
  rw [hrd]
  have hchar : k = .character → (w.specs e).precision ≠ 0 := by
    intro h
    rw [hkind] at h
    split at h
    · rename_i hl
      exact hc hl
    · split at h <;> cases h
  have hwhole := stringReader_whole e (w.specs e) w.field hF k (fun _ => false) (fun h => absurd h hks) hchar
  have htakes : (fun c => ! kindStops k w.field.fill (fun _ => false) c) = stringTakes w := by
    funext c
    unfold stringTakes
    rw [hkind]
    split
    · rfl
    · split <;> rfl
  have hv : Whole e IsScalar ((stringReader e e (w.specs e) k).mapVal Val.string).read (stringTaken e w) := by
    refine ⟨fun l cps h hl => ?_, hwhole.scalar, fun cps v r hr => ?_⟩
    · show Res.map _ ((stringReader e e (w.specs e) k).read l (encodes e cps)) = _
      rw [hwhole.read l cps h hl, if_neg fun x => hks x.1, htakes]
      rfl
    · unfold stringTaken at hr
      injection hr with hr
      injection hr with _ hr
      rw [← hr]
      exact List.dropWhile_suffix _
  rw [argRead_spec e _ _ hF _ _ hv lay cps h hlay]
  congr 1
  by_cases hs : w.field.side = .unspecified
  · have hs' : w.side = .unspecified := hs
    have : ((stringReader e e (w.specs e) k).mapVal Val.string).skipWs = decide (w.letter ≠ some 99) := by
      show (k == .word) = _
      rw [hkind, hs']
      by_cases hl : w.letter = some 99
      · simp [hl]
      · simp [hl]
    rw [this]
  · exact read_skip hs _ _ _ _

/-- C105: in any scan call, a field of a string, or of a string view into the source, with any fill, alignment, width and precision and
    the letter `s`, `c` or none takes the documented text: after what is skipped before the value, `s` goes up to the first whitespace
    or, aligned to the left or centered, up to the first fill character; `c` takes as many characters as the precision allows.
    Partial: without a letter the field must not be aligned to the left or centered. -/
theorem C105_string_fields_partial {e wide : Enc} {cfg : RegexCfg} {loc : LocaleData} {old : Nat} {ds : List Dest} {id : Nat} {d : Dest}
    (hd : ds[id]? = some d) (hde : d = .string e ∨ d = .view e false) (w : Written) (hw : w.Readable e d.argTy []) (hne : w.render e ≠ [])
    (hl : w.letter = none ∨ w.letter = some 115 ∨ w.letter = some 99) (hnone : w.letter = none → w.side ≠ .after ∧ w.side ≠ .both)
    (hc : w.letter = some 99 → w.precision.getD 0 ≠ 0) :
    ∃ read, (∀ gap, FieldMeans (stdEnv e wide cfg loc old ds) ⟨gap, id, some (w.render e), read⟩) ∧
      ∀ cps, (∀ c ∈ cps, IsScalar c) →
        read (encodes e cps) = (w.field.read (decide (w.letter ≠ some 99)) (stringTaken e w) cps).map fun r => (r.1, encodes e r.2) := by
  have hty := std_argTy (e := e) (wide := wide) (cfg := cfg) (loc := loc) (old := old) hd
  refine ⟨(stdEnv e wide cfg loc old ds).readSpecs id (w.specs e), fun gap => ?_, fun cps h => ?_⟩
  · exact fieldMeans_written (env := stdEnv e wide cfg loc old ds) hne (by rw [hty]; rcases hde with rfl | rfl <;> cases e <;> simp [Dest.argTy]) (by rw [hty]; exact hw) gap
  · have hread : (stdEnv e wide cfg loc old ds).readSpecs id (w.specs e) (encodes e cps) =
        d.readSpecs e wide loc old (w.specs e) (fun _ => .contiguous) (encodes e cps) := by
      simp only [stdEnv]; rw [hd]
    rw [hread]
    exact string_read hde hw hl hnone hc _ cps h (fun t _ => by cases e <;> trivial)

/-- C105, `c` without a precision: in any scan call, such a field is an error, whatever the source. -/
theorem C105_unlimited {e wide : Enc} {cfg : RegexCfg} {loc : LocaleData} {old : Nat} {ds : List Dest} {id : Nat} {d : Dest}
    (hd : ds[id]? = some d) (hde : ∃ dst stored, d = .string dst ∨ d = .view dst stored) (w : Written) (hw : w.Readable e d.argTy [])
    (hl : w.letter = some 99) (hc : w.precision.getD 0 = 0) :
    ∃ read, (∀ gap, FieldMeans (stdEnv e wide cfg loc old ds) ⟨gap, id, some (w.render e), read⟩) ∧ ∀ s, read s = .err .invalidFormatString := by
  have hty := std_argTy (e := e) (wide := wide) (cfg := cfg) (loc := loc) (old := old) hd
  have hne : w.render e ≠ [] := by
    unfold Written.render Written.letterPart
    rw [hl]
    simp
  obtain ⟨dst, stored, hde⟩ := hde
  refine ⟨(stdEnv e wide cfg loc old ds).readSpecs id (w.specs e), fun gap => ?_, fun s => ?_⟩
  · exact fieldMeans_written (env := stdEnv e wide cfg loc old ds) hne (by rw [hty]; rcases hde with rfl | rfl <;> cases dst <;> simp [Dest.argTy]) (by rw [hty]; exact hw) gap
  · have hread : (stdEnv e wide cfg loc old ds).readSpecs id (w.specs e) s = d.readSpecs e wide loc old (w.specs e) (fun _ => .contiguous) s := by
      simp only [stdEnv]; rw [hd]
    have hcheck : checkString (w.specs e) = false := by
      have ht : (w.specs e).type = .character := by show (w.letter.bind letterMeaning).getD .none = _; rw [hl]; rfl
      unfold checkString
      rw [ht, if_neg (by simp), if_pos rfl]
      show (w.precision.getD 0 != 0) = false
      rw [hc]
      rfl
    rw [hread]
    have ht : runTypeCheck d.argTy (w.specs e) = some false := by
      rcases hde with rfl | rfl <;> cases dst <;> exact congrArg some hcheck
    unfold Dest.readSpecs
    rw [ht]

theorem setSpecs_unique {e : Enc} {t : SetText} {a b : Specs} (ha : SetSpecs e t a) (hb : SetSpecs e t b) (hp : a.plain = b.plain) : a = b := by
  have h1 : a.literals = b.literals := Nat.eq_of_testBit_eq fun x => by rw [ha.bits, hb.bits]
  have h2 : a.nonascii = b.nonascii := by rw [ha.wide, hb.wide]
  obtain ⟨⟩ := a
  obtain ⟨⟩ := b
  simp only [Specs.plain, Specs.mk.injEq] at hp ⊢
  simp only at h1 h2
  simp_all

/-- C105, sets of characters: in any scan call, a field `{:[...]}` of a string takes the longest prefix of characters the set denotes,
    whitespace included, and fails if there is none. Partial: no range in the set crosses the end of ASCII (`C30_crossing_range_violated`). -/
theorem C105_set_fields_partial {e wide : Enc} {cfg : RegexCfg} {loc : LocaleData} {old : Nat} {ds : List Dest} {id : Nat}
    (hd : ds[id]? = some (.string e)) (t : SetText) (ht : t.Ok) (hx : t.NoCrossing) :
    ∃ read, (∀ gap, FieldMeans (stdEnv e wide cfg loc old ds) ⟨gap, id, some (t.text e), read⟩) ∧
      ∀ cps, (∀ c ∈ cps, IsScalar c) → read (encodes e cps) =
        if cps.takeWhile t.denotes = [] then .err .invalidScannedValue
        else .ok (.string (encodes e (cps.takeWhile t.denotes)), encodes e (cps.dropWhile t.denotes)) := by
  have hty := std_argTy (e := e) (wide := wide) (cfg := cfg) (loc := loc) (old := old) hd
  obtain ⟨⟨sp, err⟩, _, _, h3, h4⟩ := parseSpecs_set cfg e (Dest.string e).argTy t ht []
  dsimp only at h3 h4
  refine ⟨(stdEnv e wide cfg loc old ds).readSpecs id sp, fun gap => ?_, fun cps h => ?_⟩
  · unfold FieldMeans
    dsimp only
    rw [if_neg (by rw [hty]; cases e <;> simp [Dest.argTy])]
    refine ⟨sp, fun r => ?_, rfl⟩
    obtain ⟨⟨sp', err'⟩, g1, g2, g3, g4⟩ := parseSpecs_set cfg e (Dest.string e).argTy t ht r
    dsimp only at g2 g3 g4
    rw [hty]
    show parseSpecs cfg e _ _ _ = _
    rw [g1, setSpecs_unique h3 g3 (by rw [h4, g4]), g2]
  · have hF : Describes e sp ⟨0, 0, .unspecified, 32⟩ := by
      have hw : sp.width = 0 := congrArg Specs.width h4
      have hp : sp.precision = 0 := congrArg Specs.precision h4
      have ha : sp.align = .none := congrArg Specs.align h4
      have hf : sp.fill = Fill.default := congrArg Specs.fill h4
      refine ⟨hw, hp, by rw [ha]; rfl, by rw [hf]; cases e <;> rfl, ascii_scalar (by decide)⟩
    have hk : strKind sp = some .characterSet := by unfold strKind; rw [h3.type]
    have hcheck : checkString sp = true := by unfold checkString; rw [h3.type]; rfl
    have hden : (fun x => codeListed t x != t.inverted) = t.denotes := by
      funext x; rw [codeListed_eq t hx]; rfl
    have hread : (stdEnv e wide cfg loc old ds).readSpecs id sp (encodes e cps) =
        argRead e sp ((stringReader e e sp .characterSet).mapVal .string) (fun _ => .contiguous) (encodes e cps) := by
      simp only [stdEnv]
      rw [hd]
      have ht : runTypeCheck (Dest.string e).argTy sp = some true := by
        cases e <;> exact congrArg some hcheck
      show (match runTypeCheck (Dest.string e).argTy sp with | none => _ | some false => _ | some true => _) = _
      rw [ht]
      dsimp only [Dest.specsReader]
      rw [hk]
    have hwhole := stringReader_whole e sp ⟨0, 0, .unspecified, 32⟩ hF .characterSet t.denotes (fun _ => ⟨t, ht, h3, hden⟩) (fun h => by cases h)
    have hv : Whole e IsScalar ((stringReader e e sp .characterSet).mapVal Val.string).read (fun cps =>
        if cps.takeWhile t.denotes = [] then .err .invalidScannedValue
        else .ok (.string (encodes e (cps.takeWhile t.denotes)), cps.dropWhile t.denotes)) := by
      refine ⟨fun l cps h hl => ?_, hwhole.scalar, fun cps v r hr => ?_⟩
      · show Res.map _ ((stringReader e e sp .characterSet).read l (encodes e cps)) = _
        rw [hwhole.read l cps h hl]
        simp only [kindStops, Bool.not_not, true_and]
        by_cases hn : cps.takeWhile t.denotes = []
        · rw [if_pos hn, if_pos hn]; rfl
        · rw [if_neg hn, if_neg hn]; rfl
      · split at hr
        · cases hr
        · injection hr with hr
          injection hr with _ hr
          rw [← hr]
          exact List.dropWhile_suffix _
    rw [hread, argRead_spec e _ _ hF _ _ hv _ cps h (fun t _ => by cases e <;> trivial)]
    have hsk : ((stringReader e e sp .characterSet).mapVal Val.string).skipWs = false := rfl
    rw [hsk]
    by_cases hn : cps.takeWhile t.denotes = []
    · simp [PaddedField.read, PaddedField.before, PaddedField.view, hn]
    · rw [if_neg hn]
      have hdrop : ∀ a b, cps = a ++ b → cps.drop (cps.length - b.length) = b := by
        rintro a b rfl
        simp
      have hdrop := hdrop _ _ (List.takeWhile_append_dropWhile (p := t.denotes) (l := cps)).symm
      simp [PaddedField.read, PaddedField.before, PaddedField.after, PaddedField.unfinished, PaddedField.view, hn, cols, Res.bind, Res.map, hdrop]

/-- `{:*^5.9s}`. -/
def demoStars : Written := { align := some (some 42, 94), width := some 5, precision := some 9, letter := some 115 }

/-- `{:.4c}`. -/
def demoChars : Written := { precision := some 4, letter := some 99 }

/-- Hypotheses met: `{:*^5.9s}` takes "a b" out of "**a b***!", `{:.4c}` takes " a b" out of " a bc", and `{:c}` is an error. -/
example : demoStars.Readable .utf8 (Dest.string .utf8).argTy [] ∧ demoChars.Readable .utf8 (Dest.view .utf8 false).argTy [] ∧
    (demoStars.field.read true (stringTaken .utf8 demoStars) [42, 42, 97, 32, 98, 42, 42, 42, 33]).map (fun r => (r.1, encodes .utf8 r.2)) =
      .ok (.string [97, 32, 98], [33]) ∧
    (demoChars.field.read false (stringTaken .utf8 demoChars) [32, 97, 32, 98, 99]).map (fun r => (r.1, encodes .utf8 r.2)) =
      .ok (.string [32, 97, 32, 98], [99]) ∧
    ({ letter := some 99 } : Written).Readable .utf8 (Dest.string .utf8).argTy [] := by
  refine ⟨⟨?_, by simp [demoStars], by simp [demoStars], by simp [demoStars], fun c hc => ⟨.string, ?_⟩, fun h => by cases h⟩,
    ⟨by simp [demoChars], by simp [demoChars], by simp [demoChars], by simp [demoChars], fun c hc => ⟨.character, ?_⟩, fun h => by cases h⟩, ?_, ?_,
    ⟨by simp, by simp, by simp, by simp, fun c hc => ⟨.character, ?_⟩, fun h => by cases h⟩⟩
  · intro f a h
    simp only [demoStars, Option.some.injEq, Prod.mk.injEq] at h
    obtain ⟨rfl, rfl⟩ := h
    refine ⟨by simp, fun cp hcp => ?_⟩
    simp only [Option.some.injEq] at hcp
    subst hcp
    exact ⟨ascii_scalar (by decide), by decide, by decide, fun _ => by decide⟩
  · simp only [demoStars, Option.some.injEq] at hc; subst hc; rfl
  · simp only [demoChars, Option.some.injEq] at hc; subst hc; rfl
  · decide +kernel
  · decide +kernel
  · simp only [Option.some.injEq] at hc; subst hc; rfl

/-- Hypotheses met for sets, see also C30: `{:[a-c ]}` takes "a b" out of "a bd". -/
example : (SetText.mk false false [.range 97 99, .one 32]).Ok ∧ (SetText.mk false false [.range 97 99, .one 32]).NoCrossing ∧
    [97, 32, 98, 100].takeWhile (SetText.mk false false [.range 97 99, .one 32]).denotes = [97, 32, 98] := by
  refine ⟨⟨?_, ?_, by decide, by decide, by decide⟩, ?_, by decide⟩
  · intro i hi
    simp at hi
    rcases hi with rfl | rfl <;> (unfold SetItem.Ok; decide)
  · simp [Separated]
  · intro i hi
    simp at hi
    rcases hi with rfl | rfl <;> simp

/-- C105 is violated without a letter, which is documented to mean `s`: aligned to the left or centered, such a field still goes up to
    whitespace, and takes the fill for text. `{:*<}` reads "ab**" out of "ab** c", and `{:*<s}` reads "ab"; on "a b*", `{:*<}` reads
    "a", and `{:*<s}` reads "a b". -/
theorem C105_violated_no_letter :
    let call := fun (fmt src : List Nat) => (vscan (stdEnv .utf8 .utf32 ⟨false, true, true⟩ ⟨44, 46, [], [], fun _ _ _ _ => .bad⟩ 0 [.string .utf8])
      fmt src).map (fun r => (stored r.2, r.1.toOption))
    call [123, 58, 42, 60, 125] [97, 98, 42, 42, 32, 99] = some ([(0, .string [97, 98, 42, 42])], some [32, 99]) ∧
    call [123, 58, 42, 60, 115, 125] [97, 98, 42, 42, 32, 99] = some ([(0, .string [97, 98])], some [32, 99]) ∧
    call [123, 58, 42, 60, 125] [97, 32, 98, 42] = some ([(0, .string [97])], some [32, 98, 42]) ∧
    call [123, 58, 42, 60, 115, 125] [97, 32, 98, 42] = some ([(0, .string [97, 32, 98])], some []) := by
  refine ⟨?_, ?_, ?_, ?_⟩ <;> decide +kernel

end Scn
