import Verif.Lemmas.IntMore
import Verif.Props.Fields2
/-
Property C36 for integers with the thousands separator of a locale.
-/
namespace Scn
open Spec

/-- Reading an integer with a thousands separator from a text: a sign, a prefix of the base, and digits with separators anywhere
    behind the prefix. -/
def Spec.scanIntSep (T : IntTy) (base : Nat) (unsignedOnly : Bool) (sep : Nat) (s : List Nat) : Res (Int × List Nat) :=
  match s with
  | [] => .err .endOfInput
  | c :: _ =>
    if c = 45 ∧ (T.signed = false ∨ unsignedOnly = true) then .err .invalidScannedValue
    else scanSepW T (c == 45) (chooseBase base (afterSign s)).1 sep (chooseBase base (afterSign s)).2

theorem sepRun_encodes (e : Enc) (sep b : Nat) (hsep : IsScalar sep) (h1 : encode e sep = [sep]) (cps : List Nat)
    (h : ∀ cp ∈ cps, IsScalar cp) :
    sepRun sep b (encodes e cps) = sepRun sep b cps ∧ afterSepRun sep b (encodes e cps) = encodes e (afterSepRun sep b cps) := by
  induction cps with
  | nil => exact ⟨rfl, rfl⟩
  | cons c cs ih =>
    obtain ⟨ih1, ih2⟩ := ih (fun x hx => h x (List.mem_cons_of_mem _ hx))
    unfold sepRun afterSepRun at *
    by_cases hc : c = sep
    · subst hc
      rw [encodes_cons, h1]
      simp only [List.cons_append, List.nil_append, List.takeWhile_cons, List.dropWhile_cons, true_or, decide_true, if_true]
      exact ⟨by rw [ih1], ih2⟩
    · by_cases hd : IsDigit b c
      · have hl : c ≤ 127 := Nat.le_of_not_lt fun hh => not_digit_big b c hh hd
        rw [encodes_cons, encode_ascii e c (by omega)]
        simp only [List.cons_append, List.nil_append, List.takeWhile_cons, List.dropWhile_cons, hd, or_true, decide_true, if_true]
        exact ⟨by rw [ih1], ih2⟩
      · have hiff := encode_prefix_iff e sep c hsep (h c (by simp)) (encodes e cs)
        rw [← encodes_cons, h1] at hiff
        have hu : ∃ u us, encodes e (c :: cs) = u :: us ∧ u ≠ sep ∧ ¬ IsDigit b u := by
          rcases encodes_cases e c cs (h c (by simp)) with ⟨_, hE⟩ | ⟨_, u, us, hu, hE⟩
          · exact ⟨c, _, hE, hc, hd⟩
          · refine ⟨u, us, hE, ?_, not_digit_big b u hu⟩
            rintro rfl
            rw [hE] at hiff
            exact hc (hiff.1 ⟨us, rfl⟩).symm
        obtain ⟨u, us, hE, hu1, hu2⟩ := hu
        have g1 : decide (c = sep ∨ IsDigit b c) = false := by simp [hc, hd]
        have g2 : decide (u = sep ∨ IsDigit b u) = false := by simp [hu1, hu2]
        rw [hE, List.takeWhile_cons, List.dropWhile_cons, List.takeWhile_cons, List.dropWhile_cons, g1, g2]
        exact ⟨rfl, hE.symm⟩

theorem scanSepW_encodes (e : Enc) (T : IntTy) (neg : Bool) (b sep : Nat) (hsep : IsScalar sep) (h1 : encode e sep = [sep]) (cps : List Nat)
    (h : ∀ cp ∈ cps, IsScalar cp) :
    scanSepW T neg b sep (encodes e cps) = (scanSepW T neg b sep cps).map fun r => (r.1, encodes e r.2) := by
  obtain ⟨g1, g2⟩ := sepRun_encodes e sep b hsep h1 cps h
  unfold scanSepW
  rw [g1, g2, Res.map_map]

theorem afterSign_encodes (e : Enc) (cps : List Nat) (h : ∀ cp ∈ cps, IsScalar cp) :
    afterSign (encodes e cps) = encodes e (afterSign cps) ∧ afterSign cps <:+ cps := by
  cases cps with
  | nil => exact ⟨rfl, List.suffix_refl _⟩
  | cons c cs =>
    unfold afterSign
    refine ⟨?_, ?_⟩
    · rcases encodes_cases e c cs (h c (by simp)) with ⟨_, hE⟩ | ⟨_, u, us, hu, hE⟩
      · rw [hE]; dsimp only; split
        · rfl
        · exact hE.symm
      · rw [hE]; dsimp only
        rw [if_neg (by omega), if_neg (by omega), hE]
    · dsimp only; split
      · exact List.suffix_cons _ _
      · exact List.suffix_refl _

theorem scanIntSep_encodes (e : Enc) (T : IntTy) (base : Nat) (uo : Bool) (sep : Nat) (hsep : IsScalar sep) (h1 : encode e sep = [sep])
    (cps : List Nat) (h : ∀ cp ∈ cps, IsScalar cp) :
    scanIntSep T base uo sep (encodes e cps) = (scanIntSep T base uo sep cps).map fun r => (r.1, encodes e r.2) := by
  cases cps with
  | nil => rfl
  | cons c cs =>
    obtain ⟨g1, g2⟩ := afterSign_encodes e (c :: cs) h
    have ht : ∀ cp ∈ afterSign (c :: cs), IsScalar cp := fun x hx => h x (g2.subset hx)
    have key := fun neg => scanSepW_encodes e T neg (chooseBase base (afterSign (c :: cs))).1 sep hsep h1 _
      (fun x hx => ht x ((chooseBase_suffix base _).subset hx))
    rcases encodes_cases e c cs (h c (by simp)) with ⟨hc, hE⟩ | ⟨hc, u, us, hu, hE⟩ <;> rw [hE] at g1 ⊢ <;> unfold scanIntSep <;> dsimp only <;>
      rw [g1, chooseBase_encodes e base _ ht]
    · split
      · rfl
      · exact key _
    · have e1 : (u == 45) = false := by rw [beq_eq_false_iff_ne]; omega
      have e2 : (c == 45) = false := by rw [beq_eq_false_iff_ne]; omega
      rw [if_neg (by omega), if_neg (by omega), e1, e2]
      exact key _

/-- The reader of localized integers reads whole characters, unless a zero in front makes the base octal (C10). -/
theorem intSpecsReader_whole (e : Enc) (loc : LocaleData) (T : IntTy) (hT : T.Std) (sp : Specs) (hl : sp.localized = true) (b : Nat)
    (hb : sp.getBase = some b) (h8 : b ≠ 0 ∧ b ≠ 8) (hsep : IsScalar loc.thsep) (h1 : encode e loc.thsep = [loc.thsep]) :
    Whole e (fun cp => IsScalar cp ∧ cp ≠ 16) (intSpecsReader e loc T sp).read (scanIntSep T b (decide (sp.type = .intUnsigned)) loc.thsep) where
  read l cps h _ := by
    have hs : ∀ cp ∈ cps, IsScalar cp := fun x hx => (h x hx).1
    have hbb : 2 ≤ b ∧ b ≤ 36 := by
      unfold Specs.getBase at hb
      split at hb <;> simp at hb <;> omega
    rw [← scanIntSep_encodes e T b _ loc.thsep hsep h1 cps hs, intSpecsReader]
    dsimp only
    rw [hb]
    dsimp only
    rw [if_pos hl]
    have hmem : ∀ x ∈ encodes e cps, x ≠ 16 := by
      rintro x hx rfl
      rw [encodes, List.mem_flatMap] at hx
      obtain ⟨cp, h1, h2⟩ := hx
      exact (h cp h1).2 (encode_mem_ascii e cp 16 (hs cp h1) h2 (by decide))
    have hbytes : (srcOf e l).narrow = true → ∀ x ∈ encodes e cps, x < 256 := by
      intro he
      have he : e = .utf8 := by simpa [srcOf] using he
      subst he
      exact utf8s_bytes cps hs
    cases hE : encodes e cps with
    | nil => rfl
    | cons u us =>
      rw [hE] at hmem hbytes
      rw [readInt_sep _ T hT b loc.thsep _ u us (by omega) (by omega) (Or.inl h8) ?_ hbytes]
      · rfl
      · intro _ _ hh
        rw [afterSign] at hh
        split at hh
        · exact hmem 16 (List.mem_cons_of_mem _ (List.mem_of_mem_head? hh)) rfl
        · exact hmem 16 (List.mem_of_mem_head? hh) rfl
  scalar _ h := h.1
  suffix cps v r h := by
    cases cps with
    | nil => cases h
    | cons c cs =>
      unfold scanIntSep at h
      dsimp only at h
      split at h
      · cases h
      · unfold scanSepW at h
        rename_i hn
        cases hr : scanDigitsW T (c == 45) (chooseBase b (afterSign (c :: cs))).1
            ((sepRun loc.thsep (chooseBase b (afterSign (c :: cs))).1 (chooseBase b (afterSign (c :: cs))).2).filter fun c => c ≠ loc.thsep) with
        | ub => rw [hr] at h; cases h
        | err x => rw [hr] at h; cases h
        | ok p =>
          rw [hr] at h
          cases h
          refine ((List.dropWhile_suffix _).trans (chooseBase_suffix _ _)).trans ?_
          unfold afterSign
          dsimp only
          split
          · exact List.suffix_cons _ _
          · exact List.suffix_refl _

/-- C36 for localized integers: the value of a field is a number with the thousands separators of the locale. Binary, decimal and
    hexadecimal numbers; octal ones are C10. The separator is a character of one unit (that of a locale is a `char` or `wchar_t`). -/
theorem C36_localized_int_partial (e : Enc) (loc : LocaleData) (T : IntTy) (hT : T.Std) (sp : Specs) (hl : sp.localized = true) (b : Nat)
    (hb : sp.getBase = some b) (h8 : b ≠ 0 ∧ b ≠ 8) (hsep : IsScalar loc.thsep) (h1 : encode e loc.thsep = [loc.thsep])
    (F : PaddedField) (hF : Describes e sp F) (lay : List Nat → Layout) (cps : List Nat)
    (h : ∀ cp ∈ cps, IsScalar cp ∧ cp ≠ 16) (hlay : ∀ t, t <:+ cps → GoodLayout e (lay (encodes e t)) t) :
    argRead e sp (intSpecsReader e loc T sp) lay (encodes e cps) =
      (F.read true (scanIntSep T b (decide (sp.type = .intUnsigned)) loc.thsep) cps).map fun r => (r.1, encodes e r.2) :=
  argRead_spec e sp F hF _ _ (intSpecsReader_whole e loc T hT sp hl b hb h8 hsep h1) lay cps h hlay

/-- "{:*^9Ld}" of an `int` on "**1.234**" followed by U+00E9, in a locale that groups with a period. -/
example : Describes .utf8 { ({} : Specs) with width := 9, align := .center, fill := ⟨[42, 0, 0, 0], 1⟩, localized := true, type := .intDecimal }
      ⟨9, 0, .both, 42⟩ ∧
    argRead .utf8 { ({} : Specs) with width := 9, align := .center, fill := ⟨[42, 0, 0, 0], 1⟩, localized := true, type := .intDecimal }
      (intSpecsReader .utf8 ⟨46, 44, [], [], fun _ _ _ _ => .bad⟩ ⟨32, true⟩
        { ({} : Specs) with width := 9, align := .center, fill := ⟨[42, 0, 0, 0], 1⟩, localized := true, type := .intDecimal })
      (fun _ => .contiguous) [42, 42, 49, 46, 50, 51, 52, 42, 42, 0xc3, 0xa9] = .ok (1234, [0xc3, 0xa9]) := by
  refine ⟨⟨rfl, rfl, rfl, rfl, ⟨by show (42:Nat) < _; decide, by show ¬ (_ ≤ (42:Nat) ∧ _); decide⟩⟩, ?_⟩
  decide +kernel

/-- A match of a number of characters, as a match of code units of the text. -/
def Spec.wholeMatch (e : Enc) (cps : List Nat) : Match → Match
  | .found n => .found (encodes e (cps.take n)).length
  | m => m

/-- Reading what an engine matches at the beginning of a text. -/
def Spec.readMatch (e : Enc) (engine : List Nat → Match) (cps : List Nat) : Res (List Nat × List Nat) :=
  match engine cps with
  | .bad => .err .invalidFormatString
  | .none => .err .invalidScannedValue
  | .found n => .ok (encodes e (cps.take n), cps.drop n)

theorem regexReader_whole (e : Enc) (loc : LocaleData) (sp : Specs) (p : List Nat) (hp : regexPattern sp = some p) (engine : List Nat → Match)
    (hE : ∀ t, (∀ cp ∈ t, IsScalar cp) → loc.regex e p sp.regexFlags (encodes e t) = wholeMatch e t (engine t)) (c : Bool) :
    Whole e IsScalar (fun _ s => (regexReader e e loc sp).read (if c then .contiguous else .segmented 0) s)
      (fun cps => if c then readMatch e engine cps else .err .invalidFormatString) where
  read l cps h _ := by
    show (regexStringEnd e loc sp (if c then .contiguous else .segmented 0) (encodes e cps)).bind _ = _
    unfold regexStringEnd
    cases c with
    | false => rfl
    | true =>
      simp only [if_true, ne_eq, not_true_eq_false, if_false]
      rw [hp]
      dsimp only
      rw [hE cps h]
      unfold readMatch
      cases hm : engine cps with
      | bad => rfl
      | none => rfl
      | found n =>
        show (Res.ok ((encodes e cps).drop (encodes e (cps.take n)).length)).bind _ = _
        conv => lhs; arg 1; arg 1; arg 2; rw [← List.take_append_drop n cps, encodes_append]
        rw [List.drop_left, Res.bind_ok]
        conv => lhs; arg 3; rw [← List.take_append_drop n cps]
        rw [readString_encodes e _ _ (fun x hx => h x (List.mem_of_mem_take hx))]
        rfl
  scalar _ h := h
  suffix cps v r h := by
    cases c with
    | false => cases h
    | true =>
      simp only [if_true] at h
      unfold readMatch at h
      split at h
      · cases h
      · cases h
      · cases h; exact List.drop_suffix _ _

/-- C36 for regular expressions: the value of a field is what the engine matches behind the fill, and whitespace is not skipped. With a
    precision there is always an error, since what is left for the value is not contiguous in memory. The engine is a parameter that
    matches whole characters. -/
theorem C36_regex_partial (e : Enc) (loc : LocaleData) (sp : Specs) (p : List Nat) (hp : regexPattern sp = some p) (engine : List Nat → Match)
    (hE : ∀ t, (∀ cp ∈ t, IsScalar cp) → loc.regex e p sp.regexFlags (encodes e t) = wholeMatch e t (engine t))
    (F : PaddedField) (hF : Describes e sp F) (cps : List Nat) (h : ∀ cp ∈ cps, IsScalar cp) :
    argRead e sp (regexReader e e loc sp) (fun _ => .contiguous) (encodes e cps) =
      (F.read false (fun t => if F.precision = 0 then readMatch e engine t else .err .invalidFormatString) cps).map fun r => (r.1, encodes e r.2) := by
  have hlay : ∀ t, t <:+ cps → GoodLayout e ((fun _ => Layout.contiguous) (encodes e t)) t := fun t _ => by cases e <;> trivial
  have hw := argRead_spec e sp F hF ⟨false, fun _ s => (regexReader e e loc sp).read (if (F.precision == 0) then .contiguous else .segmented 0) s⟩
    _ (regexReader_whole e loc sp p hp engine hE _) (fun _ => .contiguous) cps h hlay
  have hrw : (fun t => if (F.precision == 0) = true then readMatch e engine t else Res.err Err.invalidFormatString) =
      fun t => if F.precision = 0 then readMatch e engine t else .err .invalidFormatString := by
    funext t; simp
  rw [hrw] at hw
  rw [← hw]
  have hsame : ∀ l l' s, (l = .contiguous ↔ l' = .contiguous) → (regexReader e e loc sp).read l s = (regexReader e e loc sp).read l' s := by
    intro l l' s hll
    show (regexStringEnd e loc sp l s).bind _ = (regexStringEnd e loc sp l' s).bind _
    unfold regexStringEnd
    simp only [ne_eq, hll]
  unfold argRead
  congr 1
  funext b
  congr 1
  unfold argValue
  rw [hF.precision]
  split
  · rename_i hp
    have hp' : (F.precision == 0) = false := by simpa using hp
    simp only [hp']
    rw [hsame _ (.segmented 0)]
    · rfl
    · simp
  · rename_i hp
    have hp' : (F.precision == 0) = true := by simpa using hp
    simp only [hp', if_true]

/-- "{:*>5/[ab]+/}" on "***abéc" in UTF-8, with an engine that matches as many letters a and b as there are. -/
example : argRead .utf8 { ({} : Specs) with width := 5, align := .right, fill := ⟨[42, 0, 0, 0], 1⟩, type := .regex, setString := [91, 97, 98, 93, 43] }
      (regexReader .utf8 .utf8 ⟨44, 46, [], [], fun _ _ _ s => .found (s.takeWhile fun c => c = 97 ∨ c = 98).length⟩
        { ({} : Specs) with width := 5, align := .right, fill := ⟨[42, 0, 0, 0], 1⟩, type := .regex, setString := [91, 97, 98, 93, 43] })
      (fun _ => .contiguous) [42, 42, 42, 97, 98, 0xc3, 0xa9, 99] = .ok ([97, 98], [0xc3, 0xa9, 99]) := by decide +kernel

/-- An engine as in `C36_regex_partial`, in UTF-8: it matches as many characters below 128 as there are. -/
example (t : List Nat) (h : ∀ cp ∈ t, IsScalar cp) :
    (fun s : List Nat => Match.found (s.takeWhile (· < 128)).length) (encodes .utf8 t) =
      wholeMatch .utf8 t ((fun s : List Nat => Match.found (s.takeWhile (· < 128)).length) t) := by
  simp only [wholeMatch, Match.found.injEq]
  induction t with
  | nil => rfl
  | cons c t ih =>
    have ih := ih (fun x hx => h x (by simp [hx]))
    rcases encodes_cases .utf8 c t (h c (by simp)) with ⟨hc, hE⟩ | ⟨hc, u, us, hu, hE⟩
    · rw [hE, List.takeWhile_cons_of_pos (by simp; omega), List.takeWhile_cons_of_pos (by simp; omega), List.length_cons, List.length_cons,
        List.take_succ_cons, encodes_cons, encode_ascii .utf8 c (by omega), ih]
      rfl
    · rw [hE, List.takeWhile_cons_of_neg (by simp; omega), List.takeWhile_cons_of_neg (by simp; omega)]
      rfl

end Scn
