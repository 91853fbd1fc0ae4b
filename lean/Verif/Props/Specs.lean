import Verif.Lemmas.Calls2
import Verif.Props.Calls
import Verif.Props.Float2
import Verif.Props.Readers
import Verif.Lemmas.RegexMatch
/-
C82: what the specification of a field selects, in any scan call.
The vocabulary is in `Verif/Spec/Calls.lean` (`afterSpaces`, `intLetter`), `Verif/Spec/IntScan.lean` and
`Verif/Spec/Float.lean`. Each theorem gives the `read` of a field (`CallField`), for which `C81_…` says what the call does.
-/
namespace Scn
open Spec

/-! ### C82: integers -/

/-- C82, integers: in any call into built-in destinations, a field `{:c}` with one of the letters `b B o x X d u i` reads, after
    whitespace, an integer in the base of that letter - 2, 8, 16, 10, or chosen by a prefix - and with `u` no negative one.
    `scanIntW` is the specification of integer scanning, with the known deviation of C02. Missing from the full claim: a
    control character 0x10 in front of the digits (C07), and the letters `O` and `rXX`, which are documented but rejected. -/
theorem C82_integer_letters_partial {e wide : Enc} {cfg : RegexCfg} {loc : LocaleData} {old : Nat} {ds : List Dest} {id : Nat} {T : IntTy} {ty : ArgTy}
    (hd : ds[id]? = some (.int T ty)) (hT : T.Std) (hty : ty.category = some .integer ∨ ty.category = some .unsignedInteger)
    {c b : Nat} {uo : Bool} (hc : intLetter c = some (b, uo)) :
    ∃ read, (∀ gap, FieldMeans (stdEnv e wide cfg loc old ds) ⟨gap, id, some [c], read⟩) ∧
      ∀ cps, (∀ x ∈ cps, IsScalar x) → (e = .utf8 → (afterSign (encodes e (cps.dropWhile isSpace))).head? ≠ some 16) →
        read (encodes e cps) = afterSpaces e (fun s => (scanIntW T b uo s).map fun r => (.int r.1, r.2)) cps := by
  obtain ⟨p, h1, h2, h3, h4, h5, h6, h7⟩ := intLetter_facts hc
  have hargty : (Dest.int T ty).argTy = ty := rfl
  have hnc : (stdEnv e wide cfg loc old ds).argTy id ≠ .custom := by
    rw [std_argTy hd, hargty]; intro hx; rw [hx] at hty; simp [ArgTy.category] at hty
  have hsp : ({ letter := some c } : Written).specs e = { type := p } := by
    simp [Written.specs, Written.fillOf, readBack, h1]
  have hcheck : runTypeCheck (Dest.int T ty).argTy { type := p } = some true := by
    have hci : checkInt { type := p } = true := by
      unfold checkInt
      rw [if_neg (by show ¬ p.ord > _; omega)]
      simp
    rw [hargty]
    cases ty <;> simp [ArgTy.category] at hty <;> exact congrArg some hci
  refine ⟨(stdEnv e wide cfg loc old ds).readSpecs id (({ letter := some c } : Written).specs e), fun gap => ?_, fun cps hs hq => ?_⟩
  · exact fieldMeans_written (env := stdEnv e wide cfg loc old ds) (w := { letter := some c }) (by simp [Written.render, Written.letterPart]) hnc
      ⟨by simp, by simp, by simp, by simp, fun c' hc' => ⟨p, by simp at hc'; rw [← hc']; exact h1⟩, by simp⟩ gap
  · rw [hsp, std_plain hd hcheck ⟨rfl, rfl, rfl⟩ rfl hs]
    unfold afterSpaces
    split
    · rfl
    · show Res.map _ ((intSpecsReader e loc T { type := p }).read .contiguous _) = _
      unfold intSpecsReader
      dsimp only
      rw [h5 { type := p } rfl]
      dsimp only
      rw [if_neg (by simp), ← h4, readInt_W _ T hT b uo _ h6]
      · intro _ hn
        exact hq (utf8_units hn)
      · intro hn
        have he := utf8_units hn
        subst he
        exact utf8s_bytes _ fun x hx => hs x (List.dropWhile_sublist _ |>.subset hx)

/-- C82, integers with `L`: with `{:L}` (decimal) or `{:Lc}`, the locale's thousands separators between the digits are ignored. The
    letters `b` and `B` are refused with `L`. -/
theorem C82_integer_localized_partial {e wide : Enc} {cfg : RegexCfg} {loc : LocaleData} {old : Nat} {ds : List Dest} {id : Nat} {T : IntTy} {ty : ArgTy}
    (hd : ds[id]? = some (.int T ty)) (hT : T.Std) (hty : ty.category = some .integer ∨ ty.category = some .unsignedInteger)
    (letter : Option Nat) {b : Nat} {uo : Bool} (hc : (letter.map intLetter).getD (some (10, false)) = some (b, uo)) (hb : b ≠ 2) :
    ∃ read, (∀ gap, FieldMeans (stdEnv e wide cfg loc old ds) ⟨gap, id, some (76 :: letter.toList), read⟩) ∧
      ∀ cps c t, (∀ x ∈ cps, IsScalar x) → encodes e (cps.dropWhile isSpace) = c :: t →
        ((b ≠ 0 ∧ b ≠ 8) ∨ (if c = 45 ∨ c = 43 then t else c :: t).head? ≠ some 48) →
        (e = .utf8 → (afterSign (c :: t)).head? ≠ some 16) →
        read (encodes e cps) =
          (if c = 45 ∧ (T.signed = false ∨ uo = true) then .err .invalidScannedValue
           else (scanSepW T (c == 45) (chooseBase b (afterSign (c :: t))).1 loc.thsep (chooseBase b (afterSign (c :: t))).2).map
            fun r => (.int r.1, r.2)) := by
  obtain ⟨p, h1, h2, h3, h4, h5, h6, h7⟩ : ∃ p, (letter.bind letterMeaning).getD .none = p ∧ p.ord ≤ Pres.intHex.ord ∧ p ≠ .intArbitrary ∧ uo = decide (p = .intUnsigned) ∧
      (∀ sp : Specs, sp.type = p → sp.getBase = some b) ∧ (b = 0 ∨ (2 ≤ b ∧ b ≤ 36)) ∧ p ≠ .intBinary := by
    cases letter with
    | none =>
      simp only [Option.map_none, Option.getD_none, Option.some.injEq, Prod.mk.injEq] at hc
      obtain ⟨rfl, rfl⟩ := hc
      exact ⟨.none, rfl, by decide, by decide, by decide, fun sp hsp => by unfold Specs.getBase; rw [hsp], by decide, by decide⟩
    | some c =>
      simp only [Option.map_some, Option.getD_some] at hc
      obtain ⟨p, h1, h2, h3, h4, h5, h6, h7⟩ := intLetter_facts hc
      exact ⟨p, by simp [h1], h2, h3, h4, h5, h6, fun h => hb (h7.1 h)⟩
  have hargty : (Dest.int T ty).argTy = ty := rfl
  have hnc : (stdEnv e wide cfg loc old ds).argTy id ≠ .custom := by
    rw [std_argTy hd, hargty]; intro hx; rw [hx] at hty; simp [ArgTy.category] at hty
  have hsp : ({ localized := true, letter := letter } : Written).specs e = { type := p, localized := true } := by
    simp [Written.specs, Written.fillOf, readBack, h1]
  have hcheck : runTypeCheck (Dest.int T ty).argTy { type := p, localized := true } = some true := by
    have hci : checkInt { type := p, localized := true } = true := by
      unfold checkInt
      rw [if_neg (by show ¬ p.ord > _; omega)]
      simp [h3, h7]
    rw [hargty]
    cases ty <;> simp [ArgTy.category] at hty <;> exact congrArg some hci
  have hrender : ({ localized := true, letter := letter } : Written).render e = 76 :: letter.toList := by cases letter <;> rfl
  refine ⟨(stdEnv e wide cfg loc old ds).readSpecs id (({ localized := true, letter := letter } : Written).specs e), fun gap => ?_, fun cps c t hs ht hoct hq => ?_⟩
  · have := fieldMeans_written (env := stdEnv e wide cfg loc old ds) (w := { localized := true, letter := letter })
      (show Written.render e _ ≠ [] by rw [hrender]; simp) hnc
      ⟨by simp, by simp, by simp, fun _ => by rw [std_argTy hd, hargty]; rcases hty with h | h <;> simp [h],
        fun c' hc' => by
          dsimp only at hc'
          subst hc'
          obtain ⟨p', hp', _⟩ := intLetter_facts hc
          exact ⟨p', hp'⟩,
        by simp⟩ gap
    rw [show ({ localized := true, letter := letter } : Written).render (stdEnv e wide cfg loc old ds).enc = _ from hrender] at this
    exact this
  · rw [hsp, std_plain hd hcheck ⟨rfl, rfl, rfl⟩ rfl hs]
    unfold afterSpaces
    rw [if_neg (by intro hx; rw [hx] at ht; cases ht)]
    show Res.map _ ((intSpecsReader e loc T { type := p, localized := true }).read .contiguous _) = _
    unfold intSpecsReader
    dsimp only
    rw [h5 { type := p, localized := true } rfl]
    dsimp only
    rw [if_pos rfl, ← h4, ht]
    have haft : afterSign (c :: t) = if c = 45 ∨ c = 43 then t else c :: t := rfl
    rw [readInt_sep _ T hT b loc.thsep uo c t (by omega) (by omega) hoct]
    · rw [haft]; split <;> rfl
    · intro _ hn; exact hq (utf8_units hn)
    · intro hn
      have he := utf8_units hn
      subst he
      rw [← ht]
      exact utf8s_bytes _ fun x hx => hs x (List.dropWhile_sublist _ |>.subset hx)

/-! ### C82: floating-point numbers -/

/-- The whitespace in front of a text that begins with a sign, a digit or a letter. -/
theorem afterSpaces_at {V : Type} {e : Enc} {ws cps : List Nat} {c : Nat} {t : List Nat} (hw : Spaces ws) (hs : ∀ x ∈ cps, IsScalar x)
    (hx : encodes e cps = c :: t) (hc : c < 128) (hsp : isSpace c = false) (rd : List Nat → Res (V × List Nat)) :
    afterSpaces e rd (ws ++ cps) = rd (encodes e cps) := by
  have hd : (ws ++ cps).dropWhile isSpace = cps := by
    cases cps with
    | nil => cases hx
    | cons d ds =>
      have hdc : d = c := by
        rcases encodes_cases e d ds (hs d (by simp)) with ⟨_, h1⟩ | ⟨_, u, us, h1, h2⟩
        · rw [h1] at hx; exact (List.cons.inj hx).1
        · rw [h2] at hx; have := (List.cons.inj hx).1; omega
      subst hdc
      exact dropWhile_stop _ _ _ (fun x hx' => by rw [(hw x hx').2]) (Or.inr ⟨d, ds, rfl, hsp⟩)
  unfold afterSpaces
  rw [hd, if_neg (by intro h; rw [h] at hx; cases hx)]

/-- The first unit of a signed number. -/
theorem signed_head {sg t : List Nat} (hsg : SignText sg) (ht : ∃ c cs, t = c :: cs ∧ c < 128 ∧ isSpace c = false) :
    ∃ c cs, sg ++ t = c :: cs ∧ c < 128 ∧ isSpace c = false := by
  rcases hsg with rfl | rfl | rfl
  · simpa using ht
  · exact ⟨43, t, rfl, by decide, by decide⟩
  · exact ⟨45, t, rfl, by decide, by decide⟩

theorem floatPres_facts {p : Pres} (hp : FloatPres p) : checkFloat { type := p } = true ∧ checkFloat { type := p, localized := true } = true := by
  rcases hp with rfl | rfl | rfl | rfl | rfl <;> decide

/-- C82, floating-point numbers: in any call, a field `{:c}` with one of the letters `a A e E f F g G` reads, after whitespace, the
    number in that notation (`FloatText`) whose text is the longest possible, as `C39_roundtrip_partial` says. -/
theorem C82_float_letters_partial {e wide : Enc} {cfg : RegexCfg} {loc : LocaleData} {old : Nat} {ds : List Dest} {id : Nat} {ty : ArgTy} {cv : FloatConv Nat} {seg : Bool}
    {round : List Nat → Rounded Nat} (hd : ds[id]? = some (.float ty cv seg)) (hcv : ConvOk cv round) (hty : ty.category = some .floating) {c : Nat} {p : Pres}
    (hc : letterMeaning c = some p) (hp : FloatPres p) :
    ∃ read, (∀ gap, FieldMeans (stdEnv e wide cfg loc old ds) ⟨gap, id, some [c], read⟩) ∧
      ∀ ws cps sg t rest, Spaces ws → (∀ x ∈ cps, IsScalar x) → encodes e cps = sg ++ t ++ rest → SignText sg → Longest (FloatText p) (t ++ rest) t →
        ((∃ c cs, t = c :: cs ∧ IsDigit 10 c) ∨ InfText t ∨ (NanText t ∧ (t.length = 3 → ∀ cs, rest ≠ 40 :: cs))) →
        ∀ r, FloatMeans cv round p t r →
        read (encodes e (ws ++ cps)) = (scanned cv sg rest r).map fun r => (.float r.1, r.2) := by
  have hargty : (Dest.float ty cv seg).argTy = ty := rfl
  have hnc : (stdEnv e wide cfg loc old ds).argTy id ≠ .custom := by
    rw [std_argTy hd, hargty]; intro hx; rw [hx] at hty; simp [ArgTy.category] at hty
  have hsp : ({ letter := some c } : Written).specs e = { type := p } := by
    simp [Written.specs, Written.fillOf, readBack, hc]
  have hcheck : runTypeCheck (Dest.float ty cv seg).argTy { type := p } = some true := by
    rw [hargty]
    cases ty <;> simp [ArgTy.category] at hty <;> exact congrArg some (floatPres_facts hp).1
  refine ⟨(stdEnv e wide cfg loc old ds).readSpecs id (({ letter := some c } : Written).specs e), fun gap => ?_,
    fun ws cps sg t rest hw hs hx hsg hL ht r hr => ?_⟩
  · exact fieldMeans_written (env := stdEnv e wide cfg loc old ds) (w := { letter := some c }) (by simp [Written.render, Written.letterPart]) hnc
      ⟨by simp, by simp, by simp, by simp, fun c' hc' => ⟨p, by simp at hc'; rw [← hc']; exact hc⟩, by simp⟩ gap
  · have hhead : ∃ c cs, t = c :: cs ∧ c < 128 ∧ isSpace c = false := by
      rcases ht with ⟨c, cs, h1, h2⟩ | h | ⟨h, _⟩
      · exact ⟨c, cs, h1, by have := (isDec_iff c).2 h2; simp [isDec] at this; omega, digit_not_space h2⟩
      · obtain ⟨c, cs, h1, h2⟩ := inf_head h
        exact ⟨c, cs, h1, by omega, by rcases h2 with rfl | rfl <;> decide⟩
      · obtain ⟨c, cs, h1, h2⟩ := nan_head h
        exact ⟨c, cs, h1, by omega, by rcases h2 with rfl | rfl <;> decide⟩
    obtain ⟨d, dr, h1, h2, h3⟩ := signed_head hsg hhead
    rw [hsp, std_plain hd hcheck ⟨rfl, rfl, rfl⟩ rfl (scalar_append (fun x hx' => (hw x hx').1) hs),
      afterSpaces_at (c := d) (t := dr ++ rest) hw hs (by rw [hx, h1]; rfl) h2 h3, hx]
    show Res.map _ (readFloatAs cv e _ seg (floatLocOf loc false) p (sg ++ t ++ rest)) = _
    rw [show floatLocOf loc false = .classic from rfl,
      C39_roundtrip_partial hcv e _ seg p hp sg t rest hsg (fun he u hu => ?_) hL r hr ht (Or.inl rfl)]
    subst he
    exact utf8s_bytes _ hs u (by show u ∈ encodes .utf8 cps; rw [hx]; simp [hu])

/-- C82, floating-point numbers with `L`: the locale's decimal point and separators are used, as `C73_localized_partial` says. -/
theorem C82_float_localized_partial {e wide : Enc} {cfg : RegexCfg} {loc : LocaleData} {old : Nat} {ds : List Dest} {id : Nat} {ty : ArgTy} {cv : FloatConv Nat} {seg : Bool}
    {round : List Nat → Rounded Nat} (hd : ds[id]? = some (.float ty cv seg)) (hcv : ConvOk cv round) (hty : ty.category = some .floating) (letter : Option Nat)
    (hletter : ∀ c, letter = some c → ∃ p, letterMeaning c = some p) {p : Pres} (hc : (letter.bind letterMeaning).getD .none = p) (hp : FloatPres p)
    (hl : LocOk ⟨loc.thsep, loc.point⟩) (hn : ¬ (loc.thsep = 0 ∧ loc.point = 46)) :
    ∃ read, (∀ gap, FieldMeans (stdEnv e wide cfg loc old ds) ⟨gap, id, some (76 :: letter.toList), read⟩) ∧
      ∀ ws cps sg t rest, Spaces ws → (∀ x ∈ cps, IsScalar x) → encodes e cps = sg ++ t ++ rest → SignText sg →
        Longest (LocNumberText ⟨loc.thsep, loc.point⟩ p) (t ++ rest) t → (∃ c cs, t = c :: cs ∧ IsDigit 10 c) →
        (p = .none → ∀ x r, t ++ rest = 48 :: x :: r → x ≠ 120 ∧ x ≠ 88) →
        read (encodes e (ws ++ cps)) = (scanned cv sg rest (round (delocalize ⟨loc.thsep, loc.point⟩ t))).map fun r => (.float r.1, r.2) := by
  have hargty : (Dest.float ty cv seg).argTy = ty := rfl
  have hnc : (stdEnv e wide cfg loc old ds).argTy id ≠ .custom := by
    rw [std_argTy hd, hargty]; intro hx; rw [hx] at hty; simp [ArgTy.category] at hty
  have hsp : ({ localized := true, letter := letter } : Written).specs e = { type := p, localized := true } := by
    simp [Written.specs, Written.fillOf, readBack, hc]
  have hcheck : runTypeCheck (Dest.float ty cv seg).argTy { type := p, localized := true } = some true := by
    rw [hargty]
    cases ty <;> simp [ArgTy.category] at hty <;> exact congrArg some (floatPres_facts hp).2
  have hrender : ({ localized := true, letter := letter } : Written).render e = 76 :: letter.toList := by cases letter <;> rfl
  refine ⟨(stdEnv e wide cfg loc old ds).readSpecs id (({ localized := true, letter := letter } : Written).specs e), fun gap => ?_,
    fun ws cps sg t rest hw hs hx hsg hL ht hx0 => ?_⟩
  · have := fieldMeans_written (env := stdEnv e wide cfg loc old ds) (w := { localized := true, letter := letter })
      (show Written.render e _ ≠ [] by rw [hrender]; simp) hnc
      ⟨by simp, by simp, by simp, fun _ => by rw [std_argTy hd, hargty]; simp [hty], hletter, by simp⟩ gap
    rw [show ({ localized := true, letter := letter } : Written).render (stdEnv e wide cfg loc old ds).enc = _ from hrender] at this
    exact this
  · have hhead : ∃ c cs, t = c :: cs ∧ c < 128 ∧ isSpace c = false := by
      obtain ⟨c, cs, h1, h2⟩ := ht
      exact ⟨c, cs, h1, by have := (isDec_iff c).2 h2; simp [isDec] at this; omega, digit_not_space h2⟩
    obtain ⟨d, dr, h1, h2, h3⟩ := signed_head hsg hhead
    rw [hsp, std_plain hd hcheck ⟨rfl, rfl, rfl⟩ rfl (scalar_append (fun x hx' => (hw x hx').1) hs),
      afterSpaces_at (c := d) (t := dr ++ rest) hw hs (by rw [hx, h1]; rfl) h2 h3, hx]
    show Res.map _ (readFloatAs cv e _ seg (floatLocOf loc true) p (sg ++ t ++ rest)) = _
    rw [show floatLocOf loc true = ⟨loc.thsep, loc.point⟩ from rfl,
      C73_localized_partial hcv e _ seg ⟨loc.thsep, loc.point⟩ hl hn p sg t rest hsg hL ht hx0]

/-! ### C82: booleans -/

/-- C82, booleans: in any call, a field with a letter reads, after whitespace, one of the documented spellings for that letter:
    `s` for words, an integer letter for `0` and `1`. -/
theorem C82_bool_letters {e wide : Enc} {cfg : RegexCfg} {loc : LocaleData} {old : Nat} {ds : List Dest} {id : Nat} (hd : ds[id]? = some .bool)
    {c : Nat} {p : Pres} (hc : letterMeaning c = some p) (hp : p ∈ documented .bool) :
    ∃ read, (∀ gap, FieldMeans (stdEnv e wide cfg loc old ds) ⟨gap, id, some [c], read⟩) ∧
      ∀ cps, (∀ x ∈ cps, IsScalar x) → ∃ rd : List Nat → Res (Bool × List Nat), (∀ s, ReadsWord (boolWords p) s (rd s)) ∧
        read (encodes e cps) = afterSpaces e (fun s => (rd s).map fun r => (.bool r.1, r.2)) cps := by
  have hnc : (stdEnv e wide cfg loc old ds).argTy id ≠ .custom := by rw [std_argTy hd]; simp [Dest.argTy]
  have hsp : ({ letter := some c } : Written).specs e = { type := p } := by
    simp [Written.specs, Written.fillOf, readBack, hc]
  have hcheck : runTypeCheck Dest.bool.argTy { type := p } = some true := by
    simp only [documented, List.mem_cons, List.not_mem_nil, or_false] at hp
    rcases hp with rfl | rfl | rfl | rfl | rfl | rfl | rfl | rfl <;> decide
  refine ⟨(stdEnv e wide cfg loc old ds).readSpecs id (({ letter := some c } : Written).specs e), fun gap => ?_, fun cps hs => ?_⟩
  · exact fieldMeans_written (env := stdEnv e wide cfg loc old ds) (w := { letter := some c }) (by simp [Written.render, Written.letterPart]) hnc
      ⟨by simp, by simp, by simp, by simp, fun c' hc' => ⟨p, by simp at hc'; rw [← hc']; exact hc⟩, by simp⟩ gap
  · refine ⟨(boolReader loc { type := p }).read .contiguous, fun s => C37_spellings loc { type := p } rfl hcheck .contiguous s, ?_⟩
    rw [hsp, std_plain hd hcheck ⟨rfl, rfl, rfl⟩ rfl hs]
    rfl

/-! ### C82: regular expressions -/

/-- C82, regular expressions: in any call, a field `{:/pattern/flags}` of a string gives the engine the pattern, the flags and what
    is left of the source (whitespace is not skipped); the string is exactly what the engine matched, and the source goes on right
    after it. No match, and a pattern the engine refuses, are errors. -/
theorem C82_regex_string_partial {e wide : Enc} {cfg : RegexCfg} {loc : LocaleData} {old : Nat} {ds : List Dest} {id : Nat} (hd : ds[id]? = some (.string e))
    (hwide : e ≠ .utf8 → cfg.wide = true) (p flags : List Nat) (hp : p ≠ []) (hfirst : ∀ c, p.head? = some c → c ≠ 60 ∧ c ≠ 62 ∧ c ≠ 94)
    (hlast : p.getLast? ≠ some 92) (hflags : ∀ c ∈ flags, flagOk cfg c) (hnd : flags.Nodup) :
    ∃ read, (∀ gap, FieldMeans (stdEnv e wide cfg loc old ds) ⟨gap, id, some (47 :: escapeSlashes p ++ 47 :: flags), read⟩) ∧
      ∀ a b, (∀ x ∈ a, IsScalar x) →
        (loc.regex e p (flagBits flags) (encodes e (a ++ b)) = .found (encodes e a).length → read (encodes e (a ++ b)) = .ok (.string (encodes e a), encodes e b)) ∧
        (loc.regex e p (flagBits flags) (encodes e (a ++ b)) = .none → read (encodes e (a ++ b)) = .err .invalidScannedValue) ∧
        (loc.regex e p (flagBits flags) (encodes e (a ++ b)) = .bad → read (encodes e (a ++ b)) = .err .invalidFormatString) := by
  have hpat := (regex_written cfg e hwide .narrowString p flags [] hp hfirst hlast hflags hnd).2
  refine ⟨(stdEnv e wide cfg loc old ds).readSpecs id (regexSpecs p flags), fun gap => ?_, fun a b ha => ?_⟩
  · unfold FieldMeans
    dsimp only
    rw [if_neg (by rw [std_argTy hd]; cases e <;> simp [Dest.argTy])]
    refine ⟨regexSpecs p flags, fun r => ?_, rfl⟩
    have := (regex_written cfg e hwide ((stdEnv e wide cfg loc old ds).argTy id) p flags r hp hfirst hlast hflags hnd).1
    rw [show (47 :: escapeSlashes p ++ 47 :: flags) ++ 125 :: r = 47 :: escapeSlashes p ++ 47 :: (flags ++ 125 :: r) by simp]
    exact this
  · have hread : (stdEnv e wide cfg loc old ds).readSpecs id (regexSpecs p flags) (encodes e (a ++ b)) =
        Dest.readSpecs e wide loc old (.string e) (regexSpecs p flags) (fun _ => .contiguous) (encodes e (a ++ b)) := by
      simp only [stdEnv]; rw [hd]
    rw [hread, string_at e wide loc old hp hpat]
    refine ⟨fun h => ?_, fun h => by rw [h], fun h => by rw [h]⟩
    rw [h]
    dsimp only
    rw [show (encodes e (a ++ b)).drop (encodes e a).length = encodes e b by rw [encodes_append]; simp, readString_encodes e a b ha]
    rfl

/-! ### C82: examples -/

/-- `{:o}`, `{:u}`, `{:i}` and `{:LX}` into integers. -/
example : intLetter 111 = some (8, false) ∧ intLetter 117 = some (10, true) ∧ intLetter 105 = some (0, false) ∧
    ((some 88 : Option Nat).map intLetter).getD (some (10, false)) = some (16, false) ∧ ((none : Option Nat).map intLetter).getD (some (10, false)) = some (10, false) ∧
    ArgTy.int.category = some .integer ∧ (⟨32, true⟩ : IntTy).Std := by
  refine ⟨rfl, rfl, rfl, rfl, rfl, rfl, by decide⟩

/-- "{:o} {:i}" on " 17 0x1f!": 15 and 31; "{:L}" of "1,234" is 1234. -/
example :
    (vscan (stdEnv .utf8 .utf32 ⟨false, true, true⟩ ⟨44, 46, [], [], fun _ _ _ _ => .bad⟩ 0 [.int ⟨32, true⟩ .int, .int ⟨32, true⟩ .int])
      [123, 58, 111, 125, 32, 123, 58, 105, 125] [32, 49, 55, 32, 48, 120, 49, 102, 33]).map (fun r => (stored r.2, r.1.toOption)) =
        some ([(0, .int 15), (1, .int 31)], some [33]) ∧
    (vscan (stdEnv .utf8 .utf32 ⟨false, true, true⟩ ⟨44, 46, [], [], fun _ _ _ _ => .bad⟩ 0 [.int ⟨32, true⟩ .int])
      [123, 58, 76, 125] [49, 44, 50, 51, 52]).map (fun r => (stored r.2, r.1.toOption)) = some ([(0, .int 1234)], some []) := by decide +kernel

/-- `{:f}` of " 2.5" and, with decimal comma, `{:Lf}` of " 2,5". -/
example : letterMeaning 102 = some .floatFixed ∧ FloatPres .floatFixed ∧ Spaces [32] ∧ encodes .utf8 [50, 46, 53] = [] ++ [50, 46, 53] ++ [] ∧
    LocOk ⟨0, 44⟩ ∧ ¬ ((0 : Nat) = 0 ∧ (44 : Nat) = 46) := by
  refine ⟨rfl, by unfold FloatPres; simp, by unfold Spaces IsScalar; decide, by decide, ?_, by decide⟩
  unfold LocOk; decide

/-- `{:s}` of "true", `{:d}` of "1". -/
example : letterMeaning 115 = some .string ∧ Pres.string ∈ documented .bool ∧ letterMeaning 100 = some .intDecimal ∧ Pres.intDecimal ∈ documented .bool := by decide

/-- `{:/a+/i}`. -/
example : let p := [97, 43]
    p ≠ [] ∧ (∀ c, p.head? = some c → c ≠ 60 ∧ c ≠ 62 ∧ c ≠ 94) ∧ p.getLast? ≠ some 92 ∧ (∀ c ∈ [105], flagOk ⟨true, true, true⟩ c) ∧ [105].Nodup ∧
      47 :: escapeSlashes p ++ 47 :: [105] = [47, 97, 43, 47, 105] ∧ flagBits [105] = 4 := by
  refine ⟨by decide, by simp, by decide, by unfold flagOk; simp, by decide, by decide, by decide⟩

/-! ### C35: a precision of zero -/

/-- C35 is about limits from 1 on. A limit of 0 is none: a field with ".0" in its specification is read exactly as the field without it (so ".0" does not
    keep a field from consuming text). -/
theorem C35_zero_no_limit {V : Type} {env : Env V} {w : Written} (hp : w.precision = some 0) {id : Nat} (hc : env.argTy id ≠ .custom)
    (hw : w.Readable env.enc (env.argTy id) []) (gap : List Nat) :
    FieldMeans env ⟨gap, id, some (w.render env.enc), env.readSpecs id (({ w with precision := none } : Written).specs env.enc)⟩ := by
  have h : ({ w with precision := none } : Written).specs env.enc = w.specs env.enc := by simp [Written.specs, Written.fillOf, hp, readBack]
  rw [h]
  refine fieldMeans_written (fun hr => ?_) hc hw gap
  have := congrArg List.length hr
  simp [Written.render, Written.precisionPart, hp] at this
/-- "{:.0s}" on "ab" reads both characters; with ".1" one. -/
example : (vscan (stdEnv .utf8 .utf32 ⟨false, true, true⟩ ⟨44, 46, [], [], fun _ _ _ _ => .bad⟩ 0 [.string .utf8])
      [123, 58, 46, 48, 115, 125] [97, 98]).map (fun r => (stored r.2, r.1.toOption)) = some ([(0, .string [97, 98])], some []) ∧
    (vscan (stdEnv .utf8 .utf32 ⟨false, true, true⟩ ⟨44, 46, [], [], fun _ _ _ _ => .bad⟩ 0 [.string .utf8])
      [123, 58, 46, 49, 115, 125] [97, 98]).map (fun r => (stored r.2, r.1.toOption)) = some ([(0, .string [97])], some [98]) := by decide +kernel
/-- ".0s" meets the hypotheses. -/
example : ({ precision := some 0, letter := some 115 } : Written).Readable .utf8 .narrowString [] := by
  refine ⟨by simp, by simp, by simp, by simp, ?_, by simp [Written.render, Written.precisionPart]⟩
  intro c hc; cases hc; exact ⟨.string, rfl⟩

end Scn
