import Verif.Props.Charset
import Verif.Props.Unicode
import Verif.Props.Chrono4
/-
Property C86: names of time zones and fractions of seconds, with the scan of a character set that the code uses for them.
-/
namespace Scn
open Spec

/-- The names of time zones as documented: letters, digits, `-`, `+`, `_` and `/`. -/
def Spec.zoneChar (c : Nat) : Bool :=
  (97 ≤ c && c ≤ 122) || (65 ≤ c && c ≤ 90) || (48 ≤ c && c ≤ 57) || c == 45 || c == 43 || c == 95 || c == 47

/-- `0` to `9`. -/
def Spec.decDigit (c : Nat) : Bool := 48 ≤ c && c ≤ 57

/-- A reader of date and time fields that scans strings of a character set as the code does. -/
def Spec.ScansSets (cfg : ChronoCfg) : Prop :=
  ∃ wide rx loc lay, cfg.scanSet = scanSetStd cfg.enc wide rx loc lay

theorem readString_narrow (e : Enc) (a b : List Nat) (h : ∀ cp ∈ a, IsScalar cp) :
    readString e .utf8 (encodes e (a ++ b)) (encodes e b) = .ok (encodes .utf8 a, encodes e b) := by
  by_cases he : e = .utf8
  · subst he; exact readString_encodes .utf8 a b h
  · unfold readString
    rw [encodes_append, between_append, validate_encodes e a h]
    have ht : transcodeValid e .utf8 (encodes e a) = some (encodes .utf8 a) := by
      cases e with
      | utf8 => exact absurd rfl he
      | utf16 => exact C15_wide16_to_narrow_partial a h
      | utf32 => rw [show encodes .utf32 a = a from List.flatMap_singleton' a]; exact C15_wide32_to_narrow_partial a h
    simp only [transcodeIfNecessary, if_neg he, ht]
    rfl

/-- A field of a set without width, precision and alignment. -/
theorem argRead_set (e dst : Enc) (wide : Enc) (loc : LocaleData) (old : Nat) (lay : List Nat → Layout) (sp : Specs) (hty : sp.type = .stringSet)
    (hp : sp.precision = 0) (hw : sp.width = 0) (ha : sp.align = .none) (s : List Nat) :
    argRead e sp ((Dest.string dst).specsReader e wide loc old sp) lay s =
      (readCharset e dst sp s).map fun r => (Val.string r.1, r.2) := by
  have hk : (Dest.string dst).specsReader e wide loc old sp = (stringReader e dst sp .characterSet).mapVal .string := by
    simp only [Dest.specsReader, strKind, hty]
  rw [hk]
  have hsk : ((stringReader e dst sp .characterSet).mapVal Val.string).skipWs = false := rfl
  have hrd : ∀ l s, ((stringReader e dst sp .characterSet).mapVal Val.string).read l s = (readCharset e dst sp s).map fun r => (Val.string r.1, r.2) := by
    intro l s
    rfl
  have hb : argBefore e sp false (lay s) s = .ok (s, 0) := by
    simp [argBefore, argPrefix, hp, ha]
  unfold argRead
  rw [hsk, hb]
  simp only [Res.bind, argValue, hp, hw, ne_eq, not_true_eq_false, if_false, hrd]
  cases readCharset e dst sp s with
  | ub => rfl
  | err x => rfl
  | ok r =>
    have hafter : argAfter e sp false (lay r.2) 0 0 r.2 = .ok (r.2, 0) := by
      unfold argAfter argPostfix
      split
      · rfl
      · simp [ha, hp, hw]
    simp only [Res.map, hafter]
    simp [checkWidths, hp, hw]

/-- The scan of a string of a set. -/
theorem scanSetStd_spec (e wide : Enc) (rx : RegexCfg) (loc : LocaleData) (lay : List Nat → Layout) (t : SetText) (ht : t.Ok) (hx : t.NoCrossing)
    (cps : List Nat) (hs : ∀ cp ∈ cps, IsScalar cp) :
    scanSetStd e wide rx loc lay (t.text e) (encodes e cps) =
      if cps.takeWhile t.denotes = [] then .err .invalidScannedValue
      else .ok (encodes .utf8 (cps.takeWhile t.denotes), encodes e (cps.dropWhile t.denotes)) := by
  obtain ⟨st, h1, h2, h3, h4⟩ := parseSpecs_set rx e .narrowString t ht []
  have hd : (fun x => codeListed t x != t.inverted) = t.denotes := by
    funext x; rw [codeListed_eq t hx]; rfl
  have hp : st.specs.precision = 0 := congrArg Specs.precision h4
  have hw : st.specs.width = 0 := congrArg Specs.width h4
  have ha : st.specs.align = .none := congrArg Specs.align h4
  have hck : runTypeCheck (Dest.string Enc.utf8).argTy st.specs = some true := by
    show some (checkString st.specs) = some true
    simp [checkString, h3.type]
  unfold scanSetStd
  rw [h1]
  dsimp only
  unfold builtinScan Dest.readSpecs
  rw [hck]
  dsimp only
  rw [argRead_set e .utf8 wide loc 0 lay _ h3.type hp hw ha]
  unfold readCharset
  rw [charsetSource_spec e t ht st.specs h3 cps hs, hd]
  split
  · rfl
  · simp only [Res.bind]
    have := readString_narrow e (cps.takeWhile t.denotes) (cps.dropWhile t.denotes)
      (fun x hx => hs x ((List.takeWhile_prefix _).subset hx))
    rw [List.takeWhile_append_dropWhile] at this
    rw [this]
    rfl

theorem zone_scan {cfg : ChronoCfg} (hc : ScansSets cfg) (cps : List Nat) (hs : ∀ cp ∈ cps, IsScalar cp) :
    cfg.scanSet [91, 97, 45, 122, 65, 45, 90, 48, 45, 57, 45, 43, 95, 47, 93] (encodes cfg.enc cps) =
      if cps.takeWhile zoneChar = [] then .err .invalidScannedValue
      else .ok (cps.takeWhile zoneChar, encodes cfg.enc (cps.dropWhile zoneChar)) := by
  obtain ⟨wide, rx, loc, lay, h⟩ := hc
  have ht : (SetText.mk false false [.range 97 122, .range 65 90, .range 48 57, .one 45, .one 43, .one 95, .one 47]).Ok := by
    refine ⟨?_, ?_, by simp, Or.inr (by simp), ?_⟩
    · intro i hi
      simp only [List.mem_cons, List.not_mem_nil, or_false] at hi
      rcases hi with rfl | rfl | rfl | rfl | rfl | rfl | rfl <;> simp only [SetItem.Ok] <;> decide
    · simp [Separated, SetItem.start]
    · intro _ i hi
      simp at hi
      subst hi
      decide
  have hx : (SetText.mk false false [.range 97 122, .range 65 90, .range 48 57, .one 45, .one 43, .one 95, .one 47]).NoCrossing := by
    intro i hi
    simp only [List.mem_cons, List.not_mem_nil, or_false] at hi
    rcases hi with rfl | rfl | rfl | rfl | rfl | rfl | rfl <;> simp
  have hd : (SetText.mk false false [.range 97 122, .range 65 90, .range 48 57, .one 45, .one 43, .one 95, .one 47]).denotes = zoneChar := by
    funext x
    simp [SetText.denotes, SetText.listed, SetItem.has, zoneChar, Bool.or_assoc]
  have htext : (SetText.mk false false [.range 97 122, .range 65 90, .range 48 57, .one 45, .one 43, .one 95, .one 47]).text cfg.enc =
      [91, 97, 45, 122, 65, 45, 90, 48, 45, 57, 45, 43, 95, 47, 93] := by
    cases cfg.enc <;> rfl
  have := scanSetStd_spec cfg.enc wide rx loc lay _ ht hx cps hs
  rw [htext, hd] at this
  have hasc : ∀ c ∈ cps.takeWhile zoneChar, c < 128 := by
    intro c hc
    have := (mem_takeWhile hc).2
    simp [zoneChar] at this
    omega
  rw [h, this, encodes_asciis .utf8 _ hasc]

theorem digit_scan {cfg : ChronoCfg} (hc : ScansSets cfg) (cps : List Nat) (hs : ∀ cp ∈ cps, IsScalar cp) :
    cfg.scanSet [91, 48, 45, 57, 93] (encodes cfg.enc cps) =
      if cps.takeWhile decDigit = [] then .err .invalidScannedValue
      else .ok (cps.takeWhile decDigit, encodes cfg.enc (cps.dropWhile decDigit)) := by
  obtain ⟨wide, rx, loc, lay, h⟩ := hc
  have ht : (SetText.mk false false [.range 48 57]).Ok := by
    refine ⟨?_, ?_, by simp, Or.inr (by simp), ?_⟩
    · intro i hi
      simp only [List.mem_cons, List.not_mem_nil, or_false] at hi
      subst hi
      simp only [SetItem.Ok]; decide
    · simp [Separated]
    · intro _ i hi
      simp at hi
      subst hi
      decide
  have hx : (SetText.mk false false [.range 48 57]).NoCrossing := by
    intro i hi
    simp only [List.mem_cons, List.not_mem_nil, or_false] at hi
    subst hi; simp
  have hd : (SetText.mk false false [.range 48 57]).denotes = decDigit := by
    funext x
    simp [SetText.denotes, SetText.listed, SetItem.has, decDigit]
  have htext : (SetText.mk false false [.range 48 57]).text cfg.enc = [91, 48, 45, 57, 93] := by
    cases cfg.enc <;> rfl
  have := scanSetStd_spec cfg.enc wide rx loc lay _ ht hx cps hs
  rw [htext, hd] at this
  have hasc : ∀ c ∈ cps.takeWhile decDigit, c < 128 := by
    intro c hc
    have := (mem_takeWhile hc).2
    simp [decDigit] at this
    omega
  rw [h, this, encodes_asciis .utf8 _ hasc]

/-- The checker accepts `%Z` for the types with the name of a time zone. -/
theorem chronoParse_zone (e : Enc) (gmtoff : Bool) {k : TmKind} (hk : k.supports gmtoff .tzname = true) (r : List Nat) :
    chronoParse e gmtoff k (37 :: 90 :: 125 :: r) = .ok ([37, 90], 125 :: r) := by
  have htake : (37 :: 90 :: 125 :: r).take ((37 :: 90 :: 125 :: r).length - (125 :: r).length) = [37, 90] := by
    have : (37 :: 90 :: 125 :: r) = [37, 90] ++ 125 :: r := rfl
    rw [this, List.length_append, Nat.add_sub_cancel, List.take_left]
  have hc : parseChrono e (checkHandler gmtoff k) {} (37 :: 90 :: 125 :: r) = some ({ st := { set := [.tzname] } }, 125 :: r) := by
    cases k
    · cases hk
    · rfl
    · rfl
  unfold chronoParse
  dsimp only
  rw [if_neg (by decide), hc]
  dsimp only
  rw [if_neg (by decide), htake]

/-- The checker accepts `%.S` for the components of a date. -/
theorem chronoParse_fraction (e : Enc) (gmtoff : Bool) (r : List Nat) :
    chronoParse e gmtoff .components (37 :: 46 :: 83 :: 125 :: r) = .ok ([37, 46, 83], 125 :: r) := by
  have htake : (37 :: 46 :: 83 :: 125 :: r).take ((37 :: 46 :: 83 :: 125 :: r).length - (125 :: r).length) = [37, 46, 83] := by
    have : (37 :: 46 :: 83 :: 125 :: r) = [37, 46, 83] ++ 125 :: r := rfl
    rw [this, List.length_append, Nat.add_sub_cancel, List.take_left]
  have hc : parseChrono e (checkHandler gmtoff .components) {} (37 :: 46 :: 83 :: 125 :: r) = some ({ st := { set := [.subsec] } }, 125 :: r) := rfl
  unfold chronoParse
  dsimp only
  rw [if_neg (by decide), hc]
  dsimp only
  rw [if_neg (by decide), htake]

theorem zone_not_space {c : Nat} (h : zoneChar c = true) : isSpace c = false ∧ IsScalar c := by
  have h' : (97 ≤ c ∧ c ≤ 122) ∨ (65 ≤ c ∧ c ≤ 90) ∨ (48 ≤ c ∧ c ≤ 57) ∨ c = 45 ∨ c = 43 ∨ c = 95 ∨ c = 47 := by
    simpa [zoneChar, or_assoc] using h
  have hlt : c < 128 := by omega
  have : ∀ c < 128, (c ≤ 32 ∨ c = 133) ∨ isSpace c = false := by decide
  refine ⟨(this c hlt).resolve_left (by omega), ascii_scalar hlt⟩

/-- C86. `%Z` reads the longest run of characters of which names of time zones are made, and leaves what follows. -/
theorem C86_zone (cfg : ChronoCfg) (hl : GoodLayouts cfg.enc cfg.lay) (hc : ScansSets cfg) (gmtoff : Bool) (t : TmWithTz) (d : DateTime)
    (ws name rest r : List Nat) (hw : Spaces ws) (hne : name ≠ []) (hname : ∀ c ∈ name, zoneChar c = true)
    (hs : ∀ c ∈ rest, IsScalar c) (hend : ∀ c, rest.head? = some c → zoneChar c = false) :
    chronoCustom cfg gmtoff .tmWithTz (tmTzSetter gmtoff) t (37 :: 90 :: 125 :: r) (encodes cfg.enc (ws ++ (name ++ rest))) =
        (125 :: r, .ok ({ t with tzName := some name }, encodes cfg.enc rest)) ∧
      chronoCustom cfg gmtoff .components dtSetter d (37 :: 90 :: 125 :: r) (encodes cfg.enc (ws ++ (name ++ rest))) =
        (125 :: r, .ok ({ d with tzName := some name }, encodes cfg.enc rest)) := by
  have hall : ∀ c ∈ name ++ rest, IsScalar c := scalar_append (fun c hc => (zone_not_space (hname c hc)).2) hs
  have htw : (name ++ rest).takeWhile zoneChar = name ∧ (name ++ rest).dropWhile zoneChar = rest := by
    rw [List.takeWhile_append_of_pos hname, List.dropWhile_append_of_pos hname]
    cases rest with
    | nil => simp
    | cons c q => rw [List.takeWhile_cons, List.dropWhile_cons, hend c rfl]; simp
  have hscan := zone_scan hc (name ++ rest) hall
  rw [htw.1, htw.2, if_neg hne] at hscan
  have hfirst : (name ++ rest).dropWhile isSpace = name ++ rest := by
    cases name with
    | nil => exact absurd rfl hne
    | cons c q => exact first_not_space (zone_not_space (hname c (by simp))).1
  have hz : (90, ChronoCall.tzName) ∈ conversions := by decide
  have hrd : ∀ {T : Type} (set : TmSetter T) (t0 : T),
      (readHandler cfg set).call ⟨encodes cfg.enc (name ++ rest), encodes cfg.enc (name ++ rest), t0, {}, none⟩ .tzName =
        some { set.tzName ⟨encodes cfg.enc (name ++ rest), encodes cfg.enc (name ++ rest), t0, {}, none⟩ name with pos := encodes cfg.enc rest } := by
    intro T set t0
    show Rd.onTzName _ _ _ = _
    unfold Rd.onTzName
    rw [hscan]
  refine ⟨?_, ?_⟩
  · unfold chronoCustom
    rw [chronoParse_zone cfg.enc gmtoff rfl]
    dsimp only
    rw [chronoScan_at cfg hl _ [37, 90] _ hw (by simp [hne]) hfirst hall, parse_one _ _ _ hz, hrd]
    rfl
  · unfold chronoCustom
    rw [chronoParse_zone cfg.enc gmtoff rfl]
    dsimp only
    rw [chronoScan_at cfg hl _ [37, 90] _ hw (by simp [hne]) hfirst hall, parse_one _ _ _ hz, hrd]
    rfl

/-- The reader of the examples, with the scan of sets as in the code. -/
def exSets : ChronoCfg :=
  { exChrono with scanSet := scanSetStd .utf8 .utf32 ⟨true, true, true⟩ ⟨44, 46, [], [], fun _ _ _ _ => .bad⟩ fun _ => .contiguous }

theorem exSets_scans : ScansSets exSets := ⟨_, _, _, _, rfl⟩

/-- `{:%Z}` on ` Europe/Helsinki, 12` -/
example : chronoCustom exSets false .tmWithTz (tmTzSetter false) {} [37, 90, 125] ([32] ++ ("Europe/Helsinki".toList.map Char.toNat ++ [44, 32, 49, 50])) =
    ([125], .ok ({ tzName := some ("Europe/Helsinki".toList.map Char.toNat) }, [44, 32, 49, 50])) := by
  have := (C86_zone exSets (goodLayouts_contiguous _) exSets_scans false {} {} [32] ("Europe/Helsinki".toList.map Char.toNat) [44, 32, 49, 50] []
    (by intro c hc; simp at hc; subst hc; decide) (by decide) (by decide) (by decide) (by decide)).1
  exact this

/-- C86 fails for a text without a name: on all of them `%Z` is undefined, instead of an error. -/
theorem C86_violated_zone (cfg : ChronoCfg) (hl : GoodLayouts cfg.enc cfg.lay) (hc : ScansSets cfg) (gmtoff : Bool) (t : TmWithTz) (d : DateTime)
    (ws : List Nat) (c : Nat) (u r : List Nat) (hw : Spaces ws) (hsp : isSpace c = false) (hz : zoneChar c = false) (hs : ∀ x ∈ c :: u, IsScalar x) :
    chronoCustom cfg gmtoff .tmWithTz (tmTzSetter gmtoff) t (37 :: 90 :: 125 :: r) (encodes cfg.enc (ws ++ c :: u)) = (125 :: r, .ub) ∧
      chronoCustom cfg gmtoff .components dtSetter d (37 :: 90 :: 125 :: r) (encodes cfg.enc (ws ++ c :: u)) = (125 :: r, .ub) :=
  C69_violated cfg hl gmtoff t d ws (c :: u) r .invalidScannedValue hw (by simp) (first_not_space hsp) hs (by
    have := zone_scan hc (c :: u) hs
    rw [List.takeWhile_cons, hz, if_pos (by simp)] at this
    exact this)

/-- `{:%Z}` on `(UTC)` -/
example : chronoCustom exSets false .tmWithTz (tmTzSetter false) {} [37, 90, 125] [40, 85, 84, 67, 41] = ([125], .ub) :=
  (C86_violated_zone exSets (goodLayouts_contiguous _) exSets_scans false {} {} [] 40 [85, 84, 67, 41] [] (by intro c hc; cases hc) (by decide) (by decide) (by decide)).1

/-- C86. `%.S` reads one or two digits as the seconds, the decimal point, and the longest run of digits as the fraction. The conversion
    of the digits of the fraction into a number is not modelled; that it succeeds is assumed. -/
theorem C86_fraction_partial (cfg : ChronoCfg) (hl : GoodLayouts cfg.enc cfg.lay) (hc : ScansSets cfg) (gmtoff : Bool) (d : DateTime)
    (ws sec ds rest r : List Nat) (v : Nat) (hw : Spaces ws) (hsec : Digits 1 2 v sec fun u => u = 46 :: (ds ++ rest)) (hv : v ≤ 60)
    (hne : ds ≠ []) (hds : ∀ c ∈ ds, decDigit c = true) (hconv : cfg.subsec ds = .ok ())
    (hs : ∀ c ∈ rest, IsScalar c) (hend : ∀ c, rest.head? = some c → decDigit c = false) :
    chronoCustom cfg gmtoff .components dtSetter d (37 :: 46 :: 83 :: 125 :: r) (encodes cfg.enc (ws ++ (sec ++ 46 :: (ds ++ rest)))) =
        (125 :: r, .ok ({ d with sec := some (v : Int), subsec := some ds }, encodes cfg.enc rest)) := by
  have hdlt : ∀ c ∈ ds, c < 128 := by
    intro c hc
    have := hds c hc
    simp [decDigit] at this
    omega
  have hall' : ∀ c ∈ ds ++ rest, IsScalar c := scalar_append (fun c hc => ascii_scalar (hdlt c hc)) hs
  have hall'' : ∀ c ∈ 46 :: (ds ++ rest), IsScalar c := by
    intro c hc
    rcases List.mem_cons.1 hc with rfl | hc
    · decide
    · exact hall' c hc
  have hall : ∀ c ∈ sec ++ 46 :: (ds ++ rest), IsScalar c := scalar_append (digits_scalar hsec) hall''
  have htw : (ds ++ rest).takeWhile decDigit = ds ∧ (ds ++ rest).dropWhile decDigit = rest := by
    rw [List.takeWhile_append_of_pos hds, List.dropWhile_append_of_pos hds]
    cases rest with
    | nil => simp
    | cons c q => rw [List.takeWhile_cons, List.dropWhile_cons, hend c rfl]; simp
  have hscan := digit_scan hc (ds ++ rest) hall'
  rw [htw.1, htw.2, if_neg hne] at hscan
  have hf := digits_first hsec (by decide) (46 :: (ds ++ rest))
  have he46 : encodes cfg.enc (46 :: (ds ++ rest)) = 46 :: encodes cfg.enc (ds ++ rest) := by
    rw [show 46 :: (ds ++ rest) = [46] ++ (ds ++ rest) from rfl, encodes_append, encodes_asciis cfg.enc [46] (by decide)]; rfl
  have hrd : (readHandler cfg dtSetter).call ⟨encodes cfg.enc (sec ++ 46 :: (ds ++ rest)), encodes cfg.enc (sec ++ 46 :: (ds ++ rest)), d, {}, none⟩ (.subsecond .standard) =
      some ⟨encodes cfg.enc (sec ++ 46 :: (ds ++ rest)), encodes cfg.enc rest, { d with sec := some (v : Int), subsec := some ds }, { set := [.subsec, .sec] }, none⟩ := by
    show Rd.onSubsecond _ _ _ _ = _
    unfold Rd.onSubsecond
    rw [number_digits hsec cfg.enc _ hall'' rfl _ _ rfl]
    have hset : dtSetter.sec ⟨encodes cfg.enc (sec ++ 46 :: (ds ++ rest)), encodes cfg.enc (46 :: (ds ++ rest)), d, {}, none⟩ v =
        ⟨encodes cfg.enc (sec ++ 46 :: (ds ++ rest)), encodes cfg.enc (46 :: (ds ++ rest)), { d with sec := some (v : Int) }, { set := [.sec] }, none⟩ := by
      dsimp only [dtSetter, Rd.setField]
      rw [if_neg (by omega)]
      rfl
    rw [hset, he46]
    dsimp only
    rw [show Rd.useLocale _ NumSys.standard = false from rfl]
    have hpq : encodes cfg.enc rest ≠ encodes cfg.enc (ds ++ rest) := by
      rw [encodes_append, encodes_asciis cfg.enc ds hdlt]
      intro h
      have := congrArg List.length h
      rw [List.length_append] at this
      have : ds.length ≠ 0 := fun h => hne (List.eq_nil_of_length_eq_zero h)
      omega
    simp only [Bool.false_eq_true, if_false, ne_eq, not_true_eq_false, hscan, hconv, hpq]
    rfl
  unfold chronoCustom
  rw [chronoParse_fraction]
  dsimp only
  rw [chronoScan_at cfg hl _ [37, 46, 83] _ hw hf.2 hf.1 hall]
  have hp : parseChrono cfg.enc (readHandler cfg dtSetter) ⟨encodes cfg.enc (sec ++ 46 :: (ds ++ rest)), encodes cfg.enc (sec ++ 46 :: (ds ++ rest)), d, {}, none⟩ [37, 46, 83] =
      ((readHandler cfg dtSetter).call ⟨encodes cfg.enc (sec ++ 46 :: (ds ++ rest)), encodes cfg.enc (sec ++ 46 :: (ds ++ rest)), d, {}, none⟩ (.subsecond .standard)).bind
        fun st => if (readHandler cfg dtSetter).ok st then ((readHandler cfg dtSetter).call st .verify).map fun s => (s, []) else some (st, []) := rfl
  rw [hp, hrd]
  rfl

/-- `{:%.S}` on `07.125s` -/
example : chronoCustom exSets false .components dtSetter {} [37, 46, 83, 125] ([48, 55] ++ 46 :: ([49, 50, 53] ++ [115])) =
    ([125], .ok ({ sec := some 7, subsec := some [49, 50, 53] }, [115])) :=
  C86_fraction_partial exSets (goodLayouts_contiguous _) exSets_scans false {} [] [48, 55] [49, 50, 53] [115] [] 7 (by intro c hc; cases hc)
    (digits_pad2 (lo := 1) (n := 7) (by decide) (by decide) _) (by decide) (by decide) (by decide) rfl (by decide) (by decide)

end Scn
