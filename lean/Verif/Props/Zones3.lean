import Verif.Props.Zones2
/-
Property C86, continued: fractions of seconds as the nearest `double`, and with the decimal point of the locale.
-/
namespace Scn
open Spec

/-- The fraction with these digits is at least as near to 1 as to `1 - 2^-53`, the largest `double` below 1 (all numbers times
    `10 ^ ds.length * 2 ^ 53`). -/
def Spec.NearOne (ds : List Nat) : Prop :=
  2 ^ 53 * 10 ^ ds.length - 2 ^ 53 * value 10 ds ≤ 2 ^ 53 * value 10 ds - (2 ^ 53 - 1) * 10 ^ ds.length

instance (ds : List Nat) : Decidable (NearOne ds) := by unfold NearOne; infer_instance

theorem foldl_digits (ds : List Nat) (hd : ∀ c ∈ ds, decDigit c = true) (a : Nat) :
    ds.foldl (fun a c => a * 10 + (c - 48)) a = ds.foldl (fun a c => a * 10 + (digit? c).getD 0) a := by
  induction ds generalizing a with
  | nil => rfl
  | cons c ds ih =>
    have hc : (digit? c).getD 0 = c - 48 := by
      have := hd c (by simp)
      simp [decDigit] at this
      unfold digit?
      rw [if_pos (by omega)]
      rfl
    rw [List.foldl_cons, List.foldl_cons, hc]
    exact ih (fun c hc => hd c (by simp [hc])) _

theorem subsecNearest_eq (ds : List Nat) (hd : ∀ c ∈ ds, decDigit c = true) : subsecNearest ds = if NearOne ds then .ub else .ok () := by
  unfold subsecNearest
  rw [foldl_digits ds hd 0]
  show (if (10 ^ ds.length - value 10 ds) * 2 ^ 54 ≤ 10 ^ ds.length then _ else _) = _
  have hN : 0 < 10 ^ ds.length := Nat.pow_pos (by decide)
  have : (10 ^ ds.length - value 10 ds) * 2 ^ 54 ≤ 10 ^ ds.length ↔ NearOne ds := by
    unfold NearOne
    omega
  simp only [this]

theorem throughChar_ascii (e : Enc) {c : Nat} (h : c < 128) : throughChar e c = c := by
  cases e <;> simp only [throughChar] <;> try rfl
  all_goals rw [if_pos (by omega)]; omega

/-- The decimal point that `on_subsecond` expects. -/
def pointOf (cfg : ChronoCfg) (st : SetterState) (sys : NumSys) : Nat :=
  if (st.localized && decide (sys ≠ .standard)) = true then throughChar cfg.enc cfg.decimalPoint else 46

theorem onSubsecond_at {cfg : ChronoCfg} (hc : ScansSets cfg) {sec ds rest : List Nat} {v pt : Nat} {sys : NumSys} {st : SetterState}
    (hsec : Digits 1 2 v sec fun u => u = pt :: (ds ++ rest)) (hv : v ≤ 60) (hne : ds ≠ []) (hds : ∀ c ∈ ds, decDigit c = true)
    (hs : ∀ c ∈ rest, IsScalar c) (hend : ∀ c, rest.head? = some c → decDigit c = false) (hpt : pt < 128)
    (hset : st.set = []) (hpoint : pointOf cfg st sys = pt) (range : List Nat) (d : DateTime) :
    Rd.onSubsecond cfg dtSetter sys ⟨range, encodes cfg.enc (sec ++ pt :: (ds ++ rest)), d, st, none⟩ =
      match cfg.subsec ds with
      | .ub => none
      | .err e => some ⟨range, encodes cfg.enc rest, { d with sec := some (v : Int) }, { st with set := [.sec] }, some e⟩
      | .ok _ => some ⟨range, encodes cfg.enc rest, { d with sec := some (v : Int), subsec := some ds }, { st with set := [.subsec, .sec] }, none⟩ := by
  have hdlt : ∀ c ∈ ds, c < 128 := by
    intro c hc
    have := hds c hc
    simp [decDigit] at this
    omega
  have hall' : ∀ c ∈ ds ++ rest, IsScalar c := scalar_append (fun c hc => ascii_scalar (hdlt c hc)) hs
  have hall'' : ∀ c ∈ pt :: (ds ++ rest), IsScalar c := by
    intro c hc
    rcases List.mem_cons.1 hc with rfl | hc
    · exact ascii_scalar hpt
    · exact hall' c hc
  have htw : (ds ++ rest).takeWhile decDigit = ds ∧ (ds ++ rest).dropWhile decDigit = rest := by
    rw [List.takeWhile_append_of_pos hds, List.dropWhile_append_of_pos hds]
    cases rest with
    | nil => simp
    | cons c q => rw [List.takeWhile_cons, List.dropWhile_cons, hend c rfl]; simp
  have hscan := digit_scan hc (ds ++ rest) hall'
  rw [htw.1, htw.2, if_neg hne] at hscan
  have he46 : encodes cfg.enc (pt :: (ds ++ rest)) = pt :: encodes cfg.enc (ds ++ rest) := by
    rw [show pt :: (ds ++ rest) = [pt] ++ (ds ++ rest) from rfl, encodes_append, encodes_asciis cfg.enc [pt] (by simpa using hpt)]; rfl
  have hpq : encodes cfg.enc rest ≠ encodes cfg.enc (ds ++ rest) := by
    rw [encodes_append, encodes_asciis cfg.enc ds hdlt]
    intro h
    have := congrArg List.length h
    rw [List.length_append] at this
    have : ds.length ≠ 0 := fun h => hne (List.eq_nil_of_length_eq_zero h)
    omega
  unfold Rd.onSubsecond
  rw [number_digits hsec cfg.enc _ hall'' rfl _ _ rfl]
  have hset : dtSetter.sec ⟨range, encodes cfg.enc (pt :: (ds ++ rest)), d, st, none⟩ v =
      ⟨range, encodes cfg.enc (pt :: (ds ++ rest)), { d with sec := some (v : Int) }, { st with set := [.sec] }, none⟩ := by
    dsimp only [dtSetter, Rd.setField]
    rw [if_neg (by omega)]
    simp [Rd.mark, SetterState.mark, SetterState.has, hset]
  rw [hset, he46]
  dsimp only
  rw [show (if Rd.useLocale _ sys = true then throughChar cfg.enc cfg.decimalPoint else 46) = pointOf cfg st sys from rfl, hpoint]
  rw [if_neg (by simp), hscan]
  dsimp only
  rw [if_neg hpq]
  cases cfg.subsec ds with
  | ub => rfl
  | err e => rfl
  | ok u => rfl

/-- C86. `%.S` with the conversion of the code: the fraction is read unless 1 is the `double` nearest to it; then an assertion is violated, which is
    undefined. (The value of the `double` is not modelled.) -/
theorem C86_fraction_double_partial (cfg : ChronoCfg) (hl : GoodLayouts cfg.enc cfg.lay) (hc : ScansSets cfg) (hconv : cfg.subsec = subsecNearest) (gmtoff : Bool)
    (d : DateTime) (ws sec ds rest r : List Nat) (v : Nat) (hw : Spaces ws) (hsec : Digits 1 2 v sec fun u => u = 46 :: (ds ++ rest)) (hv : v ≤ 60)
    (hne : ds ≠ []) (hds : ∀ c ∈ ds, decDigit c = true) (hs : ∀ c ∈ rest, IsScalar c) (hend : ∀ c, rest.head? = some c → decDigit c = false) :
    chronoCustom cfg gmtoff .components dtSetter d (37 :: 46 :: 83 :: 125 :: r) (encodes cfg.enc (ws ++ (sec ++ 46 :: (ds ++ rest)))) =
        (125 :: r, if NearOne ds then .ub else .ok ({ d with sec := some (v : Int), subsec := some ds }, encodes cfg.enc rest)) := by
  have hall : ∀ c ∈ sec ++ 46 :: (ds ++ rest), IsScalar c := by
    refine scalar_append (digits_scalar hsec) fun c hc => ?_
    rcases List.mem_cons.1 hc with rfl | hc
    · decide
    · rcases List.mem_append.1 hc with hc | hc
      · have := hds c hc
        simp [decDigit] at this
        exact ascii_scalar (by omega)
      · exact hs c hc
  have hf := digits_first hsec (by decide) (46 :: (ds ++ rest))
  unfold chronoCustom
  rw [chronoParse_fraction]
  dsimp only
  rw [chronoScan_at cfg hl _ [37, 46, 83] _ hw hf.2 hf.1 hall]
  have hp : parseChrono cfg.enc (readHandler cfg dtSetter) ⟨encodes cfg.enc (sec ++ 46 :: (ds ++ rest)), encodes cfg.enc (sec ++ 46 :: (ds ++ rest)), d, {}, none⟩ [37, 46, 83] =
      (Rd.onSubsecond cfg dtSetter .standard ⟨encodes cfg.enc (sec ++ 46 :: (ds ++ rest)), encodes cfg.enc (sec ++ 46 :: (ds ++ rest)), d, {}, none⟩).bind
        fun st => if (readHandler cfg dtSetter).ok st then ((readHandler cfg dtSetter).call st .verify).map fun s => (s, []) else some (st, []) := rfl
  rw [hp, onSubsecond_at hc hsec hv hne hds hs hend (by decide) rfl rfl, hconv, subsecNearest_eq ds hds]
  by_cases h : NearOne ds
  · rw [if_pos h, if_pos h]; rfl
  · rw [if_neg h, if_neg h]; rfl

theorem value_nines (k : Nat) : value 10 (List.replicate k 57) = 10 ^ k - 1 := by
  induction k with
  | zero => rfl
  | succ k ih =>
    have : 0 < 10 ^ k := Nat.pow_pos (by decide)
    rw [List.replicate_succ', value, List.foldl_append]
    show value 10 (List.replicate k 57) * 10 + 9 = _
    rw [ih, Nat.pow_succ]
    omega

/-- C86 fails for fractions with 17 or more nines: as a `double` they are 1, which `set_subsec` asserts not to be. -/
theorem C86_violated_rounding (cfg : ChronoCfg) (hl : GoodLayouts cfg.enc cfg.lay) (hc : ScansSets cfg) (hconv : cfg.subsec = subsecNearest) (gmtoff : Bool)
    (d : DateTime) (ws sec rest r : List Nat) (v k : Nat) (hk : 17 ≤ k) (hw : Spaces ws)
    (hsec : Digits 1 2 v sec fun u => u = 46 :: (List.replicate k 57 ++ rest)) (hv : v ≤ 60)
    (hs : ∀ c ∈ rest, IsScalar c) (hend : ∀ c, rest.head? = some c → decDigit c = false) :
    chronoCustom cfg gmtoff .components dtSetter d (37 :: 46 :: 83 :: 125 :: r) (encodes cfg.enc (ws ++ (sec ++ 46 :: (List.replicate k 57 ++ rest)))) =
        (125 :: r, .ub) := by
  rw [C86_fraction_double_partial cfg hl hc hconv gmtoff d ws sec _ rest r v hw hsec hv (by simp; omega)
    (fun c hc => by rw [List.eq_of_mem_replicate hc]; rfl) hs hend, if_pos]
  unfold NearOne
  rw [value_nines, List.length_replicate]
  have : 10 ^ 17 ≤ 10 ^ k := Nat.pow_le_pow_right (by decide) hk
  omega

/-- The reader of the examples, with the conversion of the digits of a fraction. -/
def exNearest : ChronoCfg := { exSets with subsec := subsecNearest }

theorem exNearest_scans : ScansSets exNearest := ⟨_, _, _, _, rfl⟩

/-- `{:%.S}` on `07.99999999999999999s` (17 nines) is undefined, on `07.9999999999999999s` (16 nines) it is not. -/
example : chronoCustom exNearest false .components dtSetter {} [37, 46, 83, 125] ([] ++ ([48, 55] ++ 46 :: (List.replicate 17 57 ++ [115]))) = ([125], .ub) ∧
    chronoCustom exNearest false .components dtSetter {} [37, 46, 83, 125] ([] ++ ([48, 55] ++ 46 :: (List.replicate 16 57 ++ [115]))) =
      ([125], .ok ({ sec := some 7, subsec := some (List.replicate 16 57) }, [115])) := by
  have h := fun k : Nat => C86_fraction_double_partial exNearest (goodLayouts_contiguous _) exNearest_scans rfl false {} [] [48, 55] (List.replicate (k + 1) 57) [115] [] 7
    (by intro c hc; cases hc) (digits_pad2 (lo := 1) (n := 7) (by decide) (by decide) _) (by decide) (by simp)
    (fun c hc => by rw [List.eq_of_mem_replicate hc]; rfl) (by decide) (by decide)
  refine ⟨(h 16).trans ?_, (h 15).trans ?_⟩
  · rw [if_pos (by decide)]
  · rw [if_neg (by decide)]; rfl

/-- The checker accepts `L%.ES` and `L%.OS` for the components of a date. -/
theorem chronoParse_fraction_locale (e : Enc) (gmtoff : Bool) (m : Nat) (hm : m = 69 ∨ m = 79) (r : List Nat) :
    chronoParse e gmtoff .components (76 :: 37 :: 46 :: m :: 83 :: 125 :: r) = .ok ([76, 37, 46, m, 83], 125 :: r) := by
  have htake : (76 :: 37 :: 46 :: m :: 83 :: 125 :: r).take ((76 :: 37 :: 46 :: m :: 83 :: 125 :: r).length - (125 :: r).length) = [76, 37, 46, m, 83] := by
    have : (76 :: 37 :: 46 :: m :: 83 :: 125 :: r) = [76, 37, 46, m, 83] ++ 125 :: r := rfl
    rw [this, List.length_append, Nat.add_sub_cancel, List.take_left]
  have hc : parseChrono e (checkHandler gmtoff .components) {} (76 :: 37 :: 46 :: m :: 83 :: 125 :: r) = some ({ st := { set := [.subsec] } }, 125 :: r) := by
    rcases hm with rfl | rfl <;> rfl
  unfold chronoParse
  dsimp only
  rw [if_neg (by decide), hc]
  dsimp only
  rw [if_neg (by decide), htake]

theorem parse_fraction_locale (cfg : ChronoCfg) (p : List Nat) (d : DateTime) (m : Nat) (hm : m = 69 ∨ m = 79) :
    parseChrono cfg.enc (readHandler cfg dtSetter) ⟨p, p, d, {}, none⟩ [76, 37, 46, m, 83] =
      (Rd.onSubsecond cfg dtSetter .altE ⟨p, p, d, { localized := true }, none⟩).bind
        fun st => if (readHandler cfg dtSetter).ok st then ((readHandler cfg dtSetter).call st .verify).map fun s => (s, []) else some (st, []) := by
  rcases hm with rfl | rfl <;> rfl

/-- C86. With `L` and `E` or `O`, the decimal point is that of the locale. Missing from the full claim: in wide text, a decimal point that is not an ASCII
    character is not recognized (`C86_violated_decimal_point`). -/
theorem C86_fraction_locale_partial (cfg : ChronoCfg) (hl : GoodLayouts cfg.enc cfg.lay) (hc : ScansSets cfg) (gmtoff : Bool)
    (d : DateTime) (ws sec ds rest r : List Nat) (v m : Nat) (hm : m = 69 ∨ m = 79) (hpt : cfg.decimalPoint < 128) (hw : Spaces ws)
    (hsec : Digits 1 2 v sec fun u => u = cfg.decimalPoint :: (ds ++ rest)) (hv : v ≤ 60)
    (hne : ds ≠ []) (hds : ∀ c ∈ ds, decDigit c = true) (hconv : cfg.subsec ds = .ok ())
    (hs : ∀ c ∈ rest, IsScalar c) (hend : ∀ c, rest.head? = some c → decDigit c = false) :
    chronoCustom cfg gmtoff .components dtSetter d (76 :: 37 :: 46 :: m :: 83 :: 125 :: r)
        (encodes cfg.enc (ws ++ (sec ++ cfg.decimalPoint :: (ds ++ rest)))) =
      (125 :: r, .ok ({ d with sec := some (v : Int), subsec := some ds }, encodes cfg.enc rest)) := by
  have hall : ∀ c ∈ sec ++ cfg.decimalPoint :: (ds ++ rest), IsScalar c := by
    refine scalar_append (digits_scalar hsec) fun c hc => ?_
    rcases List.mem_cons.1 hc with rfl | hc
    · exact ascii_scalar hpt
    · rcases List.mem_append.1 hc with hc | hc
      · have := hds c hc
        simp [decDigit] at this
        exact ascii_scalar (by omega)
      · exact hs c hc
  have hf := digits_first hsec (by decide) (cfg.decimalPoint :: (ds ++ rest))
  unfold chronoCustom
  rw [chronoParse_fraction_locale _ _ m hm]
  dsimp only
  rw [chronoScan_at cfg hl _ [76, 37, 46, m, 83] _ hw hf.2 hf.1 hall, parse_fraction_locale _ _ _ m hm,
    onSubsecond_at hc hsec hv hne hds hs hend hpt rfl (show pointOf cfg { localized := true } .altE = _ from throughChar_ascii cfg.enc hpt), hconv]
  rfl

/-- `{:L%.ES}` on `07,125s` with a comma for the decimal point -/
example : chronoCustom { exSets with decimalPoint := 44 } false .components dtSetter {} [76, 37, 46, 69, 83, 125] ([] ++ ([48, 55] ++ 44 :: ([49, 50, 53] ++ [115]))) =
    ([125], .ok ({ sec := some 7, subsec := some [49, 50, 53] }, [115])) :=
  C86_fraction_locale_partial { exSets with decimalPoint := 44 } (goodLayouts_contiguous _) ⟨_, _, _, _, rfl⟩ false {} [] [48, 55] [49, 50, 53] [115] [] 7 69 (Or.inl rfl) (by decide)
    (by intro c hc; cases hc) (digits_pad2 (lo := 1) (n := 7) (by decide) (by decide) _) (by decide) (by decide) (by decide) rfl (by decide) (by decide)

theorem throughChar_other {e : Enc} (he : e ≠ .utf8) {c : Nat} (h : 128 ≤ c) (h' : c < 65408) : throughChar e c ≠ c := by
  cases e with
  | utf8 => exact absurd rfl he
  | utf16 => simp only [throughChar]; split <;> omega
  | utf32 => simp only [throughChar]; split <;> omega

/-- C86 fails for the decimal points of locales that are not ASCII characters, in wide text: `consume_ch` takes a `char`, and compares something else. The
    text with the decimal point of the locale is rejected. -/
theorem C86_violated_decimal_point (cfg : ChronoCfg) (hl : GoodLayouts cfg.enc cfg.lay) (he : cfg.enc ≠ .utf8) (gmtoff : Bool)
    (d : DateTime) (ws sec rest r : List Nat) (v m : Nat) (hm : m = 69 ∨ m = 79) (hpt : 128 ≤ cfg.decimalPoint) (hpt' : cfg.decimalPoint < 65408)
    (hsc : IsScalar cfg.decimalPoint) (hw : Spaces ws) (hsec : Digits 1 2 v sec fun u => u = cfg.decimalPoint :: rest) (hv : v ≤ 60)
    (hs : ∀ c ∈ rest, IsScalar c) :
    chronoCustom cfg gmtoff .components dtSetter d (76 :: 37 :: 46 :: m :: 83 :: 125 :: r) (encodes cfg.enc (ws ++ (sec ++ cfg.decimalPoint :: rest))) =
      (125 :: r, .err .invalidScannedValue) := by
  have hall' : ∀ c ∈ cfg.decimalPoint :: rest, IsScalar c := by
    intro c hc
    rcases List.mem_cons.1 hc with rfl | hc
    · exact hsc
    · exact hs c hc
  have hall : ∀ c ∈ sec ++ cfg.decimalPoint :: rest, IsScalar c := scalar_append (digits_scalar hsec) hall'
  have hf := digits_first hsec (by decide) (cfg.decimalPoint :: rest)
  have hpos : encodes cfg.enc (cfg.decimalPoint :: rest) = cfg.decimalPoint :: encodes cfg.enc rest := by
    show encode cfg.enc cfg.decimalPoint ++ _ = _
    have : encode cfg.enc cfg.decimalPoint = [cfg.decimalPoint] := by
      generalize cfg.enc = e at he
      generalize cfg.decimalPoint = c at hpt'
      cases e with
      | utf8 => exact absurd rfl he
      | utf16 => show (if c < 65536 then _ else _) = _; rw [if_pos (by omega)]
      | utf32 => rfl
    rw [this]; rfl
  have hsub : Rd.onSubsecond cfg dtSetter .altE ⟨encodes cfg.enc (sec ++ cfg.decimalPoint :: rest), encodes cfg.enc (sec ++ cfg.decimalPoint :: rest), d,
      { localized := true }, none⟩ = some ⟨encodes cfg.enc (sec ++ cfg.decimalPoint :: rest), encodes cfg.enc (cfg.decimalPoint :: rest),
        { d with sec := some (v : Int) }, { localized := true, set := [.sec] }, some .invalidScannedValue⟩ := by
    unfold Rd.onSubsecond
    rw [number_digits hsec cfg.enc _ hall' rfl _ _ rfl]
    have hset : dtSetter.sec ⟨encodes cfg.enc (sec ++ cfg.decimalPoint :: rest), encodes cfg.enc (cfg.decimalPoint :: rest), d, { localized := true }, none⟩ v =
        ⟨encodes cfg.enc (sec ++ cfg.decimalPoint :: rest), encodes cfg.enc (cfg.decimalPoint :: rest), { d with sec := some (v : Int) },
          { localized := true, set := [.sec] }, none⟩ := by
      dsimp only [dtSetter, Rd.setField]
      rw [if_neg (by omega)]
      rfl
    rw [hset, hpos]
    dsimp only
    rw [show (if Rd.useLocale _ .altE = true then throughChar cfg.enc cfg.decimalPoint else 46) = throughChar cfg.enc cfg.decimalPoint from rfl,
      if_pos (throughChar_other he hpt hpt').symm]
    rfl
  unfold chronoCustom
  rw [chronoParse_fraction_locale _ _ m hm]
  dsimp only
  rw [chronoScan_at cfg hl _ [76, 37, 46, m, 83] _ hw hf.2 hf.1 hall, parse_fraction_locale _ _ _ m hm, hsub]
  rfl

/-- `{:L%.ES}` on `07٫125` in wide text, with the Arabic decimal point U+066B -/
example : chronoCustom { exSets with enc := .utf32, decimalPoint := 1643 } false .components dtSetter {} [76, 37, 46, 69, 83, 125]
    ([48, 55] ++ 1643 :: [49, 50, 53]) = ([125], .err .invalidScannedValue) :=
  C86_violated_decimal_point { exSets with enc := .utf32, decimalPoint := 1643 } (goodLayouts_contiguous _) (by decide) false {} [] [48, 55] [49, 50, 53] [] 7 69 (Or.inl rfl)
    (by decide) (by decide) (by decide) (by intro c hc; cases hc) (digits_pad2 (lo := 1) (n := 7) (by decide) (by decide) _) (by decide) (by decide)

end Scn
