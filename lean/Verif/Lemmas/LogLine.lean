import Verif.Spec.LogLine
import Verif.Lemmas.CustomScan
import Verif.Lemmas.Padded3
import Verif.Lemmas.WithTz
import Verif.Lemmas.Chrono10
import Verif.Lemmas.Locale
/-
Reading back lines with dates and times.
-/
namespace Scn
open Spec

variable {L T V W : Type}

theorem onRest_map (f : V → W) (rest : List Nat) (loc : Option L) (p : ScanProg L V) :
    onRest rest loc (p.map f) = (onRest rest loc p).map fun r => (f r.1, r.2) := by
  induction p with
  | done a off => simp only [ScanProg.map, onRest]; split <;> rfl
  | fail e => rfl
  | get off k ih =>
    simp only [ScanProg.map, onRest]
    split
    · exact ih _
    · rfl
  | inc off k ih =>
    simp only [ScanProg.map, onRest]
    split
    · exact ih
    · rfl
  | segment off k ih =>
    simp only [ScanProg.map, onRest]
    split
    · exact ih _
    · rfl
  | locale k ih => exact ih _

/-- The scanner of a date sees the rest of the source, and leaves what the date leaves. -/
theorem chronoProg_rest (cfg : Option L → ChronoCfg) (set : TmSetter T) (inj : T → V) (fmt : List Nat) (t : T) (loc : Option L) (s : List Nat)
    {v : T} {r : List Nat} (h : chronoScan (cfg loc) set fmt t s = .ok (v, r)) (hr : r <:+ s) :
    onRest s loc (chronoProg cfg set inj fmt t) = .ok (inj v, r) := by
  unfold chronoProg
  simp only [onRest, Nat.zero_le, if_true, List.drop_zero]
  rw [h]
  dsimp only
  simp only [onRest]
  rw [if_pos (by omega)]
  obtain ⟨a, rfl⟩ := hr
  rw [List.length_append, Nat.add_sub_cancel, List.drop_left]

/-- What a date that is shown is read as. -/
theorem classicDate_read {e : Enc} {cfg : Option L → ChronoCfg} (hcfg : ∀ l, (cfg l).enc = e) (hlay : ∀ l s, (cfg l).lay s = .contiguous) (gmtoff : Bool)
    {is : List FmtItem} (hfmt : FormatOk e is) (hnd : (fieldsOf (callsOf is)).Nodup) (hF : Compatible (fieldsOf (callsOf is))) {old new : DateVal}
    {src rest : List Nat} (h : ClassicDate e gmtoff is old new src rest) (hs : ∀ c ∈ rest, IsScalar c) (loc : Option L) :
    ∃ p, (∀ r, (dateScanner e cfg gmtoff old).parse (formatText is ++ 125 :: r) = some (125 :: r, p)) ∧
      onRest (encodes e src) loc p = .ok (new, encodes e rest) := by
  have hl : GoodLayouts (cfg loc).enc (cfg loc).lay := by
    rw [show (cfg loc).lay = fun _ => .contiguous from funext (hlay loc)]; exact goodLayouts_contiguous _
  have he := hcfg loc
  have hsuf : ∀ {c : Civil}, DateWritten e is c src rest → encodes e rest <:+ encodes e src := by
    rintro c ⟨ws, text, rfl, _⟩
    rw [encodes_append, encodes_append]
    exact (List.suffix_append _ _).trans (List.suffix_append _ _)
  unfold ClassicDate at h
  cases old with
  | tm t0 =>
    cases new with
    | tm t =>
      obtain ⟨c, hc, hw, rfl, htz⟩ := h
      have hsf := hsuf hw
      obtain ⟨ws, text, rfl, h1, h2, h3, h4⟩ := hw
      refine ⟨chronoProg cfg (tmSetter gmtoff) .tm (formatText is) t0, fun r => ?_, ?_⟩
      · simp only [dateScanner, chronoScanner]
        rw [chronoParse_ok e gmtoff .tm is hfmt hnd hF htz (not_tzname h4)]
      · subst he
        obtain ⟨fmt, hp, hscan⟩ := custom_parts (chronoCustom_tm (cfg loc) hl gmtoff c hc is hfmt hnd hF htz h4 h1 h2 h3 hs t0 [])
        rw [chronoParse_ok _ gmtoff .tm is hfmt hnd hF htz (not_tzname h4)] at hp
        cases hp
        exact chronoProg_rest cfg _ _ _ _ _ _ hscan hsf
    | _ => exact absurd h id
  | tmWithTz t0 =>
    cases new with
    | tmWithTz t =>
      obtain ⟨c, hc, hw, rfl⟩ := h
      have hsf := hsuf hw
      obtain ⟨ws, text, rfl, h1, h2, h3, h4⟩ := hw
      refine ⟨chronoProg cfg (tmTzSetter gmtoff) .tmWithTz (formatText is) t0, fun r => ?_, ?_⟩
      · simp only [dateScanner, chronoScanner]
        rw [chronoParse_ok e gmtoff .tmWithTz is hfmt hnd hF (fun _ => rfl) (not_tzname h4)]
      · subst he
        obtain ⟨fmt, hp, hscan⟩ := custom_parts (chronoCustom_tmTz (cfg loc) hl gmtoff c hc is hfmt hnd hF h4 h1 h2 h3 hs t0 [])
        rw [chronoParse_ok _ gmtoff .tmWithTz is hfmt hnd hF (fun _ => rfl) (not_tzname h4)] at hp
        cases hp
        exact chronoProg_rest cfg _ _ _ _ _ _ hscan hsf
    | _ => exact absurd h id
  | components t0 =>
    cases new with
    | components t =>
      obtain ⟨c, hc, h7, hy1, hy2, hw, rfl⟩ := h
      have hsf := hsuf hw
      obtain ⟨ws, text, rfl, h1, h2, h3, h4⟩ := hw
      refine ⟨chronoProg cfg dtSetter .components (formatText is) t0, fun r => ?_, ?_⟩
      · simp only [dateScanner, chronoScanner]
        rw [chronoParse_ok e gmtoff .components is hfmt hnd hF (fun _ => rfl) (not_tzname h4)]
      · subst he
        obtain ⟨fmt, hp, hscan⟩ := custom_parts (chronoCustom_dt (cfg loc) hl gmtoff c hc is hfmt hnd hF
          (fun f hf => ⟨fun h => hy1 (h ▸ hf), fun h => hy2 (h ▸ hf), fun _ => h7⟩) h4 h1 h2 h3 hs t0 [])
        rw [chronoParse_ok _ gmtoff .components is hfmt hnd hF (fun _ => rfl) (not_tzname h4)] at hp
        cases hp
        exact chronoProg_rest cfg _ _ _ _ _ _ hscan hsf
    | _ => exact absurd h id

/-- What a date that is shown by the locale is read as. -/
theorem localDate_read {e : Enc} {cfg : Option L → ChronoCfg} (hcfg : ∀ l, (cfg l).enc = e) (hlay : ∀ l s, (cfg l).lay s = .contiguous) (gmtoff : Bool)
    {x f : List Nat} {fs : List ChronoField} (hx : (x, f, fs) ∈ localeConversions) {old new : DateVal} {src rest : List Nat} (loc : Option L)
    (h : LocalDate e (cfg loc).facet f fs old new src rest) (hs : ∀ c ∈ src, IsScalar c) :
    ∃ p, (∀ r, (dateScanner e cfg gmtoff old).parse (76 :: 37 :: (x ++ 125 :: r)) = some (125 :: r, p)) ∧
      onRest (encodes e src) loc p = .ok (new, encodes e rest) := by
  have hl : GoodLayouts (cfg loc).enc (cfg loc).lay := by
    rw [show (cfg loc).lay = fun _ => .contiguous from funext (hlay loc)]; exact goodLayouts_contiguous _
  have he := hcfg loc
  obtain ⟨ws, u, t, rfl, h1, h2, h3, h4, h5, h6⟩ := h
  have hsf : encodes e rest <:+ encodes e (ws ++ (u ++ rest)) := by
    rw [encodes_append, encodes_append]
    exact (List.suffix_append _ _).trans (List.suffix_append _ _)
  have hsu : ∀ c ∈ u ++ rest, IsScalar c := fun c hc => hs c (List.mem_append_right _ hc)
  subst he
  cases old with
  | tm t0 =>
    cases new with
    | tm t1 =>
      cases h6
      refine ⟨chronoProg cfg (tmSetter gmtoff) .tm (76 :: 37 :: x) t0, fun r => ?_, ?_⟩
      · simp only [dateScanner, chronoScanner]
        rw [locale_check _ gmtoff .tm hx r]
      · obtain ⟨fmt, hp, hscan⟩ := custom_parts (locale_scan (cfg loc) hl gmtoff .tm (stores_tm gmtoff) hx h1 h2 h3 hsu h4 h5 t0 [])
        rw [locale_check _ gmtoff .tm hx []] at hp
        cases hp
        rw [put_tm hx] at hscan
        exact chronoProg_rest cfg _ _ _ _ _ _ hscan hsf
    | _ => exact absurd h6 id
  | tmWithTz t0 =>
    cases new with
    | tmWithTz t1 =>
      cases h6
      refine ⟨chronoProg cfg (tmTzSetter gmtoff) .tmWithTz (76 :: 37 :: x) t0, fun r => ?_, ?_⟩
      · simp only [dateScanner, chronoScanner]
        rw [locale_check _ gmtoff .tmWithTz hx r]
      · obtain ⟨fmt, hp, hscan⟩ := custom_parts (locale_scan (cfg loc) hl gmtoff .tmWithTz (stores_tmTz gmtoff) hx h1 h2 h3 hsu h4 h5 t0 [])
        rw [locale_check _ gmtoff .tmWithTz hx []] at hp
        cases hp
        rw [put_tmTz hx] at hscan
        exact chronoProg_rest cfg _ _ _ _ _ _ hscan hsf
    | _ => exact absurd h6 id
  | components t0 =>
    cases new with
    | components t1 =>
      cases h6
      refine ⟨chronoProg cfg dtSetter .components (76 :: 37 :: x) t0, fun r => ?_, ?_⟩
      · simp only [dateScanner, chronoScanner]
        rw [locale_check _ gmtoff .components hx r]
      · obtain ⟨fmt, hp, hscan⟩ := custom_parts (locale_scan (cfg loc) hl gmtoff .components stores_dt hx h1 h2 h3 hsu h4 h5 t0 [])
        rw [locale_check _ gmtoff .components hx []] at hp
        cases hp
        rw [put_dt hx] at hscan
        exact chronoProg_rest cfg _ _ _ _ _ _ hscan hsf
    | _ => exact absurd h6 id

/-- The formats that are covered. -/
def Spec.DateFormat.Ok (e : Enc) : DateFormat → Prop
  | .classic is => FormatOk e is ∧ (fieldsOf (callsOf is)).Nodup ∧ Compatible (fieldsOf (callsOf is))
  | .localized x f fs => (x, f, fs) ∈ localeConversions

/-- What is printed for a part is printed as the part says. -/
def Spec.LogPart.Ok (e : Enc) : LogPart → Prop
  | .value x => x.Ok e
  | .date _ k _ _ text => k.Ok e ∧ ∀ c ∈ text, IsScalar c

/-- What a date that is shown is read as. -/
theorem dateShows_read {e : Enc} {cfg : Option L → ChronoCfg} (hcfg : ∀ l, (cfg l).enc = e) (hlay : ∀ l s, (cfg l).lay s = .contiguous) (gmtoff : Bool)
    {k : DateFormat} (hk : k.Ok e) {old new : DateVal} {text rest : List Nat} (loc : Option L)
    (h : DateShows e gmtoff (cfg loc).facet k old new (text ++ rest) rest) (ht : ∀ c ∈ text, IsScalar c) (hs : ∀ c ∈ rest, IsScalar c) :
    ∃ p, (∀ r, (dateScanner e cfg gmtoff old).parse (k.text ++ 125 :: r) = some (125 :: r, p)) ∧
      onRest (encodes e (text ++ rest)) loc p = .ok (new, encodes e rest) := by
  cases k with
  | classic is => exact classicDate_read hcfg hlay gmtoff hk.1 hk.2.1 hk.2.2 h hs loc
  | localized x f fs =>
    exact localDate_read hcfg hlay gmtoff hk loc h (by
      intro c hc
      rcases List.mem_append.1 hc with h | h
      · exact ht c h
      · exact hs c h)

/-- The reader of a part. -/
def logReader (env : Env V) (e : Enc) (i : Nat) : LogPart → List Nat → Res (V × List Nat)
  | .value x => match x.spec with | none => env.readDefault i | some w => env.readSpecs i (w.specs e)
  | .date _ k _ _ _ => fun s => (env.readCustom i (k.text ++ [125]) s).2

/-- The fields of the format string, with the readers of the call. -/
def logFields (env : Env V) (e : Enc) (xs : List (Nat × LogPart)) : List (CallField V) :=
  xs.map fun x => ⟨encodes e x.2.gap, x.1, x.2.spec e, logReader env e x.1 x.2⟩

theorem logFormat_eq (env : Env V) (e : Enc) (auto : Bool) (xs : List (Nat × LogPart)) (last : List Nat) :
    logFormat e auto xs last = escapedFormat auto (logFields env e xs) (encodes e last) := by
  unfold logFormat escapedFormat callFormat logFields
  rw [List.map_map, List.flatMap_map]
  congr 2

theorem logLine_cons (p : LogPart) (ps : List LogPart) (tail : List Nat) : logLine (p :: ps) tail = p.gap ++ (p.shown ++ logLine ps tail) := by
  simp [logLine]

theorem logPart_scalar {e : Enc} (loc : LocaleData) {p : LogPart} (h : p.Ok e) : ∀ c ∈ p.shown, IsScalar c := by
  cases p with
  | value x => exact printedField_scalar loc h
  | date gap is old new text => exact h.2

theorem logLine_scalar {e : Enc} (loc : LocaleData) (ps : List LogPart) (tail : List Nat) (hok : ∀ x ∈ ps, x.Ok e)
    (hg : ∀ x ∈ ps, ∀ c ∈ x.gap, Simple e c) (ht : ∀ c ∈ tail, IsScalar c) : ∀ c ∈ logLine ps tail, IsScalar c := by
  intro c hc
  rcases List.mem_append.1 hc with h | h
  · obtain ⟨x, hx, h⟩ := List.mem_flatMap.1 h
    rcases List.mem_append.1 h with h | h
    · exact (hg x hx c h).1
    · exact logPart_scalar loc (hok x hx) c h
  · exact ht c h

theorem litStep_map (f : V → W) (env : Env V) (null : Bool) (all : List Nat) (l : Option L) (sc : Nat → Option (CustomScanner L W)) (t s : List Nat) :
    litStep ((env.map f).withCustom null all l sc) t s = litStep env t s := by
  have h : ∀ n s t, litLoop ((env.map f).withCustom null all l sc) n s t = litLoop env n s t := by
    intro n
    induction n with
    | zero => intro s t; cases t <;> rfl
    | succ n ih =>
      intro s t
      cases t with
      | nil => rfl
      | cons c cs =>
        cases s with
        | nil => rfl
        | cons d ds => unfold litLoop; simp only [ih]; rfl
  unfold litStep
  rw [h]

end Scn
