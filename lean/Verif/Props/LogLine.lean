import Verif.Lemmas.LogLine
import Verif.Lemmas.NumberedRecords
import Verif.Props.Locale
/-
C107: lines with dates and times among other values are read back. The vocabulary is in `Verif/Spec/LogLine.lean`.
-/
namespace Scn
open Spec

variable {L : Type}

theorem log_run {e wide : Enc} {rx : RegexCfg} {loc : LocaleData} {old : Nat} {gmtoff : Bool} {cfg : Option L → ChronoCfg} (hcfg : ∀ l, (cfg l).enc = e)
    (hlay : ∀ l s, (cfg l).lay s = .contiguous) {args : List (Dest ⊕ DateVal)} {all : List Nat} {l : Option L} {env : Env (Val ⊕ DateVal)}
    (henv : env = datedEnv e wide rx loc old gmtoff cfg args all l) {last rest : List Nat} (hlast : ∀ c ∈ last, Simple e c) (hrest : ∀ c ∈ rest, IsScalar c)
    (hend : EndsInText last) (xs : List (Nat × LogPart)) :
    (∀ x ∈ xs, args[x.1]? = some x.2.arg) → (∀ x ∈ xs, x.2.Ok e) → (∀ x ∈ xs, ∀ c ∈ x.2.gap, Simple e c) →
      (∀ x ∈ xs, EndsInText x.2.gap ∨ ∃ c r, x.2.shown = c :: r ∧ isSpace c = false) → LogClear e gmtoff (cfg l).facet (xs.map Prod.snd) (last ++ rest) →
      encodes e (logLine (xs.map Prod.snd) (last ++ rest)) <:+ all →
      inOrder (litStep env) (logFields env e xs) (encodes e last) (encodes e (logLine (xs.map Prod.snd) (last ++ rest))) =
        .ok (xs.map fun x => (x.1, x.2.val), encodes e rest) := by
  have hlr : ∀ c ∈ last ++ rest, IsScalar c := by
    intro c hc
    rcases List.mem_append.1 hc with h | h
    · exact (hlast c h).1
    · exact hrest c h
  have hlit : ∀ t s, litStep env t s = litStep (stdEnv e wide rx loc old (args.map (Sum.elim id fun _ => .bool))) t s := by
    intro t s; rw [henv]; exact litStep_map _ _ _ _ _ _ _ _
  induction xs with
  | nil =>
    intro _ _ _ _ _ _
    simp only [logFields, List.map_nil, inOrder, logLine, List.flatMap_nil, List.nil_append]
    rw [hlit, litStep_self e wide rx loc old _ last rest hlast hrest (Or.inl hend)]
    rfl
  | cons x xs ih =>
    obtain ⟨i, p⟩ := x
    intro hds hok hg hgap hclear hall
    have hp : p.Ok e := hok (i, p) (by simp)
    have hpr := logLine_scalar (e := e) loc (xs.map Prod.snd) (last ++ rest)
      (by intro y hy; obtain ⟨z, hz, rfl⟩ := List.mem_map.1 hy; exact hok z (by simp [hz]))
      (by intro y hy; obtain ⟨z, hz, rfl⟩ := List.mem_map.1 hy; exact hg z (by simp [hz])) hlr
    have hsx := logPart_scalar loc hp
    have hdx : args[i]? = some p.arg := hds (i, p) (by simp)
    have hrec := fun hc ha => ih (fun y hy => hds y (by simp [hy])) (fun y hy => hok y (by simp [hy])) (fun y hy => hg y (by simp [hy]))
      (fun y hy => hgap y (by simp [hy])) hc ha
    rw [List.map_cons] at hclear hall ⊢
    dsimp only at hclear hall ⊢
    have hgp : ∀ c ∈ p.gap, Simple e c := hg (i, p) (by simp)
    have hgapp : EndsInText p.gap ∨ ∃ c r, p.shown = c :: r ∧ isSpace c = false := hgap (i, p) (by simp)
    generalize hps : xs.map Prod.snd = ps at *
    rw [logLine_cons] at hall ⊢
    simp only [logFields, List.map_cons, inOrder]
    rw [hlit, litStep_self e wide rx loc old _ p.gap _ hgp (by
        intro c hc
        rcases List.mem_append.1 hc with h | h
        · exact hsx c h
        · exact hpr c h) (hgapp.imp_right (by rintro ⟨c, r, h1, h2⟩; exact ⟨c, r ++ logLine ps (last ++ rest), by rw [h1]; rfl, h2⟩)), Res.bind_ok]
    have hall' : encodes e (p.shown ++ logLine ps (last ++ rest)) <:+ all := by
      rw [encodes_append] at hall
      exact (List.suffix_append _ _).trans hall
    have hread : logReader env e i p (encodes e (p.shown ++ logLine ps (last ++ rest))) = .ok (p.val, encodes e (logLine ps (last ++ rest))) ∧
        LogClear e gmtoff (cfg l).facet ps (last ++ rest) := by
      cases p with
      | value x =>
        have hdx : args[i]? = some (.inl x.dest) := hdx
        have hds' : (args.map (Sum.elim id fun _ => Dest.bool))[i]? = some x.dest := by rw [List.getElem?_map, hdx]; rfl
        have hx : x.Ok e := hp
        refine ⟨?_, hclear.2⟩
        have hcx := hclear.1
        unfold PrintedField.Clear at hcx
        unfold PrintedField.Ok at hx
        show logReader env e i (.value x) (encodes e (x.shown ++ _)) = .ok (.inl x.val, _)
        simp only [logReader, PrintedField.shown]
        cases hs : x.spec with
        | none =>
          rw [hs] at hcx hx
          have : env.readDefault i = fun s => ((stdEnv e wide rx loc old (args.map (Sum.elim id fun _ => .bool))).readDefault i s).map fun r => (Sum.inl r.1, r.2) := by
            rw [henv]; funext s; simp only [datedEnv, Env.withCustom, hdx]; rfl
          dsimp only
          rw [this]
          show (match (args.map (Sum.elim id fun _ => Dest.bool))[i]? with | none => Res.ub | some d => defaultRead e (d.defaultReader e wide) (fun _ => .contiguous) _).map _ = _
          rw [hds']
          dsimp only
          rw [shows_read e wide hx _ hpr hcx]
          rfl
        | some w =>
          rw [hs] at hcx hx
          have : env.readSpecs i (w.specs e) = fun s => ((stdEnv e wide rx loc old (args.map (Sum.elim id fun _ => .bool))).readSpecs i (w.specs e) s).map fun r => (Sum.inl r.1, r.2) := by
            rw [henv]; rfl
          dsimp only
          rw [this]
          show (match (args.map (Sum.elim id fun _ => Dest.bool))[i]? with | none => Res.ub | some d => d.readSpecs e wide loc old (w.specs e) (fun _ => .contiguous) _).map _ = _
          rw [hds']
          dsimp only
          rw [shownAs_read loc old hx.2.1 hx.2.2.1 hx.2.2.2 hcx hpr (fun _ => .contiguous) (fun t _ => by cases e <;> trivial)]
          rfl
      | date gap k o n text =>
        have hdx : args[i]? = some (.inr o) := hdx
        refine ⟨?_, hclear.2⟩
        obtain ⟨prog, h1, h2⟩ := dateShows_read hcfg hlay gmtoff hp.1 l hclear.1 hp.2 hpr
        show (env.readCustom i (k.text ++ [125]) (encodes e (text ++ _))).2 = .ok (.inr n, _)
        obtain ⟨pre, hpre⟩ := hall'
        rw [henv]
        simp only [datedEnv, Env.withCustom, hdx, CustomScanner.map]
        rw [h1 []]
        simp only [Option.map_some]
        have h2' : onRest (encodes e (text ++ logLine ps (last ++ rest))) l (prog.map (Sum.inr : DateVal → Val ⊕ DateVal)) = .ok (.inr n, encodes e (logLine ps (last ++ rest))) := by
          rw [onRest_map, h2]; rfl
        rw [← hpre]
        show customSpecs false (pre ++ encodes e (text ++ _)) l _ _ = _
        rw [customSpecs_rest l _ pre _ (by rw [h2']; intro h; cases h), h2']
    rw [hread.1, Res.bind_ok]
    dsimp only
    have hrec := hrec hread.2 (by
      rw [encodes_append] at hall'
      exact (List.suffix_append _ _).trans hall')
    unfold logFields at hrec
    rw [hrec]
    rfl

/-- A date of the line is shown in it. -/
theorem logClear_date {e : Enc} (loc : LocaleData) {gmtoff : Bool} {facet : List Nat → List Nat → Option (Tm × List Nat)} {gap : List Nat} {k : DateFormat}
    {o n : DateVal} {text : List Nat} (qs : List LogPart) (tail : List Nat) : (∀ p ∈ qs, p.Ok e) → (∀ p ∈ qs, ∀ c ∈ p.gap, Simple e c) → (∀ c ∈ tail, IsScalar c) →
      LogClear e gmtoff facet qs tail → .date gap k o n text ∈ qs → ∃ tail, DateShows e gmtoff facet k o n (text ++ tail) tail ∧ ∀ c ∈ tail, IsScalar c := by
  induction qs with
  | nil => intro _ _ _ _ h; cases h
  | cons q qs ih =>
    intro ho hg' ht hc hm
    have hrec := ih (fun p hp => ho p (by simp [hp])) (fun p hp => hg' p (by simp [hp])) ht
    rcases List.mem_cons.1 hm with rfl | hm'
    · exact ⟨_, hc.1, logLine_scalar loc qs tail (fun p hp => ho p (by simp [hp])) (fun p hp => hg' p (by simp [hp])) ht⟩
    · cases q with
      | value y => exact hrec hc.2 hm'
      | date => exact hrec hc.2 hm'

theorem logFields_mean {e wide : Enc} {rx : RegexCfg} {loc : LocaleData} {old : Nat} {gmtoff : Bool} {cfg : Option L → ChronoCfg} (hcfg : ∀ l, (cfg l).enc = e)
    (hlay : ∀ l s, (cfg l).lay s = .contiguous) {args : List (Dest ⊕ DateVal)} {all : List Nat} {l : Option L} {i : Nat} {p : LogPart} (hd : args[i]? = some p.arg)
    (hok' : p.Ok e) (hshown : ∀ gap k o n text, p = .date gap k o n text →
      ∃ tail, DateShows e gmtoff (cfg l).facet k o n (text ++ tail) tail ∧ ∀ c ∈ tail, IsScalar c) :
    FieldMeans (datedEnv e wide rx loc old gmtoff cfg args all l) ⟨encodes e p.gap, i, p.spec e, logReader (datedEnv e wide rx loc old gmtoff cfg args all l) e i p⟩ := by
  have hi : i < args.length := (List.getElem?_eq_some_iff.1 hd).1
  generalize henv : datedEnv e wide rx loc old gmtoff cfg args all l = env
  have hcount : env.count = args.length := by rw [← henv]; simp [datedEnv, Env.withCustom, Env.map, stdEnv]
  have henc : env.enc = e := by rw [← henv]; rfl
  cases p with
  | value x =>
    have hd : args[i]? = some (.inl x.dest) := hd
    have hty : env.argTy i = x.dest.argTy := by
      unfold Env.argTy
      rw [if_pos (by omega), ← henv]
      simp only [datedEnv, Env.withCustom, hd]
      show (((args.map (Sum.elim id fun _ => Dest.bool))[i]?).map Dest.argTy).getD .none = _
      rw [List.getElem?_map, hd]; rfl
    have hxo : x.Ok e := hok'
    unfold PrintedField.Ok at hxo
    cases hs : x.spec with
    | none =>
      unfold FieldMeans
      simp only [LogPart.spec, hs, Option.map_none, logReader]
    | some w =>
      rw [hs] at hxo
      have := fieldMeans_written (env := env) (w := w) (by rw [henc]; exact hxo.1) (id := i) (by rw [hty]; exact shownAs_not_custom hxo.2.2.2)
        (by rw [henc, hty]; exact hxo.2.1) (encodes e x.gap)
      rw [henc] at this
      unfold FieldMeans at this ⊢
      simp only [LogPart.spec, hs, Option.map_some, logReader]
      exact this
  | date gap k o n text =>
    have hd : args[i]? = some (.inr o) := hd
    have hty : env.argTy i = .custom := by
      unfold Env.argTy
      rw [if_pos (by omega), ← henv]
      simp only [datedEnv, Env.withCustom, hd]
      rfl
    unfold FieldMeans
    simp only [LogPart.spec, logReader, hty, if_true]
    intro r s
    -- the specification is parsed the same whatever follows
    obtain ⟨tail, hsh, hts⟩ := hshown _ _ _ _ _ rfl
    obtain ⟨prog, h1, _⟩ := dateShows_read hcfg hlay gmtoff hok'.1 l hsh hok'.2 hts
    rw [← henv]
    simp only [datedEnv, Env.withCustom, hd, CustomScanner.map]
    rw [h1 r, h1 []]
    rfl

theorem logFields_stay {e wide : Enc} {rx : RegexCfg} {loc : LocaleData} {old : Nat} {gmtoff : Bool} {cfg : Option L → ChronoCfg} {args : List (Dest ⊕ DateVal)}
    {all : List Nat} {l : Option L}
    (hall : UnitsOk e all) {xs : List (Nat × LogPart)} (hds : ∀ x ∈ xs, args[x.1]? = some x.2.arg) (hok : ∀ x ∈ xs, x.2.Ok e) :
    Stays (UnitsOk e) (logFields (datedEnv e wide rx loc old gmtoff cfg args all l) e xs) := by
  intro f hf s v r hu hr
  obtain ⟨⟨i, p⟩, hx, rfl⟩ := List.mem_map.1 hf
  have hd : args[i]? = some p.arg := hds _ hx
  have hp : p.Ok e := hok _ hx
  dsimp only at hr
  cases p with
  | value x =>
    have hd : args[i]? = some (.inl x.dest) := hd
    have hds' : (args.map (Sum.elim id fun _ => Dest.bool))[i]? = some x.dest := by rw [List.getElem?_map, hd]; rfl
    have hx : x.Ok e := hp
    unfold PrintedField.Ok at hx
    refine hu.suffix ?_
    simp only [logReader] at hr
    cases hs : x.spec with
    | none =>
      rw [hs] at hx hr
      have hr' : ((match (args.map (Sum.elim id fun _ => Dest.bool))[i]? with
          | none => Res.ub | some d => defaultRead e (d.defaultReader e wide) (fun _ => .contiguous) s).map fun r : Val × List Nat => ((Sum.inl r.1 : Val ⊕ DateVal), r.2)) =
          .ok (v, r) := by
        simp only [datedEnv, Env.withCustom, hd] at hr; exact hr
      rw [hds'] at hr'
      dsimp only at hr'
      cases hq : defaultRead e (x.dest.defaultReader e wide) (fun _ => .contiguous) s with
      | ub => rw [hq] at hr'; cases hr'
      | err y => rw [hq] at hr'; cases hr'
      | ok y => rw [hq] at hr'; cases hr'; exact shows_forward wide hx hu hq
    | some w =>
      rw [hs] at hx hr
      have hr' : ((match (args.map (Sum.elim id fun _ => Dest.bool))[i]? with
          | none => Res.ub | some d => d.readSpecs e wide loc old (w.specs e) (fun _ => .contiguous) s).map fun r : Val × List Nat => ((Sum.inl r.1 : Val ⊕ DateVal), r.2)) =
          .ok (v, r) := hr
      rw [hds'] at hr'
      dsimp only at hr'
      cases hq : x.dest.readSpecs e wide loc old (w.specs e) (fun _ => .contiguous) s with
      | ub => rw [hq] at hr'; cases hr'
      | err y => rw [hq] at hr'; cases hr'
      | ok y => rw [hq] at hr'; cases hr'; exact shownAs_forward wide loc old hx.2.2.2 (numberedFields_specs (cfg := rx) hx.2.1 hx.1) hu hq
  | date gap k o n text =>
    have hd2 : args[i]? = some (.inr o) := hd
    exact hall.suffix (withCustom_specs (by rw [hd2]) hr)

/-- C107: a line with dates and times among numbers, words and other values, in any order, printed with literal texts in between, is read back
    by the format string with the same literal texts (their braces doubled), `{}`, `{:…}`, `{id}` or `{id:…}` for the values, and the formats of the
    dates: all the values, each in the argument that its field names, the dates
    with the fields of their formats set and the others as before, and what follows the line is left. There is at least one date; below 64
    fields. A date may also be one conversion that is read by the locale of the call. On contiguous
    sources; formats without `%Z`, of different and compatible fields. -/
theorem C107_log_line_partial (e wide : Enc) (rx : RegexCfg) (loc : LocaleData) (old : Nat) (gmtoff : Bool) (cfg : Option L → ChronoCfg) (hcfg : ∀ l, (cfg l).enc = e)
    (hlay : ∀ l s, (cfg l).lay s = .contiguous) (l : Option L) (auto : Bool) (args : List (Dest ⊕ DateVal)) (xs : List (Nat × LogPart)) (last rest : List Nat)
    (hn : args.length < 64) (hids : Numbered auto (xs.map fun x => x.1) args.length) (hds : ∀ x ∈ xs, args[x.1]? = some x.2.arg)
    (hdate : ∃ i gap k o n text, (i, .date gap k o n text) ∈ xs) (hok : ∀ x ∈ xs, x.2.Ok e) (hg : ∀ x ∈ xs, ∀ c ∈ x.2.gap, Simple e c)
    (hgap : ∀ x ∈ xs, EndsInText x.2.gap ∨ ∃ c r, x.2.shown = c :: r ∧ isSpace c = false)
    (hlast : ∀ c ∈ last, Simple e c) (hend : EndsInText last) (hrest : ∀ c ∈ rest, IsScalar c)
    (hclear : LogClear e gmtoff (cfg l).facet (xs.map Prod.snd) (last ++ rest)) :
    ∃ evs, vscanWithLocale (datedEnv e wide rx loc old gmtoff cfg args (encodes e (logLine (xs.map Prod.snd) (last ++ rest)))) l (logFormat e auto xs last)
        (encodes e (logLine (xs.map Prod.snd) (last ++ rest))) = some (.ok (encodes e rest), evs) ∧
      stored evs = xs.map fun x => (x.1, x.2.val) := by
  have hne : logFormat e auto xs last ≠ [123, 125] := by
    obtain ⟨i, gap, k, o, n, text, hm⟩ := hdate
    intro h
    have h58 : 58 ∈ logFormat e auto xs last := List.mem_append_left _ (List.mem_flatMap.2 ⟨_, hm, by simp [LogPart.spec]⟩)
    rw [h] at h58
    revert h58
    decide
  unfold vscanWithLocale
  rw [if_neg (fun h => hne h.1)]
  have hok2 : ∀ p ∈ xs.map Prod.snd, p.Ok e := by intro y hy; obtain ⟨z, hz, rfl⟩ := List.mem_map.1 hy; exact hok z hz
  have hg2 : ∀ p ∈ xs.map Prod.snd, ∀ c ∈ p.gap, Simple e c := by intro y hy; obtain ⟨z, hz, rfl⟩ := List.mem_map.1 hy; exact hg z hz
  have hlr : ∀ c ∈ last ++ rest, IsScalar c := by
    intro c hc
    rcases List.mem_append.1 hc with h | h
    · exact (hlast c h).1
    · exact hrest c h
  have hu := encodes_unitsOk e (logLine_scalar (e := e) loc _ _ hok2 hg2 hlr)
  have hrun := log_run (e := e) (wide := wide) (rx := rx) (loc := loc) (old := old) (gmtoff := gmtoff) (args := args) hcfg hlay rfl hlast hrest hend xs hds hok hg hgap hclear
    (List.suffix_refl _)
  generalize encodes e (logLine (xs.map Prod.snd) (last ++ rest)) = src at *
  have hcount : (datedEnv e wide rx loc old gmtoff cfg args src l).count = args.length := by simp [datedEnv, Env.withCustom, Env.map, stdEnv]
  rw [logFormat_eq (datedEnv e wide rx loc old gmtoff cfg args src l)]
  refine escaped_ok (U := UnitsOk e) ⟨?_, fun d s hs => hs.suffix (List.suffix_cons _ _)⟩ ⟨last, rfl, hlast⟩ (by omega) ?_ ?_ ?_ (logFields_stay hu hds hok) hu hrun
  · exact (stdEnv_skipsUnits e wide rx loc old (args.map (Sum.elim id fun _ => .bool))).skip
  · intro f hf
    obtain ⟨⟨i, p⟩, hx, rfl⟩ := List.mem_map.1 hf
    refine logFields_mean hcfg hlay (hds _ hx) (hok _ hx) ?_
    rintro gap k o n text rfl
    exact logClear_date loc _ _ hok2 hg2 hlr hclear (List.mem_map.2 ⟨_, hx, rfl⟩)
  · intro f hf
    obtain ⟨x, hx, rfl⟩ := List.mem_map.1 hf
    exact ⟨x.2.gap, rfl, hg x hx⟩
  · rw [hcount, show (logFields (datedEnv e wide rx loc old gmtoff cfg args src l) e xs).map (fun f => f.id) = xs.map fun x => x.1 by
      unfold logFields; rw [List.map_map]; rfl]
    exact hids

/-- C107 is violated for null sources (a default constructed `std::string_view`), which have the same text as an empty string: scanning a
    date from one is undefined, whatever the format; from an empty string it is the end of the input. In a field of a call, `customSpecs`. -/
theorem C107_violated_null (cfg : Option L → ChronoCfg) (hlay : ∀ l s, (cfg l).lay s = .contiguous) (gmtoff : Bool) (fmt : List Nat) (t : Tm) (l : Option L) :
    customSpecs true [] l (chronoProg cfg (tmSetter gmtoff) DateVal.tm fmt t) [] = .ub ∧
      customSpecs false [] l (chronoProg cfg (tmSetter gmtoff) DateVal.tm fmt t) [] = .err .endOfInput := by
  have h : chronoScan (cfg l) (tmSetter gmtoff) fmt t [] = .err .endOfInput := by
    unfold chronoScan
    rw [hlay]
    cases (cfg l).enc <;> rfl
  refine ⟨rfl, ?_⟩
  have h2 : onRest [] l (chronoProg cfg (tmSetter gmtoff) DateVal.tm fmt t) = .err .endOfInput := by
    unfold chronoProg
    simp only [onRest, List.length_nil, Nat.le_refl, if_true, List.drop_nil]
    rw [h]
    rfl
  have := customSpecs_rest l (chronoProg cfg (tmSetter gmtoff) DateVal.tm fmt t) [] [] (by rw [h2]; intro h; cases h)
  rw [List.nil_append] at this
  rw [this, h2]

example : ∀ l s, ((fun _ : Option Unit => exChrono) l).lay s = .contiguous := fun _ _ => rfl

/-- "{{{1:%H:%OM}}} n={0};" on "{19:08} n=42; x", with a `std::tm` that held the year 100. -/
example (wide : Enc) (rx : RegexCfg) (loc : LocaleData) :
    ∃ evs, vscanWithLocale (datedEnv .utf8 wide rx loc 0 false (fun _ : Option Unit => exChrono) [.inl (.int ⟨32, true⟩ .int), .inr (.tm { year := 100 })]
        (encodes .utf8 [123, 49, 57, 58, 48, 56, 125, 32, 110, 61, 52, 50, 59, 32, 120])) (some ())
        [123, 123, 123, 49, 58, 37, 72, 58, 37, 79, 77, 125, 125, 125, 32, 110, 61, 123, 48, 125, 59] (encodes .utf8 [123, 49, 57, 58, 48, 56, 125, 32, 110, 61, 52, 50, 59, 32, 120]) =
      some (.ok [32, 120], evs) ∧ stored evs = [(1, .inr (.tm { year := 100, hour := 19, min := 8 })), (0, .inl (.int 42))] := by
  have h := C107_log_line_partial .utf8 wide rx loc 0 false (fun _ : Option Unit => exChrono) (fun _ => rfl) (fun _ _ => rfl) (some ()) false
    [.inl (.int ⟨32, true⟩ .int), .inr (.tm { year := 100 })]
    [(1, .date [123] (.classic exFormat) (.tm { year := 100 }) (.tm { year := 100, hour := 19, min := 8 }) [49, 57, 58, 48, 56]),
      (0, .value ⟨[125, 32, 110, 61], none, .int ⟨32, true⟩ .int, .int 42, [52, 50], NoDigitFirst 10⟩)] [59] [32, 120] (by decide)
    ⟨by simp, rfl, by simp, by simp⟩ (by
      intro p hp
      simp only [List.mem_cons, List.not_mem_nil, or_false] at hp
      rcases hp with rfl | rfl <;> rfl)
    ⟨_, _, _, _, _, _, List.mem_cons_self⟩ (by
      intro p hp
      simp only [List.mem_cons, List.not_mem_nil, or_false] at hp
      rcases hp with rfl | rfl
      · exact ⟨⟨exFormat_ok, by decide, by constructor <;> decide⟩, by unfold IsScalar; decide⟩
      · have h42 : [52, 50] = intText 10 42 := by decide +kernel
        show Shows .utf8 (.int ⟨32, true⟩ .int) (.int 42) [52, 50] (NoDigitFirst 10)
        rw [h42]
        exact .int ⟨32, true⟩ .int 42 (by decide) (by decide)) (by
      intro p hp
      simp only [List.mem_cons, List.not_mem_nil, or_false] at hp
      rcases hp with rfl | rfl
      · show ∀ c ∈ [123], _
        unfold Simple; decide
      · show ∀ c ∈ [125, 32, 110, 61], _
        unfold Simple; decide) (by
      intro p hp
      simp only [List.mem_cons, List.not_mem_nil, or_false] at hp
      rcases hp with rfl | rfl
      · exact Or.inr ⟨49, _, rfl, by decide⟩
      · exact Or.inr ⟨52, _, rfl, by decide⟩) (by unfold Simple; decide) (by rintro c ⟨⟩; decide) (by unfold IsScalar; decide)
    ⟨⟨exCivil, exCivil_valid, ⟨[], [49, 57, 58, 48, 56], rfl, by simp [Spaces], by decide, by decide,
        ShownSeq.cons _ _ [49, 57] _ (fun _ => True) _ (.hour24 _ _ _ (digits_pad2 (n := 19) (by decide) (by decide) _)) trivial
          (.cons _ _ [58] _ (fun _ => True) _ (shown_sep (by decide) _) trivial
            (.cons _ _ [48, 56] _ (fun _ => True) _ (.minute _ _ _ (digits_pad2 (n := 8) (by decide) (by decide) _)) trivial (.nil _)))⟩,
        by decide, by decide⟩,
      by intro c hc; cases hc; decide, trivial⟩
  have h0 : numeral 10 0 = [48] := by decide +kernel
  have h1 : numeral 10 1 = [49] := by decide +kernel
  unfold logFormat at h
  simp only [List.flatMap_cons, List.flatMap_nil, h0, h1] at h
  exact h

/-- "{:L%x},{}" on "5/3,42", in a locale whose dates are of 2024, the day first. -/
example (wide : Enc) (rx : RegexCfg) (loc : LocaleData) :
    ∃ evs, vscanWithLocale (datedEnv .utf8 wide rx loc 0 false (fun l : Option Unit => if l.isSome then exLocale else exChrono)
        [.inr (.tm { hour := 7 }), .inl (.int ⟨32, true⟩ .int)] (encodes .utf8 [53, 47, 51, 44, 52, 50])) (some ())
        [123, 58, 76, 37, 120, 125, 44, 123, 125] (encodes .utf8 [53, 47, 51, 44, 52, 50]) = some (.ok [], evs) ∧
      stored evs = [(0, .inr (.tm { hour := 7, mday := 5, mon := 2, year := 124 })), (1, .inl (.int 42))] := by
  have h := C107_log_line_partial .utf8 wide rx loc 0 false (fun l : Option Unit => if l.isSome then exLocale else exChrono) (by intro l; cases l <;> rfl)
    (by intro l s; cases l <;> rfl) (some ()) true
    [.inr (.tm { hour := 7 }), .inl (.int ⟨32, true⟩ .int)]
    [(0, .date [] (.localized [120] [120] [.fullYear, .mon, .mday]) (.tm { hour := 7 }) (.tm { hour := 7, mday := 5, mon := 2, year := 124 }) [53, 47, 51]),
      (1, .value ⟨[44], none, .int ⟨32, true⟩ .int, .int 42, [52, 50], NoDigitFirst 10⟩)] [] [] (by decide)
    ⟨by simp, rfl, by simp, by intro _; rfl⟩ (by
      intro p hp
      simp only [List.mem_cons, List.not_mem_nil, or_false] at hp
      rcases hp with rfl | rfl <;> rfl)
    ⟨_, _, _, _, _, _, List.mem_cons_self⟩ (by
      intro p hp
      simp only [List.mem_cons, List.not_mem_nil, or_false] at hp
      rcases hp with rfl | rfl
      · exact ⟨by show _ ∈ localeConversions; decide, by unfold IsScalar; decide⟩
      · have h42 : [52, 50] = intText 10 42 := by decide +kernel
        show Shows .utf8 (.int ⟨32, true⟩ .int) (.int 42) [52, 50] (NoDigitFirst 10)
        rw [h42]
        exact .int ⟨32, true⟩ .int 42 (by decide) (by decide)) (by
      intro p hp
      simp only [List.mem_cons, List.not_mem_nil, or_false] at hp
      rcases hp with rfl | rfl
      · intro c hc; cases hc
      · show ∀ c ∈ [44], _
        unfold Simple; decide) (by
      intro p hp
      simp only [List.mem_cons, List.not_mem_nil, or_false] at hp
      rcases hp with rfl | rfl
      · exact Or.inr ⟨53, _, rfl, by decide⟩
      · exact Or.inr ⟨52, _, rfl, by decide⟩) (by intro c hc; cases hc) (by rintro c ⟨⟩) (by intro c hc; cases hc)
    ⟨⟨[], [53, 47, 51], { mday := 5, mon := 2, year := 124 }, rfl, by simp [Spaces], by decide, by decide, rfl,
        (by intro g hg; simp at hg; rcases hg with rfl | rfl | rfl <;> simp [FieldInRange]), rfl⟩,
      (by refine ⟨?_, trivial⟩; intro c hc; cases hc)⟩
  exact h

end Scn
