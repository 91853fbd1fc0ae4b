import Verif.Lemmas.ListLine
import Verif.Lemmas.NumberedRecords
import Verif.Props.Discard
/-
C109: lines with lists, sets, maps and tuples among other values are read back. The vocabulary is in `Verif/Spec/ListLine.lean`.
-/
namespace Scn
open Spec

theorem list_run {e wide : Enc} {rx : RegexCfg} {loc gloc : LocaleData} {old : Nat}
    {args : List (Dest ⊕ (Coll × List CollVal))} {all : List Nat} {env : Env (Val ⊕ CollVal)}
    (henv : env = listedEnv e wide rx loc gloc old args all) {last rest : List Nat} (hlast : ∀ c ∈ last, Simple e c) (hrest : ∀ c ∈ rest, IsScalar c)
    (hend : EndsInText last) (xs : List (Nat × ListPart)) :
    (∀ x ∈ xs, args[x.1]? = some x.2.arg) → (∀ x ∈ xs, x.2.Ok e) → (∀ x ∈ xs, ∀ c ∈ x.2.gap, Simple e c) →
      (∀ x ∈ xs, EndsInText x.2.gap ∨ ∃ c r, x.2.shown = c :: r ∧ isSpace c = false) → ListClear (xs.map Prod.snd) (last ++ rest) →
      encodes e (listLine (xs.map Prod.snd) (last ++ rest)) <:+ all →
      inOrder (litStep env) (listFields env e xs) (encodes e last) (encodes e (listLine (xs.map Prod.snd) (last ++ rest))) =
        .ok (xs.map fun x => (x.1, x.2.val), encodes e rest) := by
  have hlr : ∀ c ∈ last ++ rest, IsScalar c := by
    intro c hc
    rcases List.mem_append.1 hc with h | h
    · exact (hlast c h).1
    · exact hrest c h
  have hlit : ∀ t s, litStep env t s = litStep (stdEnv e wide rx loc old (args.map (Sum.elim id fun _ => .bool))) t s := by
    intro t s; rw [henv]; exact litStep_map _ _ _ _ _ _ _ _
  induction xs with
  | nil =>
    intro _ _ _ _ _ _
    simp only [listFields, List.map_nil, inOrder, listLine, List.flatMap_nil, List.nil_append]
    rw [hlit, litStep_self e wide rx loc old _ last rest hlast hrest (Or.inl hend)]
    rfl
  | cons x xs ih =>
    obtain ⟨i, p⟩ := x
    intro hds hok hg hgap hclear hall
    have hp : p.Ok e := hok (i, p) (by simp)
    have hpr := listLine_scalar (e := e) loc (xs.map Prod.snd) (last ++ rest)
      (by intro y hy; obtain ⟨z, hz, rfl⟩ := List.mem_map.1 hy; exact hok z (by simp [hz]))
      (by intro y hy; obtain ⟨z, hz, rfl⟩ := List.mem_map.1 hy; exact hg z (by simp [hz])) hlr
    have hsx := listPart_scalar loc hp
    have hdx : args[i]? = some p.arg := hds (i, p) (by simp)
    have hrec := fun hc ha => ih (fun y hy => hds y (by simp [hy])) (fun y hy => hok y (by simp [hy])) (fun y hy => hg y (by simp [hy]))
      (fun y hy => hgap y (by simp [hy])) hc ha
    rw [List.map_cons] at hclear hall ⊢
    dsimp only at hclear hall ⊢
    have hgp : ∀ c ∈ p.gap, Simple e c := hg (i, p) (by simp)
    have hgapp : EndsInText p.gap ∨ ∃ c r, p.shown = c :: r ∧ isSpace c = false := hgap (i, p) (by simp)
    generalize hps : xs.map Prod.snd = ps at *
    rw [listLine_cons] at hall ⊢
    simp only [listFields, List.map_cons, inOrder]
    rw [hlit, litStep_self e wide rx loc old _ p.gap _ hgp (by
        intro c hc
        rcases List.mem_append.1 hc with h | h
        · exact hsx c h
        · exact hpr c h) (hgapp.imp_right (by rintro ⟨c, r, h1, h2⟩; exact ⟨c, r ++ listLine ps (last ++ rest), by rw [h1]; rfl, h2⟩)), Res.bind_ok]
    have hall' : encodes e (p.shown ++ listLine ps (last ++ rest)) <:+ all := by
      rw [encodes_append] at hall
      exact (List.suffix_append _ _).trans hall
    have hread : listReader env e i p (encodes e (p.shown ++ listLine ps (last ++ rest))) = .ok (p.val, encodes e (listLine ps (last ++ rest))) ∧
        ListClear ps (last ++ rest) := by
      cases p with
      | value x =>
        have hdx : args[i]? = some (.inl x.dest) := hdx
        have hds' : (args.map (Sum.elim id fun _ => Dest.bool))[i]? = some x.dest := by rw [List.getElem?_map, hdx]; rfl
        have hx : x.Ok e := hp
        refine ⟨?_, hclear.2⟩
        have hcx := hclear.1
        unfold PrintedField.Clear at hcx
        unfold PrintedField.Ok at hx
        show listReader env e i (.value x) (encodes e (x.shown ++ _)) = .ok (.inl x.val, _)
        simp only [listReader, PrintedField.shown]
        cases hs : x.spec with
        | none =>
          rw [hs] at hcx hx
          have : env.readDefault i = fun s => ((stdEnv e wide rx loc old (args.map (Sum.elim id fun _ => .bool))).readDefault i s).map fun r => (Sum.inl r.1, r.2) := by
            rw [henv]; funext s; simp only [listedEnv, Env.withCustom, hdx]; rfl
          dsimp only
          rw [this]
          show (match (args.map (Sum.elim id fun _ => Dest.bool))[i]? with | none => Res.ub | some d => defaultRead e (d.defaultReader e wide) (fun _ => .contiguous) _).map _ = _
          rw [hds']
          dsimp only
          rw [shows_read e wide hx _ hpr hcx]
          rfl
        | some w =>
          rw [hs] at hcx hx
          have : env.readSpecs i (w.specs e) = fun s => ((stdEnv e wide rx loc old (args.map (Sum.elim id fun _ => .bool))).readSpecs i (w.specs e) s).map fun r => (Sum.inl r.1, r.2) := by
            rw [henv]; rfl
          dsimp only
          rw [this]
          show (match (args.map (Sum.elim id fun _ => Dest.bool))[i]? with | none => Res.ub | some d => d.readSpecs e wide loc old (w.specs e) (fun _ => .contiguous) _).map _ = _
          rw [hds']
          dsimp only
          rw [shownAs_read loc old hx.2.1 hx.2.2.1 hx.2.2.2 hcx hpr (fun _ => .contiguous) (fun t _ => by cases e <;> trivial)]
          rfl
      | list gap c w init v text =>
        have hdx2 : args[i]? = some (.inr (c, init)) := hdx
        refine ⟨?_, hclear⟩
        obtain ⟨hsh, hwr⟩ := hp
        have hscan := listShows_read wide gloc hsh hpr
        have hsuf : encodes e (listLine ps (last ++ rest)) <:+ encodes e (text ++ listLine ps (last ++ rest)) := by
          rw [encodes_append]; exact List.suffix_append _ _
        have hprog : ∀ l : Option Unit, onRest (encodes e (text ++ listLine ps (last ++ rest))) l
            ((collProg e wide gloc c (writtenSpecs e w) init).map (Sum.inr : CollVal → Val ⊕ CollVal)) = .ok (.inr v, encodes e (listLine ps (last ++ rest))) := by
          intro l
          rw [onRest_map, collProg_rest e wide gloc c _ init l hscan hsuf]; rfl
        show listReader env e i (.list gap c w init v text) (encodes e (text ++ _)) = .ok (.inr v, _)
        cases w with
        | none =>
          simp only [listReader]
          rw [henv]
          simp only [listedEnv, Env.withCustom, hdx2, CustomScanner.map, collScanner_empty, Option.map_some]
          have h2 := hprog none
          simp only [writtenSpecs] at h2
          rw [customDefault_rest none _ _ (by rw [h2]; intro h; cases h), h2]
        | some w' =>
          obtain ⟨hne, d, hd, hrw⟩ := hwr w' rfl
          obtain ⟨pre, hpre⟩ := hall'
          simp only [listReader]
          rw [henv]
          simp only [listedEnv, Env.withCustom, hdx2, CustomScanner.map]
          rw [collScanner_written hne hd hrw []]
          simp only [Option.map_some]
          have h2 := hprog none
          simp only [writtenSpecs] at h2
          rw [← hpre]
          show customSpecs false (pre ++ encodes e (text ++ _)) none _ _ = _
          rw [customSpecs_rest none _ pre _ (by rw [h2]; intro h; cases h), h2]
    rw [hread.1, Res.bind_ok]
    dsimp only
    have hrec := hrec hread.2 (by
      rw [encodes_append] at hall'
      exact (List.suffix_append _ _).trans hall')
    unfold listFields at hrec
    rw [hrec]
    rfl

theorem listFields_mean {e wide : Enc} {rx : RegexCfg} {loc gloc : LocaleData} {old : Nat} {args : List (Dest ⊕ (Coll × List CollVal))} {all : List Nat}
    {i : Nat} {p : ListPart} (hd : args[i]? = some p.arg) (hok' : p.Ok e) :
    FieldMeans (listedEnv e wide rx loc gloc old args all) ⟨encodes e p.gap, i, p.spec e, listReader (listedEnv e wide rx loc gloc old args all) e i p⟩ := by
  have hi : i < args.length := (List.getElem?_eq_some_iff.1 hd).1
  generalize henv : listedEnv e wide rx loc gloc old args all = env
  have hcount : env.count = args.length := by rw [← henv]; simp [listedEnv, Env.withCustom, Env.map, stdEnv]
  have henc : env.enc = e := by rw [← henv]; rfl
  cases p with
  | value x =>
    have hd : args[i]? = some (.inl x.dest) := hd
    have hty : env.argTy i = x.dest.argTy := by
      unfold Env.argTy
      rw [if_pos (by omega), ← henv]
      simp only [listedEnv, Env.withCustom, hd]
      show (((args.map (Sum.elim id fun _ => Dest.bool))[i]?).map Dest.argTy).getD .none = _
      rw [List.getElem?_map, hd]; rfl
    have hxo : x.Ok e := hok'
    unfold PrintedField.Ok at hxo
    cases hs : x.spec with
    | none =>
      unfold FieldMeans
      simp only [ListPart.spec, hs, Option.map_none, listReader]
    | some w =>
      rw [hs] at hxo
      have := fieldMeans_written (env := env) (w := w) (by rw [henc]; exact hxo.1) (id := i) (by rw [hty]; exact shownAs_not_custom hxo.2.2.2)
        (by rw [henc, hty]; exact hxo.2.1) (encodes e x.gap)
      rw [henc] at this
      unfold FieldMeans at this ⊢
      simp only [ListPart.spec, hs, Option.map_some, listReader]
      exact this
  | list gap c w init v text =>
    have hd2 : args[i]? = some (.inr (c, init)) := hd
    have hty : env.argTy i = .custom := by
      unfold Env.argTy
      rw [if_pos (by omega), ← henv]
      simp only [listedEnv, Env.withCustom, hd2]
      rfl
    unfold FieldMeans
    cases w with
    | none => simp only [ListPart.spec, Option.map_none, listReader]
    | some w' =>
      simp only [ListPart.spec, Option.map_some, listReader, hty, if_true]
      intro r s
      obtain ⟨hne, d, hlf, hrw⟩ := hok'.2 w' rfl
      rw [← henv]
      simp only [listedEnv, Env.withCustom, hd2, CustomScanner.map]
      rw [collScanner_written hne hlf hrw r, collScanner_written hne hlf hrw []]
      rfl

theorem listFields_stay {e wide : Enc} {rx : RegexCfg} {loc gloc : LocaleData} {old : Nat} {args : List (Dest ⊕ (Coll × List CollVal))} {all : List Nat}
    (hall : UnitsOk e all) {xs : List (Nat × ListPart)} (hds : ∀ x ∈ xs, args[x.1]? = some x.2.arg) (hok : ∀ x ∈ xs, x.2.Ok e) :
    Stays (UnitsOk e) (listFields (listedEnv e wide rx loc gloc old args all) e xs) := by
  intro f hf s v r hu hr
  obtain ⟨⟨i, p⟩, hx, rfl⟩ := List.mem_map.1 hf
  have hd : args[i]? = some p.arg := hds _ hx
  have hp : p.Ok e := hok _ hx
  dsimp only at hr
  cases p with
  | value x =>
    have hd : args[i]? = some (.inl x.dest) := hd
    have hds' : (args.map (Sum.elim id fun _ => Dest.bool))[i]? = some x.dest := by rw [List.getElem?_map, hd]; rfl
    have hx : x.Ok e := hp
    unfold PrintedField.Ok at hx
    refine hu.suffix ?_
    simp only [listReader] at hr
    cases hs : x.spec with
    | none =>
      rw [hs] at hx hr
      have hr' : ((match (args.map (Sum.elim id fun _ => Dest.bool))[i]? with
          | none => Res.ub | some d => defaultRead e (d.defaultReader e wide) (fun _ => .contiguous) s).map fun r : Val × List Nat => ((Sum.inl r.1 : Val ⊕ CollVal), r.2)) = .ok (v, r) := by
        simp only [listedEnv, Env.withCustom, hd] at hr; exact hr
      rw [hds'] at hr'
      dsimp only at hr'
      cases hq : defaultRead e (x.dest.defaultReader e wide) (fun _ => .contiguous) s with
      | ub => rw [hq] at hr'; cases hr'
      | err y => rw [hq] at hr'; cases hr'
      | ok y => rw [hq] at hr'; cases hr'; exact shows_forward wide hx hu hq
    | some w =>
      rw [hs] at hx hr
      have hr' : ((match (args.map (Sum.elim id fun _ => Dest.bool))[i]? with
          | none => Res.ub | some d => d.readSpecs e wide loc old (w.specs e) (fun _ => .contiguous) s).map fun r : Val × List Nat => ((Sum.inl r.1 : Val ⊕ CollVal), r.2)) = .ok (v, r) := hr
      rw [hds'] at hr'
      dsimp only at hr'
      cases hq : x.dest.readSpecs e wide loc old (w.specs e) (fun _ => .contiguous) s with
      | ub => rw [hq] at hr'; cases hr'
      | err y => rw [hq] at hr'; cases hr'
      | ok y => rw [hq] at hr'; cases hr'; exact shownAs_forward wide loc old hx.2.2.2 (numberedFields_specs (cfg := rx) hx.2.1 hx.1) hu hq
  | list gap c w init v' text =>
    have hd2 : args[i]? = some (.inr (c, init)) := hd
    cases w with
    | none => exact hu.suffix (withCustom_default (by rw [hd2]) hr)
    | some w' => exact hall.suffix (withCustom_specs (by rw [hd2]) hr)

/-- C109, partial: a line with lists, sets, maps and tuples among numbers, words and other values, in any order, printed with literal texts in between, is
    read back by the format string with the same literal texts (their braces doubled) and `{}`, `{:…}`, `{id}` or `{id:…}` for the fields: all the values,
    each in the argument that its field names, with the elements of a
    list after those that it held, and what follows the line is left. The specification of a list is one for its elements, which may be lists; those of
    tuples and maps have none. Below 64 fields, on contiguous sources, without `L`; elements as in `CollShows`. The locale of the call and the
    global one do not matter. -/
theorem C109_line_partial (e wide : Enc) (rx : RegexCfg) (loc gloc : LocaleData) (old : Nat) (auto : Bool) (args : List (Dest ⊕ (Coll × List CollVal)))
    (xs : List (Nat × ListPart)) (last rest : List Nat) (hn : args.length < 64) (hids : Numbered auto (xs.map fun x => x.1) args.length)
    (hds : ∀ x ∈ xs, args[x.1]? = some x.2.arg) (hok : ∀ x ∈ xs, x.2.Ok e) (hg : ∀ x ∈ xs, ∀ c ∈ x.2.gap, Simple e c)
    (hgap : ∀ x ∈ xs, EndsInText x.2.gap ∨ ∃ c r, x.2.shown = c :: r ∧ isSpace c = false)
    (hlast : ∀ c ∈ last, Simple e c) (hend : EndsInText last) (hrest : ∀ c ∈ rest, IsScalar c)
    (hclear : ListClear (xs.map Prod.snd) (last ++ rest)) :
    ∃ evs, vscan (listedEnv e wide rx loc gloc old args (encodes e (listLine (xs.map Prod.snd) (last ++ rest)))) (listFormat e auto xs last)
        (encodes e (listLine (xs.map Prod.snd) (last ++ rest))) = some (.ok (encodes e rest), evs) ∧
      stored evs = xs.map fun x => (x.1, x.2.val) := by
  have hscalar : ∀ c ∈ listLine (xs.map Prod.snd) (last ++ rest), IsScalar c := by
    refine listLine_scalar (e := e) loc _ _ ?_ ?_ ?_
    · intro y hy; obtain ⟨z, hz, rfl⟩ := List.mem_map.1 hy; exact hok z hz
    · intro y hy; obtain ⟨z, hz, rfl⟩ := List.mem_map.1 hy; exact hg z hz
    · intro c hc
      rcases List.mem_append.1 hc with h | h
      · exact (hlast c h).1
      · exact hrest c h
  have hu := encodes_unitsOk e hscalar
  have hrun := list_run (e := e) (wide := wide) (rx := rx) (loc := loc) (gloc := gloc) (old := old) (args := args) rfl hlast hrest hend xs hds hok hg hgap hclear
    (List.suffix_refl _)
  generalize encodes e (listLine (xs.map Prod.snd) (last ++ rest)) = src at *
  have hcount : (listedEnv e wide rx loc gloc old args src).count = args.length := by simp [listedEnv, Env.withCustom, Env.map, stdEnv]
  rw [listFormat_eq (listedEnv e wide rx loc gloc old args src)]
  refine escaped_ok (U := UnitsOk e) ⟨?_, fun d s hs => hs.suffix (List.suffix_cons _ _)⟩ ⟨last, rfl, hlast⟩ (by omega) ?_ ?_ ?_ (listFields_stay hu hds hok) hu hrun
  · exact (stdEnv_skipsUnits e wide rx loc old (args.map (Sum.elim id fun _ => .bool))).skip
  · intro f hf
    obtain ⟨x, hx, rfl⟩ := List.mem_map.1 hf
    exact listFields_mean (hds x hx) (hok x hx)
  · intro f hf
    obtain ⟨x, hx, rfl⟩ := List.mem_map.1 hf
    exact ⟨x.2.gap, rfl, hg x hx⟩
  · rw [hcount, show (listFields (listedEnv e wide rx loc gloc old args src) e xs).map (fun f => f.id) = xs.map fun x => x.1 by
      unfold listFields; rw [List.map_map]; rfl]
    exact hids

/-- An element: an integer shown in decimal. -/
def exElement (text after : List Nat) (x : Int) : Item CollVal := ⟨text, .val (.int x), NoDigitFirst 10, after⟩

theorem exElement_shows (ws : List Nat) (hws : Spaces ws) (x : Int) (hx : InRange ⟨32, true⟩ x) :
    CollShows .utf8 (.item (.int ⟨32, true⟩ .int)) none (.val (.int x)) (ws ++ intText 10 x) (NoDigitFirst 10) :=
  .item ws (.int ⟨32, true⟩ .int x (by decide) hx) ⟨(by intro _ _ _ h; cases h), (by intro _ _ h; cases h; decide)⟩ hws (fun _ => rfl)

/-- "ids={1} n={{{0}}};" on "ids=[1, 2] n={42}; x", with a vector that held 7. -/
example (wide : Enc) (rx : RegexCfg) (loc gloc : LocaleData) :
    ∃ evs, vscan (listedEnv .utf8 wide rx loc gloc 0 [.inl (.int ⟨32, true⟩ .int), .inr (.range .sequence 1000 (.item (.int ⟨32, true⟩ .int)), [.val (.int 7)])]
        [105, 100, 115, 61, 91, 49, 44, 32, 50, 93, 32, 110, 61, 123, 52, 50, 125, 59, 32, 120])
        [105, 100, 115, 61, 123, 49, 125, 32, 110, 61, 123, 123, 123, 48, 125, 125, 125, 59] [105, 100, 115, 61, 91, 49, 44, 32, 50, 93, 32, 110, 61, 123, 52, 50, 125, 59, 32, 120] =
      some (.ok [32, 120], evs) ∧ stored evs = [(1, .inr (.list [.val (.int 7), .val (.int 1), .val (.int 2)])), (0, .inl (.int 42))] := by
  have h := C109_line_partial .utf8 wide rx loc gloc 0 false
    [.inl (.int ⟨32, true⟩ .int), .inr (.range .sequence 1000 (.item (.int ⟨32, true⟩ .int)), [.val (.int 7)])]
    [(1, .list [105, 100, 115, 61] (.range .sequence 1000 (.item (.int ⟨32, true⟩ .int))) none [.val (.int 7)] (.list [.val (.int 7), .val (.int 1), .val (.int 2)])
        [91, 49, 44, 32, 50, 93]),
      (0, .value ⟨[32, 110, 61, 123], none, .int ⟨32, true⟩ .int, .int 42, [52, 50], NoDigitFirst 10⟩)] [125, 59] [32, 120] (by decide)
    ⟨by simp, rfl, by simp, by simp⟩ (by
      intro p hp
      simp only [List.mem_cons, List.not_mem_nil, or_false] at hp
      rcases hp with rfl | rfl <;> rfl) (by
      intro p hp
      simp only [List.mem_cons, List.not_mem_nil, or_false] at hp
      rcases hp with rfl | rfl
      · refine ⟨⟨[.val (.int 1), .val (.int 2)], ?_, rfl⟩, by intro _ h; cases h⟩
        refine CollShows.range (e := .utf8) (el := .item (.int ⟨32, true⟩ .int)) (w := none) 91 93 1000 (Or.inl rfl) [] [] (by simp [Spaces]) (by simp [Spaces])
          [exElement [49] [] 1, exElement [32, 50] [] 2] (by decide) ?_ ?_ ?_ ?_
        · intro x hx
          simp only [List.mem_cons, List.not_mem_nil, or_false] at hx
          rcases hx with rfl | rfl
          · have := exElement_shows [] (by simp [Spaces]) 1 (by decide)
            rw [show intText 10 1 = [49] by decide +kernel] at this
            exact this
          · have := exElement_shows [32] (by unfold Spaces IsScalar; decide) 2 (by decide)
            rw [show intText 10 2 = [50] by decide +kernel] at this
            exact this
        · intro x hx
          simp only [List.mem_cons, List.not_mem_nil, or_false] at hx
          rcases hx with rfl | rfl <;> simp [exElement, Spaces]
        · intro x hx
          simp only [List.mem_cons, List.not_mem_nil, or_false] at hx
          rcases hx with rfl | rfl
          · exact ⟨[], 49, [], rfl, by simp, by decide, by decide⟩
          · exact ⟨[32], 50, [], rfl, by decide, by decide, by decide⟩
        · intro rest
          refine ⟨?_, ?_, trivial⟩
          · intro c hc; cases hc; decide
          · intro c hc; cases hc; decide
      · have h42 : [52, 50] = intText 10 42 := by decide +kernel
        show Shows .utf8 (.int ⟨32, true⟩ .int) (.int 42) [52, 50] (NoDigitFirst 10)
        rw [h42]
        exact .int ⟨32, true⟩ .int 42 (by decide) (by decide)) (by
      intro p hp
      simp only [List.mem_cons, List.not_mem_nil, or_false] at hp
      rcases hp with rfl | rfl
      · show ∀ c ∈ [105, 100, 115, 61], _
        unfold Simple; decide
      · show ∀ c ∈ [32, 110, 61, 123], _
        unfold Simple; decide) (by
      intro p hp
      simp only [List.mem_cons, List.not_mem_nil, or_false] at hp
      rcases hp with rfl | rfl
      · exact Or.inr ⟨91, _, rfl, by decide⟩
      · exact Or.inr ⟨52, _, rfl, by decide⟩) (by unfold Simple; decide) (by rintro c ⟨⟩; decide) (by unfold IsScalar; decide)
    ⟨by intro c hc; cases hc; decide, trivial⟩
  have h0 : numeral 10 0 = [48] := by decide +kernel
  have h1 : numeral 10 1 = [49] := by decide +kernel
  unfold listFormat at h
  simp only [List.flatMap_cons, List.flatMap_nil, h0, h1] at h
  exact h

/-- What may follow a number in a field `{:x}`. -/
def exHexFollow (x : Int) (text tail : List Nat) : Prop :=
  PaddedField.Clear ⟨0, 0, .unspecified, 32⟩ true false text
    (fun rest => NoDigitFirst 16 rest ∧ (x = 0 → 16 ≠ 10 → ∀ l, rest.head? = some l → l ∉ [98, 66, 111, 79, 120, 88])) tail

/-- "{:x}" on "[1f, a0]": the elements are shown in their fields. -/
theorem exHex_shows : CollShows .utf8 (.range .sequence 1000 (.item (.int ⟨32, true⟩ .int))) (some { letter := some 120 }) (.list [.val (.int 31), .val (.int 160)])
    [91, 49, 102, 44, 32, 97, 48, 93] (fun _ => True) := by
  have hx : ∀ (ws : List Nat), Spaces ws → ∀ x : Int, InRange ⟨32, true⟩ x →
      CollShows .utf8 (.item (.int ⟨32, true⟩ .int)) (some { letter := some 120 }) (.val (.int x)) (ws ++ intText 16 x) (exHexFollow x (intText 16 x)) := by
    intro ws hws x hx
    have := CollShows.written (e := .utf8) (d := .int ⟨32, true⟩ .int) ws { letter := some 120 } hws (fun _ => ⟨rfl, rfl, rfl⟩)
      ⟨(by intro _ _ h; cases h), (by intro _ h; cases h), (by intro _ h; cases h), (by intro h; cases h), (by intro c h; cases h; exact ⟨.intHex, by decide⟩),
        (by intro h; cases h)⟩ rfl
      (.int ⟨32, true⟩ .int (some 120) 16 false x (by decide) (Or.inl rfl) rfl (by decide) hx (by intro h; cases h))
    have hpad : ({ letter := some 120 } : Written).field.pad (rightByDefault (.int ⟨32, true⟩ .int) (some 120)) (intText 16 x) = intText 16 x := by
      simp [PaddedField.pad, PaddedField.fills, Written.field, Written.side, Written.fillChar, rightByDefault]
    rw [hpad] at this
    exact this
  have hc : ∀ (x : Int) (text t : List Nat), x ≠ 0 → NoDigitFirst 16 t → exHexFollow x text t := by
    intro x text t h0 ht
    refine ⟨by intro h; simp at h, by intro h; simp at h, Or.inl rfl, ⟨?_, fun h => absurd h h0⟩, (by intro _ h; cases h), (by intro _ h; cases h)⟩
    simpa [PaddedField.fills, PaddedField.beyond, PaddedField.view] using ht
  have h1 := hx [] (by simp [Spaces]) 31 (by decide)
  have h2 := hx [32] (by unfold Spaces IsScalar; decide) 160 (by decide)
  rw [show intText 16 31 = [49, 102] by decide +kernel] at h1
  rw [show intText 16 160 = [97, 48] by decide +kernel] at h2
  refine CollShows.range (e := .utf8) (el := .item (.int ⟨32, true⟩ .int)) 91 93 1000 (Or.inl rfl) [] [] (by simp [Spaces]) (by simp [Spaces])
    [⟨[49, 102], .val (.int 31), exHexFollow 31 [49, 102], []⟩, ⟨[32, 97, 48], .val (.int 160), exHexFollow 160 [97, 48], []⟩] (by decide) ?_ ?_ ?_ ?_
  · intro x hx
    simp only [List.mem_cons, List.not_mem_nil, or_false] at hx
    rcases hx with rfl | rfl
    · exact h1
    · exact h2
  · intro x hx
    simp only [List.mem_cons, List.not_mem_nil, or_false] at hx
    rcases hx with rfl | rfl <;> simp [Spaces]
  · intro x hx
    simp only [List.mem_cons, List.not_mem_nil, or_false] at hx
    rcases hx with rfl | rfl
    · exact ⟨[], 49, [102], rfl, by simp, by decide, by decide⟩
    · exact ⟨[32], 97, [48], rfl, by decide, by decide, by decide⟩
  · intro rest
    refine ⟨hc _ _ _ (by decide) ?_, hc _ _ _ (by decide) ?_, trivial⟩
    · intro c h; cases h; decide
    · intro c h; cases h; decide

/-- So the list is a part of a line. -/
example : (ListPart.list [105, 61] (.range .sequence 1000 (.item (.int ⟨32, true⟩ .int))) (some { letter := some 120 }) []
    (.list [.val (.int 31), .val (.int 160)]) [91, 49, 102, 44, 32, 97, 48, 93]).Ok .utf8 := by
  refine ⟨⟨_, exHex_shows, rfl⟩, ?_⟩
  rintro w ⟨⟩
  exact ⟨by decide +kernel, _, .range _ _ (.item _), (by intro _ _ h; cases h), (by intro _ h; cases h), (by intro _ h; cases h), (by intro h; cases h),
    (by intro c h; cases h; exact ⟨.intHex, by decide⟩), (by intro h; cases h)⟩

/-- "{1:[]}" shows a map to vectors. -/
example : CollShows .utf8 (.range .set 1000 (.tuple .mapEntry [.item (.int ⟨32, true⟩ .int), .range .sequence 1000 (.item (.int ⟨32, true⟩ .int))])) none
    (.list [.list [.val (.int 1), .list []]]) [123, 49, 58, 91, 93, 125] (fun _ => True) := by
  have hk := exElement_shows [] (by simp [Spaces]) 1 (by decide)
  rw [show intText 10 1 = [49] by decide +kernel] at hk
  have hv : CollShows .utf8 (.range .sequence 1000 (.item (.int ⟨32, true⟩ .int))) none (.list []) [91, 93] (fun _ => True) :=
    CollShows.range (e := .utf8) 91 93 1000 (Or.inl rfl) [] [] (by simp [Spaces]) (by simp [Spaces]) [] (by decide) (by simp) (by simp) (by simp) (fun _ => trivial)
  have he := CollShows.entry (e := .utf8) [] (by simp [Spaces]) (exElement [49] [] 1) ⟨[91, 93], .list [], fun _ => True, []⟩ hk hv
    (by simp [exElement, Spaces]) (by simp [Spaces]) ⟨49, [], rfl, by decide⟩
  refine CollShows.range (e := .utf8) 123 125 1000 (Or.inr rfl) [] [] (by simp [Spaces]) (by simp [Spaces])
    [⟨[49, 58, 91, 93], .list [.val (.int 1), .list []], fun rest => rest.dropWhile isSpace ≠ [] ∧
      ItemsFollow [58] [exElement [49] [] 1, ⟨[91, 93], .list [], fun _ => True, []⟩] rest, []⟩] (by simp) ?_ ?_ ?_ ?_
  · intro x hx
    rw [List.mem_singleton] at hx
    subst hx
    exact he
  · intro x hx
    rw [List.mem_singleton] at hx
    subst hx
    simp [Spaces]
  · intro x hx
    rw [List.mem_singleton] at hx
    subst hx
    exact ⟨[], 49, _, rfl, by simp, by decide, by decide⟩
  · intro rest
    refine ⟨⟨?_, ?_, trivial, trivial⟩, trivial⟩
    · show (125 :: rest).dropWhile isSpace ≠ []
      rw [List.dropWhile_cons, if_neg (by decide)]
      simp
    · intro c h; cases h; decide

/-- C109 is violated for localized fields: the elements are read with the global locale, not with that of the call. With `'` between groups of digits in the
    locale of the call, "{:L}" on "1'000" reads 1000 into an `int`; on "[1'000]" it fails for a `std::vector<int>`. -/
theorem C109_violated_locale : let rx : RegexCfg := ⟨false, false, false⟩
    let fmt : List Nat := [123, 58, 76, 125]
    (vscan (listedEnv .utf8 .utf32 rx (exGroups 39) (exGroups 0) 0 [.inl (.int ⟨32, true⟩ .int)] [49, 39, 48, 48, 48]) fmt [49, 39, 48, 48, 48]).map
        (fun r => (r.1.toOption, (stored r.2).map fun p => (p.1, p.2.getLeft?))) = some (some [], [(0, some (.int 1000))]) ∧
    (vscan (listedEnv .utf8 .utf32 rx (exGroups 39) (exGroups 0) 0 [.inr (.range .sequence 1000 (.item (.int ⟨32, true⟩ .int)), [])] [91, 49, 39, 48, 48, 48, 93])
        fmt [91, 49, 39, 48, 48, 48, 93]).map (fun r => (r.1.toOption, (stored r.2).map fun p => (p.1, p.2.getLeft?))) = some (none, []) := by
  refine ⟨?_, ?_⟩ <;> decide +kernel

end Scn
