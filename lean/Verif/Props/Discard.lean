import Verif.Lemmas.Discard
/-
C108: a value that is discarded is read as one that is kept.
-/
namespace Scn
open Spec

/-- Is the argument discarded? -/
def Spec.dropped (args : List (Dest × Bool)) (id : Nat) : Bool := match args[id]? with | some (_, b) => b | none => false

/-- The value that a call leaves for the argument: none if it is discarded. -/
def Spec.keep (args : List (Dest × Bool)) (id : Nat) (v : Val) : Option Val := if dropped args id then none else some v

/-- The field of a value that is discarded, if any: its specification does not ask for the locale or for a regular expression, and with a
    width or a precision the source is plain text. -/
def Spec.DiscardedFields (e : Enc) (rx : RegexCfg) (args : List (Dest × Bool)) (src : List Nat) (f : CallField Val) : Prop :=
  ∀ d, args[f.id]? = some (d, true) → d.Steady ∧ ∀ t, f.spec = some t → ∀ sp,
    parseSpecs rx e d.argTy ⟨{}, false⟩ (t ++ [125]) = some (⟨sp, false⟩, [125]) → DiscardOk e src d sp

/-- C108, partial: a call into arguments of which some are discarded (`scn::discard<T>`) against the same call into arguments that are all kept: it
    succeeds and leaves the same, and what is kept has the same values; or it fails after the same values, with the same error or that of
    the format string (C21, C81); or it is undefined if the other one is. For format strings that are well formed, and for discarded values
    without `L`, without regular expressions, and with a width or a precision from plain text only. What the discarded value was
    before, and the locale of the call, do not matter. -/
theorem C108_discarded_partial {e wide : Enc} {rx : RegexCfg} {loc gloc : LocaleData} {old : Nat} {args : List (Dest × Bool)} (h64 : args.length < 64)
    (hd : ∀ a ∈ args, a.1.Tame e) {auto : Bool} {fs : List (CallField Val)} {last src : List Nat} (hu : UnitsOk e src) (hl : NoBrace last)
    (hf : ∀ f ∈ fs, FieldMeans (stdEnv e wide rx loc old (args.map Prod.fst)) f ∧ NoBrace f.gap) (hn : Numbered auto (fs.map fun f => f.id) args.length)
    (hdis : ∀ f ∈ fs, DiscardedFields e rx args src f) :
    (∀ r evs, vscan (stdEnv e wide rx loc old (args.map Prod.fst)) (callFormat auto fs last) src = some (.ok r, evs) →
      ∃ evs', vscan (discardEnv e wide rx loc gloc old args src) (callFormat auto fs last) src = some (.ok r, evs') ∧
        stored evs' = (stored evs).map fun p => (p.1, keep args p.1 p.2)) ∧
    (∀ x evs, vscan (stdEnv e wide rx loc old (args.map Prod.fst)) (callFormat auto fs last) src = some (.error x, evs) →
      ∃ x' evs', vscan (discardEnv e wide rx loc gloc old args src) (callFormat auto fs last) src = some (.error x', evs') ∧
        stored evs' = ((stored evs).map fun p => (p.1, keep args p.1 p.2)) ∧ (x' = x ∨ x' = .invalidFormatString)) ∧
    (vscan (stdEnv e wide rx loc old (args.map Prod.fst)) (callFormat auto fs last) src = none →
      vscan (discardEnv e wide rx loc gloc old args src) (callFormat auto fs last) src = none) := by
  generalize henv : stdEnv e wide rx loc old (args.map Prod.fst) = env at hf ⊢
  generalize henv' : discardEnv e wide rx loc gloc old args src = env'
  have hcount : env.count = args.length := by rw [← henv]; simp [stdEnv]
  have hcount' : env'.count = args.length := by rw [← henv']; simp [discardEnv, Env.withCustom, Env.map, stdEnv]
  have hlit : ∀ t s, litStep env' t s = litStep env t s := by
    intro t s; rw [← henv, ← henv']; exact litStep_map _ _ _ _ _ _ _ _
  have htame : ∀ {i : Nat} {d : Dest} {b : Bool}, args[i]? = some (d, b) → d.Tame e := fun h => hd _ (List.mem_of_getElem? h)
  have hget : ∀ {i d b}, args[i]? = some (d, b) → (args.map Prod.fst)[i]? = some d := fun h => by rw [List.getElem?_map, h]; rfl
  have hty : ∀ {i d b}, args[i]? = some (d, b) → env.argTy i = d.argTy := by
    intro i d b h
    have hi : i < args.length := (List.getElem?_eq_some_iff.1 h).1
    unfold Env.argTy
    rw [if_pos (by omega), ← henv]
    simp only [stdEnv, hget h, Option.map_some, Option.getD_some]
  have hty' : ∀ {i d b}, args[i]? = some (d, b) → env'.argTy i = if b then .custom else d.argTy := by
    intro i d b h
    have hi : i < args.length := (List.getElem?_eq_some_iff.1 h).1
    unfold Env.argTy
    rw [if_pos (by omega), ← henv']
    cases b <;> simp [discardEnv, Env.withCustom, h, Env.map, stdEnv]
  -- every field has an argument
  have harg : ∀ f ∈ fs, ∃ d b, args[f.id]? = some (d, b) := by
    intro f hfm
    have := hn.below f.id (List.mem_map.2 ⟨f, hfm, rfl⟩)
    exact ⟨_, _, List.getElem?_eq_getElem this⟩
  -- the specification of a field
  have hspec : ∀ f ∈ fs, ∀ d b, args[f.id]? = some (d, b) → ∀ t, f.spec = some t →
      ∃ sp, (∀ r, parseSpecs rx e d.argTy ⟨{}, false⟩ (t ++ 125 :: r) = some (⟨sp, false⟩, 125 :: r)) ∧ SpecsOk e sp ∧
        f.read = fun s => d.readSpecs e wide loc old sp (fun _ => .contiguous) s := by
    intro f hfm d b ha t ht
    have hm := (hf f hfm).1
    unfold FieldMeans at hm
    rw [ht] at hm
    dsimp only at hm
    rw [hty ha, if_neg (tame_category (htame ha)).2] at hm
    obtain ⟨sp, h1, h2⟩ := hm
    have henc : env.enc = e := by rw [← henv]; rfl
    have hcfg : env.cfg = rx := by rw [← henv]; rfl
    rw [henc, hcfg] at h1
    refine ⟨sp, h1, (parseSpecs_accepted (h1 []) rfl).ok, ?_⟩
    rw [h2, ← henv]
    funext s
    simp only [stdEnv, hget ha]
  have hdflt : ∀ f ∈ fs, ∀ d b, args[f.id]? = some (d, b) → f.spec = none →
      f.read = fun s => defaultRead e (d.defaultReader e wide) (fun _ => .contiguous) s := by
    intro f hfm d b ha ht
    have hm := (hf f hfm).1
    unfold FieldMeans at hm
    rw [ht] at hm
    dsimp only at hm
    rw [hm, ← henv]
    funext s
    simp only [stdEnv, hget ha]
  -- the fields of the call that discards
  let rd : CallField Val → List Nat → Res (Option Val × List Nat) := fun f =>
    if dropped args f.id then
      match f.spec with
      | none => env'.readDefault f.id
      | some t => fun s => (env'.readCustom f.id (t ++ [125]) s).2
    else fun s => (f.read s).map fun r => (some r.1, r.2)
  let tr : CallField Val → CallField (Option Val) := fun f => ⟨f.gap, f.id, f.spec, rd f⟩
  have hfmt : callFormat auto (fs.map tr) last = callFormat auto fs last := by
    unfold callFormat
    rw [List.flatMap_map]
    rfl
  have hfld : ∀ f ∈ fs.map tr, FieldMeans env' f ∧ NoBrace f.gap := by
    intro f' hf'
    obtain ⟨f, hfm, rfl⟩ := List.mem_map.1 hf'
    refine ⟨?_, (hf f hfm).2⟩
    obtain ⟨d, b, ha⟩ := harg f hfm
    have hdr : dropped args f.id = b := by unfold dropped; rw [ha]
    unfold FieldMeans
    rw [show (tr f).spec = f.spec from rfl, show (tr f).read = rd f from rfl, show (tr f).id = f.id from rfl]
    cases b with
    | true =>
      cases ht : f.spec with
      | none => simp only [rd, hdr, ht, if_true]
      | some t =>
        dsimp only
        rw [hty' ha, if_pos rfl, if_pos rfl]
        intro r s
        obtain ⟨sp, h1, _⟩ := hspec f hfm d true ha t ht
        simp only [rd, hdr, ht, if_true]
        rw [← henv']
        have hp : ∀ r, (discardScanner (L := Unit) rx e wide gloc d).parse (t ++ 125 :: r) = some (125 :: r, (builtinProg e wide gloc d sp).map fun _ => none) := by
          intro r
          simp only [discardScanner, CustomScanner.map, builtinScanner, builtinParse]
          rw [if_neg (by simp), h1 r]
          rfl
        simp only [discardEnv, Env.withCustom, ha, hp r, hp []]
    | false =>
      cases ht : f.spec with
      | none =>
        simp only [rd, hdr, Bool.false_eq_true, if_false]
        rw [hdflt f hfm d false ha ht, ← henv']
        funext s
        simp only [discardEnv, Env.withCustom, ha, Env.map, stdEnv, hget ha]
      | some t =>
        dsimp only
        rw [hty' ha, if_neg (by simpa using (tame_category (htame ha)).2)]
        obtain ⟨sp, h1, _, h3⟩ := hspec f hfm d false ha t ht
        refine ⟨sp, ?_, ?_⟩
        · rw [← henv']; exact h1
        · simp only [rd, hdr, Bool.false_eq_true, if_false]
          rw [h3, ← henv']
          funext s
          simp only [discardEnv, Env.withCustom, Env.map, stdEnv, hget ha]
  have hids : (fs.map tr).map (fun f => f.id) = fs.map fun f => f.id := by rw [List.map_map]; rfl
  have hn' : Numbered auto ((fs.map tr).map fun f => f.id) env'.count := by rw [hids, hcount']; exact hn
  have hsound : ∀ f ∈ fs, ∀ t, t <:+ src → Sound (f.read t) t := by
    intro f hfm t hts
    obtain ⟨d, b, ha⟩ := harg f hfm
    cases hsp : f.spec with
    | none =>
      rw [hdflt f hfm d b ha hsp]
      exact defaultRead_sound _ (defaultReader_sound e wide (htame ha)) _ t (hu.suffix hts)
    | some u =>
      obtain ⟨sp, _, h2, h3⟩ := hspec f hfm d b ha u hsp
      rw [h3]
      exact readSpecs_sound e wide loc old (htame ha) h2 _ t (hu.suffix hts)
  have hread : ∀ f ∈ fs, ∀ s, s <:+ src → (tr f).read s = (f.read s).map fun r => (keep args f.id r.1, r.2) := by
    intro f hfm s hs
    show rd f s = _
    obtain ⟨d, b, ha⟩ := harg f hfm
    have hdr : dropped args f.id = b := by unfold dropped; rw [ha]
    cases b with
    | false => simp only [rd, keep, hdr, Bool.false_eq_true, if_false]
    | true =>
      obtain ⟨hst, hok⟩ := hdis f hfm d ha
      simp only [rd, keep, hdr, if_true]
      cases ht : f.spec with
      | none =>
        have h0 : DiscardOk e src d {} := ⟨rfl, by decide, Or.inl ⟨rfl, rfl⟩⟩
        have h := discard_read (L := Unit) (wide := wide) (loc := loc) (gloc := gloc) (old := old) (htame ha) hst (specs_default_ok e) h0 hs hu none
        rw [readSpecs_default loc old (htame ha)] at h
        rw [hdflt f hfm d true ha ht, ← h]
        dsimp only
        rw [← henv']
        have hp : (discardScanner (L := Unit) rx e wide gloc d).parse [] = some ([], (builtinProg e wide gloc d {}).map fun _ => none) := rfl
        simp only [discardEnv, Env.withCustom, ha, hp]
        apply customDefault_rest
        rw [h, ← readSpecs_default loc old (htame ha)]
        have := (readSpecs_sound e wide loc old (htame ha) (specs_default_ok e) (fun _ => .contiguous) s (hu.suffix hs)).1
        cases hx : d.readSpecs e wide loc old {} (fun _ => .contiguous) s <;> simp_all
      | some t =>
        obtain ⟨sp, h1, h2, h3⟩ := hspec f hfm d true ha t ht
        have h := discard_read (L := Unit) (wide := wide) (loc := loc) (gloc := gloc) (old := old) (htame ha) hst h2 (hok t ht sp (h1 [])) hs hu none
        rw [h3, ← h]
        dsimp only
        rw [← henv']
        have hp : (discardScanner (L := Unit) rx e wide gloc d).parse (t ++ [125]) = some ([125], (builtinProg e wide gloc d sp).map fun _ => none) := by
          simp only [discardScanner, CustomScanner.map, builtinScanner, builtinParse]
          rw [if_neg (by simp), h1 []]
          rfl
        simp only [discardEnv, Env.withCustom, ha, hp]
        obtain ⟨pre, rfl⟩ := hs
        apply customSpecs_rest
        rw [h]
        have := (readSpecs_sound e wide loc old (htame ha) h2 (fun _ => .contiguous) s (hu.suffix ⟨pre, rfl⟩)).1
        cases hx : d.readSpecs e wide loc old sp (fun _ => .contiguous) s <;> simp_all
  obtain ⟨k1, k2, k3⟩ := inOrder_discard hlit (fun t s r h => by rw [← henv] at h; exact stdEnv_lit_suffix _ _ _ _ _ _ h) (keep args) tr (fun _ => rfl)
    (fun _ => rfl) src last fs src (List.suffix_refl _) hread (fun f hfm t v r ht h => (hsound f hfm t ht).2 v r h)
  have hcust : ∀ f ∈ fs, env.argTy f.id ≠ .custom := by
    intro f hfm
    obtain ⟨d, b, ha⟩ := harg f hfm
    rw [hty ha]
    exact (tame_category (htame ha)).2
  have hn0 : Numbered auto (fs.map fun f => f.id) env.count := by rw [hcount]; exact hn
  have hkept : ∀ {r}, vscan env (callFormat auto fs last) src = some r → inOrder (litStep env) fs last src ≠ .ub := by
    intro r h hx
    rw [(C81_undefined_partial hl (by omega) hf hn0 src).2 hx] at h
    cases h
  refine ⟨?_, ?_, fun h => ?_⟩
  rotate_left 2
  · rw [(C81_undefined_partial hl (by omega) hf hn0 src).1 h] at k1
    rw [← hfmt]
    exact (C81_undefined_partial hl (by omega) hfld hn' src).2 k1
  · intro r evs h
    cases hx : inOrder (litStep env) fs last src with
    | ub => exact absurd hx (hkept h)
    | err x =>
      obtain ⟨evs1, x', h1, _⟩ := C81_failure_partial hl (by omega) hf hn0 hx
      rw [h] at h1; cases h1
    | ok q =>
      obtain ⟨evs1, h1, h2⟩ := C81_success_partial hl (by omega) hf hn0 hx
      rw [h] at h1; cases h1
      rw [hx] at k1
      obtain ⟨evs', h3, h4⟩ := C81_success_partial hl (by omega) hfld hn' k1
      rw [hfmt] at h3
      exact ⟨evs', h3, by rw [h4, h2]⟩
  · intro x evs h
    cases hx : inOrder (litStep env) fs last src with
    | ub => exact absurd hx (hkept h)
    | ok q =>
      obtain ⟨evs1, h1, _⟩ := C81_success_partial hl (by omega) hf hn0 hx
      rw [h] at h1; cases h1
    | err y =>
      obtain ⟨evs1, x1, h1, h2, h5, h6, h7⟩ := C81_failure_partial hl (by omega) hf hn0 hx
      rw [h] at h1; cases h1
      rw [hx] at k1
      obtain ⟨evs', x', h3, h4, h8, h9, h10⟩ := C81_failure_partial hl (by omega) hfld hn' k1
      rw [hfmt] at h3
      refine ⟨x', evs', h3, by rw [h4, h2, k2], ?_⟩
      rcases h8 with rfl | h8
      · by_cases hre : reached (litStep env) fs src = fs.length
        · exact Or.inl (h6 hcust hre).symm
        · have hlt : reached (litStep env) fs src < fs.length := Nat.lt_of_le_of_ne (reached_le _ _ _) hre
          exact Or.inr (h10 (by rw [k3, List.length_map]; exact hlt))
      · exact Or.inr h8

/-- "{:x}, {}", and how the fields are to be read into kept arguments. -/
def exDiscardFields (loc : LocaleData) : List (CallField Val) :=
  [⟨[], 0, some [120], (stdEnv .utf8 .utf32 ⟨false, false, false⟩ loc 0 [.int ⟨32, true⟩ .int, .string .utf8]).readSpecs 0 { type := .intHex }⟩,
    ⟨[44, 32], 1, none, (stdEnv .utf8 .utf32 ⟨false, false, false⟩ loc 0 [.int ⟨32, true⟩ .int, .string .utf8]).readDefault 1⟩]

/-- "{:x}, {}" of an `int` that is discarded and a string, on "1f, é!": the hypotheses hold. -/
example (loc : LocaleData) : let args : List (Dest × Bool) := [(.int ⟨32, true⟩ .int, true), (.string .utf8, false)]
    let src : List Nat := [49, 102, 44, 32, 195, 169, 33]
    (∀ a ∈ args, a.1.Tame .utf8) ∧ UnitsOk .utf8 src ∧
      (∀ f ∈ exDiscardFields loc, FieldMeans (stdEnv .utf8 .utf32 ⟨false, false, false⟩ loc 0 (args.map Prod.fst)) f ∧ NoBrace f.gap) ∧
      Numbered true ((exDiscardFields loc).map fun f => f.id) args.length ∧ ∀ f ∈ exDiscardFields loc, DiscardedFields .utf8 ⟨false, false, false⟩ args src f := by
  refine ⟨?_, ?_, ?_, ⟨by simp [exDiscardFields], rfl, by simp [exDiscardFields], fun _ => rfl⟩, ?_⟩
  · intro a ha
    simp only [List.mem_cons, List.not_mem_nil, or_false] at ha
    rcases ha with rfl | rfl
    · exact Or.inl rfl
    · exact Or.inl rfl
  · intro _ b hb; revert b; decide
  · intro f hf
    simp only [exDiscardFields, List.mem_cons, List.not_mem_nil, or_false] at hf
    rcases hf with rfl | rfl
    · exact ⟨⟨{ type := .intHex }, fun r => rfl, rfl⟩, by unfold NoBrace; intro c hc; cases hc⟩
    · exact ⟨rfl, by show NoBrace [44, 32]; unfold NoBrace; decide⟩
  · intro f hf d hd
    simp only [exDiscardFields, List.mem_cons, List.not_mem_nil, or_false] at hf
    rcases hf with rfl | rfl
    · cases hd
      refine ⟨Or.inr (Or.inr (Or.inl rfl)), ?_⟩
      intro t ht sp hsp
      cases ht
      rw [show parseSpecs ⟨false, false, false⟩ .utf8 (Dest.int ⟨32, true⟩ .int).argTy ⟨{}, false⟩ ([120] ++ [125]) = some (⟨{ type := .intHex }, false⟩, [125]) from rfl] at hsp
      cases hsp
      exact ⟨rfl, by decide, Or.inl ⟨rfl, rfl⟩⟩
    · cases hd

/-- Two locales: one with `,` between groups of digits, and the "C" locale, that has no such thing. -/
def exGroups (sep : Nat) : LocaleData := ⟨sep, 46, [], [], fun _ _ _ _ => .bad⟩

/-- C108 is violated for localized fields: a discarded value is read with the global locale, not with that of the call. With `,` between
    groups of digits in the locale of the call, "{:L}{}" on "1,000;" reads 1000, and then ";" if the number is kept; if it is discarded, the
    string is ",000;". -/
theorem C108_violated_locale : let rx : RegexCfg := ⟨false, false, false⟩
    let fmt : List Nat := [123, 58, 76, 125, 123, 125]
    let src : List Nat := [49, 44, 48, 48, 48, 59]
    (vscan (stdEnv .utf8 .utf32 rx (exGroups 44) 0 [.int ⟨32, true⟩ .int, .string .utf8]) fmt src).map (fun r => (r.1.toOption, stored r.2)) =
      some (some [], [(0, .int 1000), (1, .string [59])]) ∧
    (vscan (discardEnv .utf8 .utf32 rx (exGroups 44) (exGroups 0) 0 [(.int ⟨32, true⟩ .int, true), (.string .utf8, false)] src) fmt src).map
        (fun r => (r.1.toOption, stored r.2)) = some (some [], [(0, none), (1, some (.string [44, 48, 48, 48, 59]))]) := by
  refine ⟨?_, ?_⟩ <;> decide +kernel

/-- C108 is violated for format strings that are checked at run time: what is wrong with the specification of a discarded value goes
    unnoticed. "{:5.3d}", with a width above the precision, fails for an `int`, and discards "12345". -/
theorem C108_violated_errors : let rx : RegexCfg := ⟨false, false, false⟩
    let fmt : List Nat := [123, 58, 53, 46, 51, 100, 125]
    let src : List Nat := [49, 50, 51, 52, 53]
    (vscan (stdEnv .utf8 .utf32 rx (exGroups 0) 0 [.int ⟨32, true⟩ .int]) fmt src).map (fun r => (r.1.toOption, stored r.2)) = some (none, []) ∧
    (vscan (discardEnv .utf8 .utf32 rx (exGroups 0) (exGroups 0) 0 [(.int ⟨32, true⟩ .int, true)] src) fmt src).map
        (fun r => (r.1.toOption, stored r.2)) = some (some [], [(0, none)]) := by
  refine ⟨?_, ?_⟩ <;> decide +kernel

end Scn
