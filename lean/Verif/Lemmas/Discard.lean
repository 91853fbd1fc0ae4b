import Verif.Model.Discard
import Verif.Lemmas.LogLine
import Verif.Lemmas.Layouts
import Verif.Lemmas.LocaleFree
import Verif.Lemmas.Advance
import Verif.Props.Continued2
/-
Discarded values.
-/
namespace Scn
open Spec

variable {L V W : Type}

theorem argRead_mapVal (e : Enc) (sp : Specs) (rd : Reader V) (f : V → W) (lay : List Nat → Layout) (s : List Nat) :
    argRead e sp (rd.mapVal f) lay s = (argRead e sp rd lay s).map fun r => (f r.1, r.2) := by
  have hv : ∀ l w t, argValue e sp (rd.mapVal f) l w t = (argValue e sp rd l w t).map fun r => (f r.1, r.2) := by
    intro l w t
    unfold argValue Reader.mapVal
    dsimp only
    by_cases h : sp.precision ≠ 0
    · rw [if_pos h, if_pos h]
      split
      · rfl
      · cases rd.read (.segmented 0) (takeWidth e ((sp.precision : Int) - w) t) <;> rfl
    · rw [if_neg h, if_neg h]
      cases rd.read l t <;> rfl
  unfold argRead
  show (argBefore e sp rd.skipWs (lay s) s).bind _ = _
  cases argBefore e sp rd.skipWs (lay s) s with
  | ub => rfl
  | err x => rfl
  | ok b =>
    simp only [Res.bind_ok, hv]
    cases argValue e sp rd (lay b.1) b.2 b.1 with
    | ub => rfl
    | err x => rfl
    | ok r =>
      simp only [Res.map_ok, Res.bind_ok]
      show (argAfter e sp rd.skipWs _ _ _ _).bind _ = _
      cases argAfter e sp rd.skipWs (lay r.2.1) b.2 r.2.2 r.2.1 with
      | ub => rfl
      | err x => rfl
      | ok a =>
        simp only [Res.bind_ok]
        cases checkWidths sp (b.2 + r.2.2 + a.2) <;> rfl

/-- Without the value, what the destination held does not matter. -/
theorem readSpecs_old (e wide : Enc) (loc : LocaleData) (old old' : Nat) (d : Dest) (sp : Specs) (lay : List Nat → Layout) (s : List Nat) :
    (d.readSpecs e wide loc old sp lay s).map (fun r => ((), r.2)) = (d.readSpecs e wide loc old' sp lay s).map fun r => ((), r.2) := by
  unfold Dest.readSpecs
  cases runTypeCheck d.argTy sp with
  | none => rfl
  | some b =>
    cases b with
    | false => rfl
    | true =>
      dsimp only
      have h : (d.specsReader e wide loc old sp).mapVal (fun _ => ()) = (d.specsReader e wide loc old' sp).mapVal (fun _ => ()) := by
        cases d with
        | char =>
          simp only [Dest.specsReader, charReader, Reader.mapVal]
          congr
          funext l s
          split
          · rfl
          · cases (intSpecsReader e loc ⟨8, true⟩ sp).read l s <;> rfl
        | wchar =>
          simp only [Dest.specsReader, wcharReader, Reader.mapVal]
          congr
          funext l s
          split
          · rfl
          · cases (intSpecsReader e loc ⟨if wide = .utf16 then 16 else 32, true⟩ sp).read l s <;> rfl
        | _ => rfl
      have := argRead_mapVal e sp (d.specsReader e wide loc old sp) (fun _ => ()) lay s
      rw [h, argRead_mapVal] at this
      exact this.symm

theorem specs_default_ok (e : Enc) : SpecsOk e {} := ⟨by cases e <;> decide, by cases e <;> decide⟩

theorem check_default {e : Enc} {d : Dest} (hd : d.Tame e) : runTypeCheck d.argTy {} = some true := by
  cases d with
  | int T ty =>
    have h : ty.category = some .integer ∨ ty.category = some .unsignedInteger := hd
    show runTypeCheck ty {} = _
    cases ty <;> simp [ArgTy.category] at h <;> rfl
  | float ty cv seg =>
    have h : ty = .float ∨ ty = .double ∨ ty = .ldouble := hd
    show runTypeCheck ty {} = _
    rcases h with rfl | rfl | rfl <;> rfl
  | codePoint => exact hd.elim
  | string dst => cases dst <;> rfl
  | view dst st => cases dst <;> rfl
  | _ => rfl

theorem argRead_default {V : Type} (e : Enc) (rd : Reader V) (lay : List Nat → Layout) (s : List Nat) :
    argRead e {} rd lay s = if rd.skipWs then (skipSpace e (lay s) false s).bind fun it => rd.read (lay it) it else rd.read (lay s) s := by
  have hval : ∀ l w t, argValue e {} rd l w t = (rd.read l t).map fun r => (r.1, r.2, 0) := fun _ _ _ => rfl
  have haft : ∀ l w v t, argAfter e {} rd.skipWs l w v t = .ok (t, 0) := by
    intro l w v t
    unfold argAfter argPostfix
    split
    · rfl
    · simp
  have hchk : ∀ x, checkWidths {} x = .ok () := fun _ => rfl
  have hrest : ∀ l w t, ((argValue e {} rd l w t).bind fun r => (argAfter e {} rd.skipWs (lay r.2.1) w r.2.2 r.2.1).bind fun a =>
      (checkWidths {} (w + r.2.2 + a.2)).bind fun _ => Res.ok (r.1, a.1)) = rd.read l t := by
    intro l w t
    rw [hval]
    cases rd.read l t with
    | ub => rfl
    | err x => rfl
    | ok r => simp only [Res.map_ok, Res.bind_ok, haft, hchk]
  unfold argRead
  simp only [hrest]
  show (argPrefix e {} rd.skipWs (lay s) s).bind _ = _
  cases hsk : rd.skipWs with
  | false => rfl
  | true =>
    show ((skipSpace e (lay s) false s).map _).bind _ = _
    rw [if_pos rfl]
    cases skipSpace e (lay s) false s <;> rfl

theorem defaultReader_specs (e wide : Enc) (loc : LocaleData) (old : Nat) (d : Dest) : d.specsReader e wide loc old {} = d.defaultReader e wide := by
  cases d <;> rfl

/-- A field without a specification is read as one with an empty one. -/
theorem readSpecs_default {e wide : Enc} (loc : LocaleData) (old : Nat) {d : Dest} (hd : d.Tame e) (s : List Nat)
    (lay : List Nat → Layout) : d.readSpecs e wide loc old {} lay s = defaultRead e (d.defaultReader e wide) lay s := by
  unfold Dest.readSpecs
  rw [check_default hd]
  dsimp only
  rw [argRead_default, defaultReader_specs e wide loc old]
  unfold defaultRead
  by_cases hs : s = []
  · subst hs
    rw [if_pos rfl]
    have hsk : ∀ l, skipSpace e l false [] = .err .endOfInput := by
      intro l
      have : readWhileSpace e l [] = some [] := by
        have ht : ∀ k, readWhileSpace e (.segmented k) [] = readWhileSpace e .contiguous [] := by
          intro k; cases e <;> simp [readWhileSpace] <;> rfl
        cases l with
        | contiguous => cases e <;> rfl
        | segmented k => rw [ht]; cases e <;> rfl
      unfold skipSpace
      rw [this]
      rfl
    cases d with
    | char => have : e = .utf8 := hd; subst this; rfl
    | wchar => have : e ≠ .utf8 := hd; cases e <;> first | contradiction | rfl
    | codePoint => exact hd.elim
    | _ => simp only [Dest.defaultReader, Reader.mapVal, pointerReader, viewReader, hsk, if_true, Res.bind_err, beq_self_eq_true]
  · rw [if_neg hs]

/-- Without `L` and without regular expressions the locale does not matter. -/
theorem readSpecs_locale_free {e wide : Enc} {loc loc' : LocaleData} {old : Nat} {d : Dest} {sp : Specs} (hl : sp.localized = false)
    (hk : strKind sp ≠ none) (lay : List Nat → Layout) (s : List Nat) :
    d.readSpecs e wide loc' old sp lay s = d.readSpecs e wide loc old sp lay s := by
  have h1 : d.specsReader e wide { loc' with regex := loc.regex } old sp = d.specsReader e wide loc old sp := specsReader_locale (loc := loc) (loc' := { loc' with regex := loc.regex }) rfl hl d
  have h2 : d.specsReader e wide { loc' with regex := loc.regex } old sp = d.specsReader e wide loc' old sp := by
    cases d with
    | string dst =>
      simp only [Dest.specsReader]
      cases hs : strKind sp with
      | none => exact absurd hs hk
      | some k => rfl
    | view dst st =>
      simp only [Dest.specsReader]
      cases hs : strKind sp with
      | none => exact absurd hs hk
      | some k => rfl
    | _ => rfl
  unfold Dest.readSpecs
  rw [← h2, h1]

/-- The scanner of a built-in type, as `arg_reader` on the rest of the source. -/
theorem builtinProg_rest {e wide : Enc} {gloc : LocaleData} {d : Dest} {sp : Specs} {s : List Nat} (l : Option L)
    (h : Sound (d.readSpecs e wide gloc 0 sp (viewLayout sp s) s) s) :
    onRest s l (builtinProg e wide gloc d sp) = d.readSpecs e wide gloc 0 sp (viewLayout sp s) s := by
  unfold builtinProg builtinScan
  simp only [onRest, Nat.zero_le, if_true, List.drop_zero]
  cases hr : d.readSpecs e wide gloc 0 sp (viewLayout sp s) s with
  | ub => exact absurd hr h.1
  | err x => rfl
  | ok r =>
    have hs := h.2 r.1 r.2 (by rw [hr])
    dsimp only
    simp only [onRest]
    rw [if_pos (by omega)]
    obtain ⟨a, ha⟩ := hs
    rw [← ha, List.length_append, Nat.add_sub_cancel, List.drop_left]

/-- What makes a field of a discarded value one that is read as if it was kept. -/
structure Spec.DiscardOk (e : Enc) (src : List Nat) (d : Dest) (sp : Specs) : Prop where
  localized : sp.localized = false
  regex : strKind sp ≠ none
  plain : (sp.width = 0 ∧ sp.precision = 0) ∨ AsciiText e d.IsFloat src

theorem discard_read {e wide : Enc} {loc gloc : LocaleData} {old : Nat} {d : Dest} (hd : d.Tame e) (hst : d.Steady) {sp : Specs} (hsp : SpecsOk e sp)
    {src s : List Nat} (hok : DiscardOk e src d sp) (hs : s <:+ src) (hu : UnitsOk e src) (l : Option L) :
    onRest s l ((builtinProg e wide gloc d sp).map fun _ => (none : Option Val)) =
      (d.readSpecs e wide loc old sp (fun _ => .contiguous) s).map fun r => (none, r.2) := by
  rw [onRest_map, builtinProg_rest l (readSpecs_sound e wide gloc 0 hd hsp _ s (hu.suffix hs)),
    readSpecs_locale_free (loc := loc) hok.localized hok.regex]
  have h1 : d.readSpecs e wide loc 0 sp (viewLayout sp s) s = d.readSpecs e wide loc 0 sp (fun _ => .contiguous) s := by
    have hempty : AsciiText e d.IsFloat [] := by
      refine ⟨fun _ c hc => (by cases hc), fun _ t ht => ?_⟩
      rw [List.suffix_nil.1 ht]
      rintro ⟨x, r, hx, _⟩
      cases hx
    by_cases hs0 : s = []
    · subst hs0
      exact readSpecs_plain e wide loc 0 hd hst hsp hok.regex (fun h => ⟨h, hok.localized⟩) _ _ hempty
    · rcases hok.plain with ⟨hw, hp⟩ | h
      · unfold viewLayout
        rw [if_neg (by simp [hs0, hw, hp])]
      · exact readSpecs_plain e wide loc 0 hd hst hsp hok.regex (fun h => ⟨h, hok.localized⟩) _ _ (h.suffix hs)
  rw [h1]
  have h2 := congrArg (Res.map fun r : Unit × List Nat => ((none : Option Val), r.2)) (readSpecs_old e wide loc 0 old d sp (fun _ => .contiguous) s)
  generalize d.readSpecs e wide loc 0 sp (fun _ => .contiguous) s = a at h2 ⊢
  generalize d.readSpecs e wide loc old sp (fun _ => .contiguous) s = b at h2 ⊢
  cases a <;> cases b <;> first | rfl | exact h2

/-- The readers of a call in which some values are discarded. -/
theorem inOrder_discard {lit lit' : List Nat → List Nat → Res (List Nat)} (hlit : ∀ t s, lit' t s = lit t s) (hl : ∀ t s r, lit t s = .ok r → r <:+ s)
    (g : Nat → V → W) (tr : CallField V → CallField W) (hgap : ∀ f, (tr f).gap = f.gap) (hid : ∀ f, (tr f).id = f.id) (src last : List Nat) (fs : List (CallField V)) :
    ∀ s, s <:+ src → (∀ f ∈ fs, ∀ t, t <:+ src → (tr f).read t = (f.read t).map fun r => (g f.id r.1, r.2)) →
      (∀ f ∈ fs, ∀ t v r, t <:+ src → f.read t = .ok (v, r) → r <:+ t) →
      inOrder lit' (fs.map tr) last s = (inOrder lit fs last s).map (fun q => (q.1.map fun p => (p.1, g p.1 p.2), q.2)) ∧
      readBefore lit' (fs.map tr) s = (readBefore lit fs s).map (fun p => (p.1, g p.1 p.2)) ∧
      reached lit' (fs.map tr) s = reached lit fs s := by
  induction fs with
  | nil =>
    intro s _ _ _
    refine ⟨?_, rfl, rfl⟩
    simp only [List.map_nil, inOrder, hlit]
    cases lit last s <;> rfl
  | cons f fs ih =>
    intro s hs hf hsuf
    have hf1 := hf f (by simp)
    have hs1 := hsuf f (by simp)
    simp only [List.map_cons, inOrder, readBefore, reached, hlit, hgap, hid]
    cases hg : lit f.gap s with
    | ub => exact ⟨rfl, rfl, rfl⟩
    | err x => exact ⟨rfl, rfl, rfl⟩
    | ok t =>
      have ht := (hl _ _ _ hg).trans hs
      simp only [Res.bind_ok]
      rw [hf1 t ht]
      cases hr : f.read t with
      | ub => exact ⟨rfl, rfl, rfl⟩
      | err x => exact ⟨rfl, rfl, rfl⟩
      | ok r =>
        obtain ⟨h1, h2, h3⟩ := ih r.2 ((hs1 t r.1 r.2 ht hr).trans ht) (fun y hy => hf y (by simp [hy])) (fun y hy => hsuf y (by simp [hy]))
        refine ⟨?_, ?_, ?_⟩
        · simp only [Res.map_ok, Res.bind_ok]
          rw [h1]
          cases inOrder lit fs last r.2 <;> rfl
        · simp only [Res.map_ok]
          rw [h2]; rfl
        · simp only [Res.map_ok]
          rw [h3]

theorem stdEnv_lit_suffix (e wide : Enc) (cfg : RegexCfg) (loc : LocaleData) (old : Nat) (ds : List Dest) {t s r : List Nat}
    (h : litStep (stdEnv e wide cfg loc old ds) t s = .ok r) : r <:+ s := by
  let env : Env Val := { stdEnv e wide cfg loc old ds with readDefault := fun _ _ => .ub, readSpecs := fun _ _ _ => .ub }
  have ha : Advancing env := ⟨fun s s' hs => readWhileSpace_suffix e _ s s' hs, fun _ _ _ _ hx => (by cases hx), fun _ _ _ _ _ hx => (by cases hx),
    fun _ _ _ _ _ hx => (by cases hx)⟩
  rw [← litStep_same (env := stdEnv e wide cfg loc old ds) (env' := env) rfl rfl] at h
  exact litStep_suffix ha h

end Scn
