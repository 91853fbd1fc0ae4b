import Verif.Lemmas.Padded3
import Verif.Lemmas.Defined6
import Verif.Lemmas.Braces2
import Verif.Lemmas.Layouts
import Verif.Model.CustomScan
import Verif.Spec.NumberedRecords
/-
Reading back records whose fields name their arguments, with braces in the literal texts.
-/
namespace Scn
open Spec

variable {V : Type}

/-! ### Readers that only move forward -/

/-- The reader, with an error in place of undefined behaviour. -/
def tamed (rd : Reader V) : Reader V := ⟨rd.skipWs, fun l s => match rd.read l s with | .ub => .err .invalidScannedValue | r => r⟩

theorem argRead_tamed {e : Enc} {sp : Specs} {rd : Reader V} {lay : List Nat → Layout} {s : List Nat} {x : V × List Nat}
    (h : argRead e sp rd lay s = .ok x) : argRead e sp (tamed rd) lay s = .ok x := by
  unfold argRead at h ⊢
  rw [show (tamed rd).skipWs = rd.skipWs from rfl]
  cases h1 : argBefore e sp rd.skipWs (lay s) s with
  | ub => rw [h1] at h; cases h
  | err y => rw [h1] at h; cases h
  | ok b =>
    rw [h1, Res.bind_ok] at h
    rw [Res.bind_ok]
    have key : argValue e sp rd (lay b.1) b.2 b.1 ≠ .ub → argValue e sp (tamed rd) (lay b.1) b.2 b.1 = argValue e sp rd (lay b.1) b.2 b.1 := by
      intro hne
      unfold argValue at hne ⊢
      split
      · rename_i hp
        rw [if_pos hp] at hne
        split
        · rfl
        · rename_i hq
          rw [if_neg hq] at hne
          dsimp only [tamed] at hne ⊢
          cases hr : rd.read (.segmented 0) (takeWidth e ((sp.precision : Int) - b.2) b.1) with
          | ub => rw [hr] at hne; exact absurd rfl hne
          | err y => rfl
          | ok y => rfl
      · rename_i hp
        rw [if_neg hp] at hne
        dsimp only [tamed] at hne ⊢
        cases hr : rd.read (lay b.1) b.1 with
        | ub => rw [hr] at hne; exact absurd rfl hne
        | err y => rfl
        | ok y => rfl
    rw [key (by intro hu; rw [hu] at h; cases h)]
    exact h

/-- Where the reader only moves forward, so does the field. -/
theorem argRead_forward {e : Enc} {sp : Specs} (hs : sp.fill.units e ≠ []) {rd : Reader V}
    (hrd : ∀ l s v r, UnitsOk e s → rd.read l s = .ok (v, r) → r <:+ s) {lay : List Nat → Layout} {s : List Nat} (hu : UnitsOk e s) {v : V} {r : List Nat}
    (h : argRead e sp rd lay s = .ok (v, r)) : r <:+ s := by
  refine (argRead_sound hs (tamed rd) (fun l s hu => ?_) lay s hu).2 v r (argRead_tamed h)
  unfold tamed
  dsimp only
  cases hr : rd.read l s with
  | ub => exact Sound.err _ _
  | err x => exact Sound.err _ _
  | ok x => exact Sound.ok _ (hrd l s _ _ hu hr)

theorem readCodePoint_forward {e : Enc} {s r : List Nat} {c : Nat} (h : readCodePoint e s = .ok (c, r)) : r <:+ s := by
  unfold readCodePoint at h
  cases h1 : readCpInto e s with
  | none => rw [h1] at h; cases h
  | some p =>
    obtain ⟨p, u⟩ := p
    rw [h1] at h
    dsimp only at h
    split at h
    · cases h
    · split at h
      · cases h
      · cases h; exact readCpInto_suffix h1

theorem codePointReader_forward {e : Enc} {l : Layout} {s r : List Nat} {v : Val} (h : ((codePointReader e).mapVal Val.char).read l s = .ok (v, r)) : r <:+ s := by
  have h' : (readCodePoint e s).map (fun x => (Val.char x.1, x.2)) = .ok (v, r) := h
  cases h1 : readCodePoint e s with
  | ub => rw [h1] at h'; cases h'
  | err x => rw [h1] at h'; cases h'
  | ok x =>
    obtain ⟨c, p⟩ := x
    rw [h1] at h'
    cases h'
    exact readCodePoint_forward h1

theorem shows_forward {e : Enc} (wide : Enc) {d : Dest} {v0 : Val} {text : List Nat} {follow : List Nat → Prop} (h : Shows e d v0 text follow)
    {s r : List Nat} {v : Val} (hu : UnitsOk e s) (hr : defaultRead e (d.defaultReader e wide) (fun _ => .contiguous) s = .ok (v, r)) : r <:+ s := by
  have tame : ∀ d' : Dest, d'.Tame e → d.defaultReader e wide = d'.defaultReader e wide → r <:+ s := by
    intro d' hd he
    rw [he] at hr
    exact (defaultRead_sound _ (defaultReader_sound e wide hd) _ s hu).2 v r hr
  cases h with
  | int T ty x hT hx => exact tame (.int T .int) (Or.inl rfl) rfl
  | bool b => exact tame .bool trivial rfl
  | string t ht hne => exact tame (.string e) (Or.inl rfl) rfl
  | char c hc hs he => exact tame .char he rfl
  | codePoint c hc hs =>
    unfold defaultRead at hr
    split at hr
    · cases hr
    · rw [if_neg (by simp [Dest.defaultReader, codePointReader, Reader.mapVal])] at hr
      exact codePointReader_forward hr
  | pointer a ha => exact tame .pointer trivial rfl
  | view t ht hne => exact tame (.view e false) trivial rfl
  | float ty cv seg round hcv sg t v hsg ht hv => exact tame (.float .double cv seg) (Or.inr (Or.inl rfl)) rfl

theorem shownAs_forward {e : Enc} (wide : Enc) (loc : LocaleData) (old : Nat) {F : PaddedField} {letter : Option Nat} {d : Dest} {v0 : Val} {text : List Nat}
    {follow : List Nat → Prop} (h : ShownAs e F letter d v0 text follow) {sp : Specs} (hsp : SpecsOk e sp) {s r : List Nat} {v : Val} (hu : UnitsOk e s)
    (hr : d.readSpecs e wide loc old sp (fun _ => .contiguous) s = .ok (v, r)) : r <:+ s := by
  have tame : d.Tame e → r <:+ s := fun hd => (readSpecs_sound e wide loc old hd hsp _ s hu).2 v r hr
  cases h with
  | int T ty letter b uo x hT hty => exact tame hty
  | boolWord => exact tame trivial
  | boolNumber => exact tame trivial
  | word => exact tame (Or.inl rfl)
  | filled => exact tame (Or.inl rfl)
  | char c hc he => exact tame he
  | codePoint letter c hl hc =>
    unfold Dest.readSpecs at hr
    split at hr
    · cases hr
    · cases hr
    · exact argRead_forward hsp.fill (fun l s v r _ h => codePointReader_forward h) hu hr
  | pointer => exact tame trivial
  | float letter ty p cv seg round hcv hty => exact tame (by cases ty <;> simp [ArgTy.category] at hty <;> simp [Dest.Tame])

/-! ### Calls -/

/-- A call whose fields succeed in turn, in positions of which all tails are well-behaved. -/
theorem escaped_ok {env : Env V} {U : List Nat → Prop} (hU : Skips env U) {auto : Bool} {fs : List (CallField V)} {last : List Nat} (hl : SimpleText env.enc last)
    (h64 : env.count < 64) (hm : ∀ f ∈ fs, FieldMeans env f) (hg : ∀ f ∈ fs, SimpleText env.enc f.gap) (hn : Numbered auto (fs.map fun f => f.id) env.count)
    (hst : Stays U fs) {src : List Nat} (hs : U src) {vs : List (Nat × V)} {r : List Nat} (h : inOrder (litStep env) fs last src = .ok (vs, r)) :
    ∃ evs, vscan env (escapedFormat auto fs last) src = some (.ok r, evs) ∧ stored evs = vs := by
  by_cases hb : escapedFormat auto fs last = [123, 125] ∧ env.count = 1
  · obtain ⟨h1, h2⟩ := escaped_braces hb.1
    rw [escaped_plain h1 h2]
    exact C81_success_partial h2 h64 (fun f hx => ⟨hm f hx, h1 f hx⟩) hn h
  · have hr := braces_within hU (auto := auto) hl h64 hm hg hn hst hs
    rw [h] at hr
    obtain ⟨st, h1, h2, h3, h4⟩ := hr
    unfold vscan
    rw [if_neg hb, h1, Option.map_some, h2, h3]
    exact ⟨_, rfl, h4⟩

theorem stdEnv_skipsUnits (e wide : Enc) (cfg : RegexCfg) (loc : LocaleData) (old : Nat) (ds : List Dest) : Skips (stdEnv e wide cfg loc old ds) (UnitsOk e) :=
  ⟨fun s hs => by obtain ⟨p, h1, h2⟩ := readWhileSpace_total e s hs; exact ⟨p, h1, hs.suffix h2⟩, fun d s hs => hs.suffix (List.suffix_cons _ _)⟩

/-- Custom scanners stay in the source. -/
theorem withCustom_default {L : Type} {env : Env V} {all : List Nat} {loc : Option L} {sc : Nat → Option (CustomScanner L V)} {id : Nat} {s r : List Nat} {v : V}
    {c : CustomScanner L V} (hc : sc id = some c) (h : (env.withCustom false all loc sc).readDefault id s = .ok (v, r)) : r <:+ s := by
  simp only [Env.withCustom, hc] at h
  split at h
  · cases h
  · rename_i q _
    unfold customDefault at h
    cases hv : q.2.onView false s 0 loc with
    | ub => rw [hv] at h; cases h
    | err x => rw [hv] at h; cases h
    | ok x =>
      rw [hv, Res.bind_ok] at h
      split at h
      · cases h; exact List.drop_suffix _ _
      · cases h

theorem withCustom_specs {L : Type} {env : Env V} {all : List Nat} {loc : Option L} {sc : Nat → Option (CustomScanner L V)} {id : Nat} {pos s r : List Nat} {v : V}
    {c : CustomScanner L V} (hc : sc id = some c) (h : ((env.withCustom false all loc sc).readCustom id pos s).2 = .ok (v, r)) : r <:+ all := by
  simp only [Env.withCustom, hc] at h
  split at h
  · cases h
  · rename_i q _
    dsimp only at h
    unfold customSpecs at h
    cases hv : q.2.onView false all (all.length - s.length) loc with
    | ub => rw [hv] at h; cases h
    | err x => rw [hv] at h; cases h
    | ok x =>
      rw [hv, Res.bind_ok] at h
      split at h
      · cases h; exact List.drop_suffix _ _
      · cases h

/-! ### Records -/

/-- The fields of the format string, with the readers of the call. -/
def numberedFields (env : Env Val) (e : Enc) (xs : List (Nat × PrintedField)) : List (CallField Val) :=
  xs.map fun x => ⟨encodes e x.2.gap, x.1, x.2.spec.map fun w => w.render e,
    match x.2.spec with | none => env.readDefault x.1 | some w => env.readSpecs x.1 (w.specs e)⟩

theorem numberedFormat_eq (env : Env Val) (e : Enc) (auto : Bool) (xs : List (Nat × PrintedField)) (last : List Nat) :
    numberedFormat e auto xs last = escapedFormat auto (numberedFields env e xs) (encodes e last) := by
  unfold numberedFormat escapedFormat callFormat numberedFields
  rw [List.map_map, List.flatMap_map]
  congr 2
  funext x
  dsimp only [Function.comp, CallField.text]
  cases x.2.spec <;> simp

theorem numberedRecord_run (e wide : Enc) (cfg : RegexCfg) (loc : LocaleData) (old : Nat) (ds : List Dest) (last rest : List Nat)
    (hlast : ∀ c ∈ last, Simple e c) (hrest : ∀ c ∈ rest, IsScalar c) (hend : EndsInText last) (xs : List (Nat × PrintedField)) :
    (∀ x ∈ xs, ds[x.1]? = some x.2.dest) → (∀ x ∈ xs, x.2.Ok e) →
      (∀ x ∈ xs, ∀ c ∈ x.2.gap, Simple e c) → (∀ x ∈ xs, EndsInText x.2.gap ∨ ∃ c r, x.2.shown = c :: r ∧ isSpace c = false) →
      AllClear (xs.map fun x => x.2) (last ++ rest) →
      inOrder (litStep (stdEnv e wide cfg loc old ds)) (numberedFields (stdEnv e wide cfg loc old ds) e xs) (encodes e last)
        (encodes e (printedRecord (xs.map fun x => x.2) (last ++ rest))) =
      .ok (xs.map fun x => (x.1, x.2.val), encodes e rest) := by
  induction xs with
  | nil =>
    intro _ _ _ _ _
    simp only [numberedFields, List.map_nil, inOrder, printedRecord, List.flatMap_nil, List.nil_append]
    rw [litStep_self e wide cfg loc old ds last rest hlast hrest (Or.inl hend)]
    rfl
  | cons x xs ih =>
    intro hds hok hg hgap hclear
    have hlr : ∀ c ∈ last ++ rest, IsScalar c := by
      intro c hc
      rcases List.mem_append.1 hc with h | h
      · exact (hlast c h).1
      · exact hrest c h
    have hx := hok x (by simp)
    have hpr := printedRecord_scalar loc (xs.map fun x => x.2) (last ++ rest)
      (by intro y hy; obtain ⟨z, hz, rfl⟩ := List.mem_map.1 hy; exact hok z (by simp [hz]))
      (by intro y hy; obtain ⟨z, hz, rfl⟩ := List.mem_map.1 hy; exact hg z (by simp [hz])) hlr
    have hsx := printedField_scalar loc hx
    have hdx : ds[x.1]? = some x.2.dest := hds x (by simp)
    rw [List.map_cons, printedRecord_cons]
    simp only [numberedFields, List.map_cons, inOrder]
    rw [litStep_self e wide cfg loc old ds x.2.gap _ (hg x (by simp)) (by
        intro c hc
        rcases List.mem_append.1 hc with h | h
        · exact hsx c h
        · exact hpr c h) ((hgap x (by simp)).imp_right (by rintro ⟨c, r, h1, h2⟩; exact ⟨c, r ++ _, by rw [h1]; rfl, h2⟩)), Res.bind_ok]
    have hread : (match x.2.spec with | none => (stdEnv e wide cfg loc old ds).readDefault x.1 | some w => (stdEnv e wide cfg loc old ds).readSpecs x.1 (w.specs e))
        (encodes e (x.2.shown ++ printedRecord (xs.map fun x : Nat × PrintedField => x.2) (last ++ rest))) = .ok (x.2.val, encodes e (printedRecord (xs.map fun x : Nat × PrintedField => x.2) (last ++ rest))) := by
      have hcx := hclear.1
      unfold PrintedField.Clear at hcx
      unfold PrintedField.Ok at hx
      unfold PrintedField.shown
      cases hs : x.2.spec with
      | none =>
        rw [hs] at hcx hx
        show (match ds[x.1]? with | none => Res.ub | some d => defaultRead e (d.defaultReader e wide) (fun _ => .contiguous) _) = _
        rw [hdx]
        exact shows_read e wide hx _ hpr hcx
      | some w =>
        rw [hs] at hcx hx
        show (match ds[x.1]? with | none => Res.ub | some d => d.readSpecs e wide loc old (w.specs e) (fun _ => .contiguous) _) = _
        rw [hdx]
        exact shownAs_read loc old hx.2.1 hx.2.2.1 hx.2.2.2 hcx hpr (fun _ => .contiguous) (fun t _ => by cases e <;> trivial)
    rw [hread, Res.bind_ok]
    dsimp only
    have hrec := ih (fun y hy => hds y (by simp [hy])) (fun y hy => hok y (by simp [hy])) (fun y hy => hg y (by simp [hy]))
        (fun y hy => hgap y (by simp [hy])) hclear.2
    unfold numberedFields at hrec
    rw [hrec]
    rfl

theorem numberedFields_mean {e wide : Enc} {cfg : RegexCfg} {loc : LocaleData} {old : Nat} {ds : List Dest} {x : Nat × PrintedField}
    (hd : ds[x.1]? = some x.2.dest) (hxo : x.2.Ok e) :
    FieldMeans (stdEnv e wide cfg loc old ds) ⟨encodes e x.2.gap, x.1, x.2.spec.map fun w => w.render e,
      match x.2.spec with | none => (stdEnv e wide cfg loc old ds).readDefault x.1 | some w => (stdEnv e wide cfg loc old ds).readSpecs x.1 (w.specs e)⟩ := by
  have hty : (stdEnv e wide cfg loc old ds).argTy x.1 = x.2.dest.argTy := std_argTy hd
  unfold PrintedField.Ok at hxo
  cases hs : x.2.spec with
  | none => exact rfl
  | some w =>
    rw [hs] at hxo
    exact fieldMeans_written (env := stdEnv e wide cfg loc old ds) (w := w) hxo.1 (id := x.1) (by rw [hty]; exact shownAs_not_custom hxo.2.2.2)
      (by rw [hty]; exact hxo.2.1) (encodes e x.2.gap)

theorem numberedFields_specs {e : Enc} {cfg : RegexCfg} {w : Written} {ty : ArgTy} (hw : w.Readable e ty []) (hne : w.render e ≠ []) : SpecsOk e (w.specs e) := by
  obtain ⟨sp, h1, h2⟩ := parseSpecs_written cfg e ty w [] ⟨hw.align, hw.width, hw.precision, hw.localized, hw.letter, fun h => absurd h hne⟩
  obtain ⟨_, _, _, _, _, _, _, _, _, _, _, rfl⟩ := h2
  exact (parseSpecs_accepted h1 rfl).ok

theorem numberedFields_stay {e wide : Enc} {cfg : RegexCfg} {loc : LocaleData} {old : Nat} {ds : List Dest} {xs : List (Nat × PrintedField)}
    (hds : ∀ x ∈ xs, ds[x.1]? = some x.2.dest) (hok : ∀ x ∈ xs, x.2.Ok e) :
    Stays (UnitsOk e) (numberedFields (stdEnv e wide cfg loc old ds) e xs) := by
  intro f hf s v r hu hr
  obtain ⟨x, hx, rfl⟩ := List.mem_map.1 hf
  have hd := hds x hx
  have hm := numberedFields_mean (wide := wide) (cfg := cfg) (loc := loc) (old := old) hd (hok x hx)
  have hxo := hok x hx
  have hty : (stdEnv e wide cfg loc old ds).argTy x.1 = x.2.dest.argTy := std_argTy hd
  unfold PrintedField.Ok at hxo
  dsimp only at hr
  refine hu.suffix ?_
  cases hs : x.2.spec with
  | none =>
    rw [hs] at hxo hr
    have hr' : (match ds[x.1]? with | none => Res.ub | some d => defaultRead e (d.defaultReader e wide) (fun _ => .contiguous) s) = .ok (v, r) := hr
    rw [hd] at hr'
    exact shows_forward wide hxo hu hr'
  | some w =>
    rw [hs] at hxo hr
    have hr' : (match ds[x.1]? with | none => Res.ub | some d => d.readSpecs e wide loc old (w.specs e) (fun _ => .contiguous) s) = .ok (v, r) := hr
    rw [hd] at hr'
    refine shownAs_forward wide loc old hxo.2.2.2 ?_ hu hr'
    have hw := numberedFields_specs (cfg := cfg) hxo.2.1 hxo.1
    exact hw

end Scn
