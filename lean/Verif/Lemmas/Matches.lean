import Verif.Lemmas.Track
import Verif.Lemmas.Defined5
import Verif.Lemmas.RegexMatch
import Verif.Model.Matches
/-
Calls with `regex_matches` among the destinations and a format string that was checked are well-defined.
-/
namespace Scn
open Spec

/-- As `Dest.Tame`; the backend has a result for every text and leaves the end of it. -/
def AnyDest.Tame (e : Enc) : AnyDest → Prop
  | .std d => d.Tame e
  | .captures _ impl => ∀ p f s, Sound (impl p f s) s

theorem Sound.map' {V W : Type} {r : Res (V × List Nat)} {s : List Nat} (h : Sound r s) (f : V → W) :
    Sound (r.map fun x => (f x.1, x.2)) s := h.map f

theorem matchesReader_sound {e dst : Enc} {impl : List Nat → Nat → List Nat → Res (List (Option RegexMatch) × List Nat)}
    (himpl : ∀ p f s, Sound (impl p f s) s) {sp : Specs} (hck : checkRegex sp = true) (l : Layout) (s : List Nat) :
    Sound ((matchesReader impl (decide (e = dst)) sp).read l s) s := by
  obtain ⟨p, hp⟩ : ∃ p, regexPattern sp = some p := by
    unfold checkRegex at hck
    split at hck
    · cases hck
    · unfold regexPattern
      cases hty : sp.type <;> rw [hty] at hck <;> first
        | exact ⟨_, rfl⟩
        | exact ⟨_, unescapePattern_spec _⟩
        | exact absurd hck (by decide)
  show Sound (if decide (e = dst) = false then _ else if l ≠ .contiguous then _ else match regexPattern sp with
      | none => .ub
      | some p => impl p sp.regexFlags s) s
  split
  · exact Sound.err _ _
  · split
    · exact Sound.err _ _
    · rw [hp]; exact himpl _ _ _

theorem matchesSpecs_sound {e dst : Enc} {impl : List Nat → Nat → List Nat → Res (List (Option RegexMatch) × List Nat)}
    (himpl : ∀ p f s, Sound (impl p f s) s) {sp : Specs} (hsp : SpecsOk e sp) (hck : checkRegex sp = true) (lay : List Nat → Layout)
    (s : List Nat) (hu : UnitsOk e s) : Sound (matchesSpecs e dst impl sp lay s) s := by
  have hset : sp.setString ≠ [] := by
    intro h
    unfold checkRegex at hck
    rw [if_pos (Or.inr h)] at hck
    cases hck
  have hrun : runTypeCheck (if dst = .utf8 then .narrowRegex else .wideRegex) sp = some true := by
    split <;> (show (if sp.setString = [] then none else some (checkRegex sp)) = some true; rw [if_neg hset, hck])
  unfold matchesSpecs
  rw [hrun]
  exact argRead_sound hsp.fill _ (fun l s _ => matchesReader_sound himpl hck l s) lay s hu

theorem anyEnv_ok (e wide : Enc) (cfg : RegexCfg) (loc : LocaleData) (old : Nat) {ds : List AnyDest} (hds : ∀ d ∈ ds, d.Tame e) :
    CheckedOk (anyEnv e wide cfg loc old ds) (UnitsOk e) where
  down s t hs ht := hs.suffix ht
  skip s hs := readWhileSpace_total e s hs
  dflt id s hid hs := by
    have hid' : id < ds.length := hid
    show Sound (match ds[id]? with | none => .ub | some (.std d) => _ | some (.captures _ _) => _) s
    rw [List.getElem?_eq_getElem hid']
    have ht := hds _ (List.getElem_mem hid')
    cases hd : ds[id]'hid' with
    | std d =>
      rw [hd] at ht
      exact (defaultRead_sound _ (defaultReader_sound e wide ht) _ s hs).map' _
    | captures dst impl => exact defaultRead_sound capturesDefault (fun _ _ _ => Sound.err _ _) _ s hs
  specs id pos setter p s hid hps he hct hs := by
    have hid' : id < ds.length := hid
    have hty : (anyEnv e wide cfg loc old ds).ty id = (ds[id]'hid').argTy := by
      show ((ds[id]?).map AnyDest.argTy).getD .none = _
      rw [List.getElem?_eq_getElem hid']
      rfl
    have hsp := (parseSpecs_accepted hps he).ok
    rw [hty] at hct
    show Sound (match ds[id]? with | none => .ub | some (.std d) => _ | some (.captures _ _) => _) s
    rw [List.getElem?_eq_getElem hid']
    have ht := hds _ (List.getElem_mem hid')
    cases hd : ds[id]'hid' with
    | std d =>
      rw [hd] at ht
      exact (readSpecs_sound e wide loc old ht hsp _ s hs).map' _
    | captures dst impl =>
      rw [hd] at ht hct
      have hck : checkRegex setter.specs = true := by
        have : compileTypeCheck (if dst = .utf8 then .narrowRegex else .wideRegex) setter.specs = some true := hct
        split at this <;> exact Option.some.inj this
      exact (matchesSpecs_sound ht hsp hck _ s hs).map' _

theorem anyDest_ty (e wide : Enc) (cfg : RegexCfg) (loc : LocaleData) (old : Nat) {ds : List AnyDest} {id : Nat} (hid : id < ds.length) :
    (anyEnv e wide cfg loc old ds).argTy id = (ds[id]'hid).argTy := by
  unfold Env.argTy
  rw [if_pos (show id < (anyEnv e wide cfg loc old ds).count from hid)]
  show ((ds[id]?).map AnyDest.argTy).getD .none = _
  rw [List.getElem?_eq_getElem hid]
  rfl

theorem anyDest_notCustom {e : Enc} {d : AnyDest} (h : d.Tame e) : d.argTy ≠ .custom := by
  cases d with
  | std d => exact (tame_category h).2
  | captures dst impl =>
    show (if dst = .utf8 then ArgTy.narrowRegex else .wideRegex) ≠ .custom
    split <;> decide

/-- Format strings that were not checked. -/
theorem anyEnv_run (e wide : Enc) (cfg : RegexCfg) (loc : LocaleData) (old : Nat) {ds : List AnyDest} (hds : ∀ d ∈ ds, d.Tame e)
    (fmt : List Nat)
    (hsp : ∀ dst impl, .captures dst impl ∈ ds → 76 ∉ fmt ∧ ∀ pos setter p, 58 :: pos <:+ fmt →
      parseSpecs cfg e (AnyDest.captures dst impl).argTy ⟨{}, false⟩ pos = some (setter, p) → setter.err = true ∨ setter.specs.setString ≠ []) :
    EnvOk (anyEnv e wide cfg loc old ds) (UnitsOk e) fmt where
  down := (anyEnv_ok e wide cfg loc old hds).down
  skip := (anyEnv_ok e wide cfg loc old hds).skip
  dflt id s hid hs := (anyEnv_ok e wide cfg loc old hds).dflt id s hid hs
  specs id pos setter p s hid hpos hps he hs := by
    have hid' : id < ds.length := hid
    rw [anyDest_ty e wide cfg loc old hid'] at hps
    have hok := (parseSpecs_accepted hps he).ok
    show Sound (match ds[id]? with | none => .ub | some (.std d) => _ | some (.captures _ _) => _) s
    rw [List.getElem?_eq_getElem hid']
    have hm := List.getElem_mem hid'
    have ht := hds _ hm
    cases hd : ds[id]'hid' with
    | std d =>
      rw [hd] at ht
      exact (readSpecs_sound e wide loc old ht hok _ s hs).map' _
    | captures dst impl =>
      rw [hd] at ht hps hm
      have hset := ((hsp dst impl hm).2 pos setter p hpos hps).resolve_left (by rw [he]; decide)
      refine Sound.map' ?_ _
      by_cases hck : checkRegex setter.specs = true
      · exact matchesSpecs_sound ht hok hck _ s hs
      · have hrun : runTypeCheck (if dst = .utf8 then .narrowRegex else .wideRegex) setter.specs = some false := by
          split <;> (show (if setter.specs.setString = [] then none else some (checkRegex setter.specs)) = some false
                     rw [if_neg hset, Bool.eq_false_iff.2 hck])
        unfold matchesSpecs
        rw [hrun]
        exact Sound.err _ _
  custom id pos s hc hs := by
    exfalso
    by_cases hid : id < ds.length
    · rw [anyDest_ty e wide cfg loc old hid] at hc
      exact anyDest_notCustom (hds _ (List.getElem_mem hid)) hc
    · unfold Env.argTy at hc
      rw [if_neg (show ¬ id < (anyEnv e wide cfg loc old ds).count from hid)] at hc
      cases hc
  types id hid := by
    have hid' : id < ds.length := hid
    have := anyDest_ty e wide cfg loc old hid'
    unfold Env.argTy at this
    rw [if_pos hid] at this
    rw [this]
    have hm := List.getElem_mem hid'
    have ht := hds _ hm
    cases hd : ds[id]'hid' with
    | std d => rw [hd] at ht; exact Or.inl (tame_category ht).1
    | captures dst impl => rw [hd] at hm; exact Or.inr (hsp dst impl hm).1

theorem stdMatches_sound {E : Engine StdOpts} (hE : ∀ o p s gs, E.search o p s = .found gs → searchEnd gs ≠ none) (m : Bool)
    (p : List Nat) (f : Nat) (s : List Nat) : Sound (stdMatches E m p f s) s := by
  unfold stdMatches
  cases hf : stdFlags m f with
  | ub => unfold stdFlags at hf; split at hf <;> (try split at hf) <;> cases hf
  | err x => exact Sound.err _ _
  | ok o =>
    show Sound (matchesOf _ (E.search o p s) s) s
    cases hs : E.search o p s with
    | found gs =>
      unfold matchesOf
      dsimp only
      split
      · rename_i h; exact absurd h (hE _ _ _ _ hs)
      · exact Sound.ok _ (List.drop_suffix _ _)
    | _ => exact Sound.err _ _

theorem boostMatches_sound {E : Engine BoostOpts} (hE : ∀ o p s gs, E.search o p s = .found gs → searchEnd gs ≠ none)
    (p : List Nat) (f : Nat) (s : List Nat) : Sound (boostMatches E p f s) s := by
  unfold boostMatches
  obtain ⟨listed, hl⟩ := patternNames_total p (p.length + 1) 0 (by omega) (by omega)
  rw [hl]
  dsimp only
  cases hs : E.search (boostFlags f) p s with
  | found gs =>
    unfold matchesOf
    dsimp only
    split
    · rename_i h; exact absurd h (hE _ _ _ _ hs)
    · exact Sound.ok _ (List.drop_suffix _ _)
  | _ => exact Sound.err _ _

end Scn
