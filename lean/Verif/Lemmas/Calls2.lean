import Verif.Lemmas.Calls
import Verif.Lemmas.Records
/-
Fields with specifications in scan calls into built-in destinations.
-/
namespace Scn
open Spec

variable {V : Type}

/-- A field with a written specification. -/
theorem fieldMeans_written {env : Env V} {w : Written} (hne : w.render env.enc ≠ []) {id : Nat} (hc : env.argTy id ≠ .custom)
    (hw : w.Readable env.enc (env.argTy id) []) (gap : List Nat) :
    FieldMeans env ⟨gap, id, some (w.render env.enc), env.readSpecs id (w.specs env.enc)⟩ := by
  unfold FieldMeans
  dsimp only
  rw [if_neg hc]
  refine ⟨w.specs env.enc, fun r => ?_, rfl⟩
  obtain ⟨sp, h1, h2⟩ := parseSpecs_written env.cfg env.enc (env.argTy id) w r
    ⟨hw.align, hw.width, hw.precision, hw.localized, hw.letter, fun h => absurd h hne⟩
  obtain ⟨_, _, _, _, _, _, _, _, _, _, _, rfl⟩ := h2
  exact h1

theorem std_argTy {e wide : Enc} {cfg : RegexCfg} {loc : LocaleData} {old : Nat} {ds : List Dest} {id : Nat} {d : Dest} (h : ds[id]? = some d) :
    (stdEnv e wide cfg loc old ds).argTy id = d.argTy := by
  have hl : id < ds.length := by
    rcases Nat.lt_or_ge id ds.length with h1 | h1
    · exact h1
    · rw [List.getElem?_eq_none h1] at h; cases h
  unfold Env.argTy
  rw [if_pos (show id < (stdEnv e wide cfg loc old ds).count from hl)]
  show ((ds[id]?).map Dest.argTy).getD .none = _
  rw [h]
  rfl

theorem dest_not_custom (d : Dest) (h : ∀ T ty, d = .int T ty → ty ≠ .custom) (h' : ∀ ty cv seg, d = .float ty cv seg → ty ≠ .custom) : d.argTy ≠ .custom := by
  cases d with
  | int T ty => exact h T ty rfl
  | float ty cv seg => exact h' ty cv seg rfl
  | string e => cases e <;> simp [Dest.argTy]
  | view e s => cases e <;> simp [Dest.argTy]
  | _ => simp [Dest.argTy]

/-- A field with nothing but a presentation type, which skips whitespace. -/
theorem std_plain {e wide : Enc} {cfg : RegexCfg} {loc : LocaleData} {old : Nat} {ds : List Dest} {id : Nat} {d : Dest} (h : ds[id]? = some d) {sp : Specs}
    (ht : runTypeCheck d.argTy sp = some true) (hp : Plain sp) (hs : (d.specsReader e wide loc old sp).skipWs = true) {cps : List Nat} (hc : ∀ c ∈ cps, IsScalar c) :
    (stdEnv e wide cfg loc old ds).readSpecs id sp (encodes e cps) =
      afterSpaces e ((d.specsReader e wide loc old sp).read .contiguous) cps := by
  simp only [stdEnv]
  rw [h]
  dsimp only
  unfold Dest.readSpecs
  rw [ht]
  dsimp only
  rw [argRead_plain e sp hp, if_pos hs, skipSpace_encodes e _ _ hc (by cases e <;> trivial)]
  unfold afterSpaces
  have hiff : cps.takeWhile isSpace = cps ↔ cps.dropWhile isSpace = [] := (dropWhile_nil_iff _ _).symm
  by_cases hx : cps.dropWhile isSpace = []
  · rw [if_pos ⟨rfl, hiff.2 hx⟩, if_pos hx]; rfl
  · rw [if_neg (fun hh => hx (hiff.1 hh.2)), if_neg hx]; rfl

theorem intLetter_facts {c : Nat} {b : Nat} {uo : Bool} (h : intLetter c = some (b, uo)) :
    ∃ p, letterMeaning c = some p ∧ p.ord ≤ Pres.intHex.ord ∧ p ≠ .intArbitrary ∧ (uo = decide (p = .intUnsigned)) ∧
      (∀ sp : Specs, sp.type = p → sp.getBase = some b) ∧ (b = 0 ∨ (2 ≤ b ∧ b ≤ 36)) ∧ (p = .intBinary ↔ b = 2) := by
  unfold intLetter at h
  split at h <;> cases h
  all_goals
    refine ⟨_, rfl, by decide, by decide, by decide, fun sp hsp => by unfold Specs.getBase; rw [hsp], by decide, by decide⟩

theorem written_letter (e : Enc) (loc : Bool) (c : Nat) : ({ localized := loc, letter := some c } : Written).render e = if loc then [76, c] else [c] := by
  cases loc <;> rfl

end Scn
