import Verif.Lemmas.Chrono8
import Verif.Lemmas.Chrono7
/-
The seconds that come with a fraction of a second, for C87.
-/
namespace Scn
open Spec

theorem parse_fraction {σ : Type} (e : Enc) (h : ChronoHandler σ) (st : σ) :
    parseChrono e h st [37, 83, 37, 46, 83] = (h.call st (.second .standard)).bind fun st => if h.ok st then
      (h.call st (.subsecond .standard)).bind fun st => if h.ok st then (h.call st .verify).map fun s => (s, []) else some (st, [])
      else some (st, [37, 46, 83]) := rfl

theorem setError_ne {T : Type} (r : Rd T) (e : Err) : (r.setError e).err ≠ none := by
  unfold Rd.setError
  cases h : r.err with
  | none => simp
  | some x => rw [h]; simp

theorem mark_none {T : Type} {r : Rd T} {f : ChronoField} (h : (r.mark f).err = none) : r.err = none ∧ r.st.has f = false ∧ (r.mark f).st.has f = true := by
  unfold Rd.mark at h ⊢
  split at h
  · exact absurd h (setError_ne _ _)
  · rename_i hs
    rw [if_neg hs]
    exact ⟨h, by simpa [SetterState.mark] using hs, by simp [SetterState.mark, SetterState.has]⟩

theorem setField_none {T : Type} {r : Rd T} {f : ChronoField} {lo hi v : Int} {upd : T → T} (h : (r.setField f lo hi v upd).err = none) :
    r.err = none ∧ r.st.has f = false ∧ (r.setField f lo hi v upd).st.has f = true := by
  unfold Rd.setField at h ⊢
  split at h
  · exact absurd h (setError_ne _ _)
  · rename_i hs
    rw [if_neg hs]
    exact mark_none h

theorem sec_none {r : Rd DateTime} {v : Int} (h : (dtSetter.sec r v).err = none) : r.err = none ∧ r.st.has .sec = false ∧ (dtSetter.sec r v).st.has .sec = true :=
  setField_none (f := .sec) (lo := 0) (hi := 60) (v := v) (upd := fun t : DateTime => { t with sec := some v }) h

/-- With seconds already set, reading them with a fraction is an error. -/
theorem subsecond_again {cfg : ChronoCfg} {s : NumSys} {r r' : Rd DateTime} (hs : r.st.has .sec = true) (h : r.onSubsecond cfg dtSetter s = some r') :
    r'.err ≠ none := by
  intro hn
  have hf : (r.number 1 2 dtSetter.sec).err = none := by
    unfold Rd.onSubsecond at h
    dsimp only at h
    generalize (if (Rd.number 1 2 dtSetter.sec r).useLocale s = true then throughChar cfg.enc cfg.decimalPoint else 46) = pt at h
    split at h
    · cases h; exact absurd hn (setError_ne _ _)
    · split at h
      · cases h; exact absurd hn (setError_ne _ _)
      · split at h
        · cases h
        · cases h; exact absurd hn (setError_ne _ _)
        · split at h
          · cases h; exact absurd hn (setError_ne _ _)
          · split at h
            · cases h
            · cases h; exact absurd hn (setError_ne _ _)
            · cases h
              exact (mark_none hn).1
  have := (sec_none (r := (r.readUInt 1 2).2) hf).2.1
  rw [(readUInt_st 1 2 r).1, hs] at this
  cases this

end Scn
