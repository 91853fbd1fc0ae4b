import Verif.Lemmas.Calls
/-
A field with the other kind of numbering, after fields that were read.
-/
namespace Scn
open Spec

variable {V : Type}

/-- The parser arrives at a field after those in front of it were read. -/
theorem calls_then {env : Env V} {auto : Bool} {k : Nat} {gap cs : List Nat} (hl : NoBrace gap) (h64 : env.count ≤ 64 + 8 * k) (hmax : env.count ≤ intMax)
    (fs : List (CallField V)) :
    ∀ (n : Nat) (seen : List Nat) (st : FH V) (vs : List (Nat × V)) (r : List Nat), Ready env auto seen fs → Midway auto k seen st → st.err = none →
      fs.length < n → inOrder (litStep env) fs gap st.src = .ok (vs, r) →
      ∃ m st', parseLoop (runHandler env) n st (callFormat auto fs (gap ++ 123 :: cs)) =
          (match parseField (runHandler env) st' cs with
            | none => none
            | some (st, s) => if (runHandler env).hasError st then some st else parseLoop (runHandler env) m st s) ∧
        Midway auto k ((fs.map fun f => f.id).reverse ++ seen) st' ∧ st'.err = none ∧ st'.src = r ∧ stored st'.events = stored st.events ++ vs := by
  induction fs with
  | nil =>
    intro n seen st vs r _ hm he hn h
    obtain ⟨n, rfl⟩ : ∃ k, n = k + 1 := ⟨n - 1, by simp at hn; omega⟩
    simp only [inOrder] at h
    show ∃ m st', parseLoop (runHandler env) (n + 1) st (gap ++ 123 :: cs) = _ ∧ _
    rw [parseLoop_open _ _ _ hl]
    cases hlit : litStep env gap st.src with
    | ub => rw [hlit] at h; cases h
    | err e => rw [hlit] at h; cases h
    | ok r' =>
      rw [hlit] at h; cases h
      rw [show (runHandler env).onLiteral st gap = _ from onLiteral_ok hlit]
      refine ⟨n, { st with src := r, events := st.events ++ [Event.literal gap st.src r none] }, ?_, midway_same hm _ rfl rfl rfl rfl, he, rfl, by simp [stored]⟩
      dsimp only
      cases parseField (runHandler env) { st with src := r, events := st.events ++ [Event.literal gap st.src r none] } cs <;> rfl
  | cons f fs ih =>
    intro n seen st vs r hr hm he hn h
    obtain ⟨n, rfl⟩ : ∃ k, n = k + 1 := ⟨n - 1, by simp at hn; omega⟩
    simp only [List.length_cons] at hn
    obtain ⟨hf, hg, hid, hfresh, hauto, hr'⟩ := hr
    rw [callFormat_cons, parseLoop_open _ _ _ hg]
    simp only [inOrder] at h
    cases hlit : litStep env f.gap st.src with
    | ub => rw [hlit] at h; cases h
    | err e => rw [hlit] at h; cases h
    | ok s1 =>
      rw [hlit, Res.bind_ok] at h
      rw [show (runHandler env).onLiteral st f.gap = _ from onLiteral_ok hlit]
      dsimp only
      obtain ⟨st1, k1, k2, k3, k4, k5⟩ := callField_ok (st := { st with src := s1, events := st.events ++ [Event.literal f.gap st.src s1 none] })
        (midway_same hm _ rfl rfl rfl rfl) he hf hid (by omega) (by omega) hfresh hauto (callFormat auto fs (gap ++ 123 :: cs))
      rw [k5]
      dsimp only at k3 k4 ⊢
      cases hrd : f.read s1 with
      | ub => rw [hrd] at h; cases h
      | err e => rw [hrd] at h; cases h
      | ok a =>
        obtain ⟨v, s2⟩ := a
        rw [hrd, Res.bind_ok] at h
        dsimp only at h
        cases hrec : inOrder (litStep env) fs gap s2 with
        | ub => rw [hrec] at h; cases h
        | err e => rw [hrec] at h; cases h
        | ok q =>
          rw [hrec] at h; cases h
          simp only [FH.onVisit, Option.map_some]
          rw [if_neg (by simp [runHandler, k2])]
          obtain ⟨m, st', h1, h2, h3, h4, h5⟩ := ih n (f.id :: seen) { st1 with src := s2, events := st1.events ++ [Event.visit f.id st1.src (.ok (v, s2))] }
            q.1 q.2 hr' (midway_same k1 _ rfl rfl rfl rfl) k2 (by omega) hrec
          refine ⟨m, st', h1, by simpa using h2, h3, h4, ?_⟩
          rw [h5, k4]
          simp [stored]

/-- A field for a custom type with a specification, numbered the other way: an invalid format string, nothing is read. -/
theorem mixedField {env : Env V} {auto : Bool} {k : Nat} {seen : List Nat} {st : FH V} {g : CallField V} {t : List Nat} (hm : Midway auto k seen st) (hs : seen ≠ [])
    (he : st.err = none) (ht : g.spec = some t) (hc : env.argTy g.id = .custom) (h64 : g.id < 64 + 8 * k) (hmax : g.id ≤ intMax)
    (h0 : auto = false → g.id = 0) (rest : List Nat) :
    ∃ st1 p, parseField (runHandler env) st ((g.text (!auto)).tail ++ rest) = some (st1, p) ∧ st1.err = some .invalidFormatString ∧
      stored st1.events = stored st.events := by
  have hid : g.id < env.count := by
    unfold Env.argTy at hc
    split at hc
    · assumption
    · cases hc
  have hpos : 0 < seen.length := by cases seen with | nil => exact absurd rfl hs | cons a l => simp
  have hmix : mixedStep (!auto) st = true := by
    unfold mixedStep
    rw [hm.mixed, hm.next]
    cases auto with
    | true => simp; omega
    | false => simp [hs]
  have hstep : (idStep (!auto) st g.id).2 = g.id := by
    unfold idStep
    cases auto with
    | true => rfl
    | false =>
      simp only [Bool.not_false, if_true]
      have := hm.next
      simp only [Bool.false_eq_true, if_false, hs] at this
      rw [this, h0 rfl]
      rfl
  rw [parseField_call env (!auto) st g hmax, ht, hmix, hstep]
  dsimp only
  unfold FH.onSpecs
  by_cases hfresh : g.id ∈ seen
  · -- the argument was read before
    have hv := midway_visited hm h64
    rw [decide_eq_true hfresh] at hv
    have henter : ∃ lo up, ({ st with nextId := (idStep (!auto) st g.id).1, mixed := true } : FH V).enter env g.id =
        some { st with nextId := (idStep (!auto) st g.id).1, mixed := true, err := some .invalidFormatString, lower := lo, upper := up } := by
      unfold FH.enter
      rw [if_neg (by omega)]
      unfold FH.setVisited
      rw [if_neg (by omega)]
      have hv' : ({ st with nextId := (idStep (!auto) st g.id).1, mixed := true } : FH V).visited g.id = some true := hv
      rw [hv']
      dsimp only
      by_cases h6 : g.id < 64
      · rw [if_pos h6]; exact ⟨_, _, rfl⟩
      · rw [if_neg h6]
        have hlt : (g.id - 64) / 8 < st.upper.length := by rw [hm.len]; omega
        simp only [if_true, FH.onError, List.getElem?_eq_getElem hlt]
        exact ⟨_, _, rfl⟩
    obtain ⟨lo, up, henter⟩ := henter
    rw [henter]
    dsimp only
    rw [if_pos hc, if_neg (by simp [FH.canVisit])]
    dsimp only
    split
    · exact ⟨_, _, rfl, rfl, rfl⟩
    · exact ⟨_, _, rfl, rfl, rfl⟩
  · rw [enter_fresh (env := env) hid h64 hm hfresh]
    dsimp only
    rw [if_pos hc, if_pos (by simp [FH.canVisit, he, hid])]
    simp only [Env.custom, if_true, FH.onVisit, Option.map_some]
    split
    · exact ⟨_, _, rfl, rfl, by simp [stored, FH.onError]⟩
    · exact ⟨_, _, rfl, rfl, by simp [stored, FH.onError]⟩

theorem callFormat_then (auto : Bool) (fs : List (CallField V)) (gap u : List Nat) : callFormat auto fs (gap ++ u) = callFormat auto fs gap ++ u := by
  simp [callFormat]

end Scn
