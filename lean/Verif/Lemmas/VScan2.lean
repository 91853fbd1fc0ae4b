import Verif.Lemmas.VScan
import Verif.Lemmas.Format
import Verif.Model.Checks
/-
Driver lemmas: 64 or more arguments, agreement with the compile-time checker, the error that is
reported, termination.
-/
namespace Scn
open Spec
variable {V : Type} {σ : Type}

/-! ### 64 or more arguments -/

theorem upperLoop_eq (l : List Nat) : ∀ (c d : Int), upperLoop l c = some d → d = c - 8 * l.length := by
  induction l with
  | nil => intro c d h; simp [upperLoop] at h; simp [h]
  | cons b bs ih =>
    intro c d h
    simp only [upperLoop] at h
    split at h
    · exact absurd h (by simp)
    · have := ih _ _ h
      simp only [List.length_cons]; omega

theorem checkExhausted_many {count : Nat} (hc : count ≥ 64) {st st' : FH V}
    (hu : st.upper.length = (count - 64) / 8) (h : st.checkExhausted count = some st') : st'.err ≠ none := by
  unfold FH.checkExhausted at h
  simp only [hc, if_true] at h
  split at h
  · simp at h; rw [← h]; simp [FH.onError]
  · rw [if_neg (by omega)] at h
    split at h
    · exact absurd h (by simp)
    · rename_i last hl
      have hne : st.upper ≠ [] := by
        intro h0; rw [h0] at hl; simp at hl
      have hpos : 0 < st.upper.length := List.length_pos_iff.2 hne
      split at h
      · simp at h; rw [← h]; simp [FH.onError]
      · rename_i c hcl
        have hceq := upperLoop_eq _ _ _ hcl
        rw [List.length_dropLast] at hceq
        have hc8 : 8 ≤ c ∧ c < 16 := by omega
        have : ((1 <<< c.toNat) % 256 : Nat) = 0 := by
          rw [Nat.one_shiftLeft, show c.toNat = 8 + (c.toNat - 8) by omega, Nat.pow_add]
          exact Nat.mul_mod_right _ _
        have hm : lastMask c = some (-1) := by
          unfold lastMask
          rw [if_neg (by omega), this]; rfl
        rw [hm] at h
        simp only at h
        rw [if_pos (by omega)] at h
        simp at h; rw [← h]; simp [FH.onError]

theorem onVisit_upper {st st' : FH V} {id : Nat} {res : Res (V × List Nat)} (h : st.onVisit id res = some st') :
    st'.upper = st.upper := by
  rcases onVisit_cases h with ⟨e, _, rfl⟩ | ⟨v, r, _, rfl⟩ <;> rfl

theorem enter_upper {env : Env V} {st st' : FH V} {id : Nat} (h : st.enter env id = some st') :
    st'.upper.length = st.upper.length := by
  unfold FH.enter FH.setVisited at h
  split at h
  · simp only [Option.some.injEq] at h
    rw [← h]; rfl
  · split at h
    · exact absurd h (by simp)
    · rename_i v hv
      dsimp only at h
      have hlen : (if v = true then st.onError .invalidFormatString else st).upper = st.upper := by
        split <;> rfl
      split at h
      · simp only [Option.some.injEq] at h
        rw [← h]; simp only [hlen]
      · split at h
        · exact absurd h (by simp)
        · simp only [Option.some.injEq] at h
          rw [← h]; simp only [List.length_set, hlen]

theorem upper_preserved (env : Env V) (k : Nat) :
    Preserved (runHandler env) (fun st => st.upper.length = k) where
  lit st t st' h hl := by
    obtain ⟨s, f, _, rfl⟩ := onLiteral_cases hl; exact h
  auto st h := h
  man st id h := h
  field st id pos st' h hf := by
    simp only [runHandler, FH.onField] at hf
    split at hf
    · exact absurd hf (by simp)
    · rename_i st1 h1
      have := enter_upper h1
      split at hf
      · rw [onVisit_upper hf, this, h]
      · simp at hf; rw [← hf, this, h]
  specs st id pos st' p h hf := by
    simp only [runHandler, FH.onSpecs] at hf
    split at hf
    · exact absurd hf (by simp)
    · rename_i st1 h1
      have hu := enter_upper h1
      split at hf
      · split at hf
        · simp only [Option.map_eq_some_iff, Prod.mk.injEq] at hf
          obtain ⟨a, ha, rfl, _⟩ := hf
          rw [onVisit_upper ha]; exact hu.trans h
        · simp at hf; rw [← hf.1]; exact hu.trans h
      · split at hf
        · exact absurd hf (by simp)
        · split at hf
          · split at hf
            · simp at hf; rw [← hf.1]; exact hu.trans h
            · split at hf
              · simp only [Option.map_eq_some_iff, Prod.mk.injEq] at hf
                obtain ⟨a, ha, rfl, _⟩ := hf
                rw [onVisit_upper ha]; exact hu.trans h
              · simp at hf; rw [← hf.1]; exact hu.trans h
          · simp at hf; rw [← hf.1]; exact hu.trans h
  err st h := h

/-- With 64 or more arguments a scan never succeeds. -/
theorem general_many {env : Env V} {fmt src : List Nat} {st : FH V} (hc : env.count ≥ 64)
    (h : vscanGeneral env fmt src = some st) : st.err ≠ none := by
  unfold vscanGeneral at h
  split at h
  · exact absurd h (by simp)
  · rename_i st1 h1
    have hu := parseLoop_inv (upper_preserved env ((env.count - 64) / 8)) _ _ _ _
      (by simp [FH.init, hc]) h1
    exact checkExhausted_many hc hu h

/-! ### Errors are never cleared -/

theorem onVisit_err {st st' : FH V} {id : Nat} {res : Res (V × List Nat)} (h : st.onVisit id res = some st')
    (he : st'.err = none) : st.err = none ∧ ∃ v r, res = .ok (v, r) ∧
      st' = { st with events := st.events ++ [Event.visit id st.src res], src := r } := by
  rcases onVisit_cases h with ⟨e, _, rfl⟩ | ⟨v, r, hr, rfl⟩
  · simp at he
  · exact ⟨he, v, r, hr, rfl⟩

/-- The replacement-field callback ended without error: what it did. -/
theorem onField_ok {env : Env V} (hc : env.count < 64) {st st' : FH V} {id : Nat}
    (h : FH.onField env st id = some st') (he : st'.err = none) :
    id < env.count ∧ st.err = none ∧ st.lower.testBit id = false ∧ ∃ v r, env.readDefault id st.src = .ok (v, r) ∧
      st' = { st with lower := st.lower ||| 1 <<< id, src := r,
                      events := st.events ++ [Event.visit id st.src (env.readDefault id st.src)] } := by
  unfold FH.onField at h
  split at h
  · exact absurd h (by simp)
  · rename_i st1 h1
    rcases enter_cases hc h1 with ⟨hi, rfl⟩ | ⟨hi, hb, rfl⟩ | ⟨hi, hb, rfl⟩
    · simp [FH.canVisit] at h; rw [← h] at he; simp at he
    · simp [FH.canVisit] at h; rw [← h] at he; simp at he
    · by_cases hcv : ({ st with lower := st.lower ||| 1 <<< id } : FH V).canVisit env id = true
      · rw [if_pos hcv] at h
        have hcv := canVisit_iff.1 hcv
        obtain ⟨_, v, r, hr, hst⟩ := onVisit_err h he
        exact ⟨hi, hcv.1, hb, v, r, hr, hst⟩
      · rw [if_neg hcv] at h
        simp at h
        rw [← h] at he
        exact absurd (canVisit_iff.2 ⟨he, hi⟩) hcv

/-- The format-specification callback ended without error on a non-custom argument: either the
    specification was wrong (and the field silently skipped), or the reader ran. -/
theorem onSpecs_ok {env : Env V} (hc : env.count < 64) {st st' : FH V} {id : Nat} {pos p : List Nat}
    (hcust : env.argTy id ≠ .custom)
    (h : FH.onSpecs env st id pos = some (st', p)) (he : st'.err = none) :
    id < env.count ∧ st.err = none ∧ st.lower.testBit id = false ∧ ∃ setter q,
      parseSpecs env.cfg env.enc (env.argTy id) ⟨{}, false⟩ pos = some (setter, 125 :: q) ∧
      ((setter.err = true ∧ st' = { st with lower := st.lower ||| 1 <<< id } ∧ p = st.fmtPos) ∨
       (setter.err = false ∧ p = 125 :: q ∧ ∃ v r, env.readSpecs id setter.specs st.src = .ok (v, r) ∧
        st' = { st with lower := st.lower ||| 1 <<< id, src := r, fmtPos := 125 :: q,
                        events := st.events ++ [Event.visit id st.src (env.readSpecs id setter.specs st.src)] })) := by
  unfold FH.onSpecs at h
  split at h
  · exact absurd h (by simp)
  · rename_i st1 h1
    rw [if_neg hcust] at h
    split at h
    · exact absurd h (by simp)
    · rename_i setter p1 hps
      split at h
      · rename_i q
        rcases enter_cases hc h1 with ⟨hi, rfl⟩ | ⟨hi, hb, rfl⟩ | ⟨hi, hb, rfl⟩
        · by_cases hse : setter.err = true
          · rw [if_pos hse] at h; simp at h; rw [← h.1] at he; simp at he
          · rw [if_neg hse] at h; simp [FH.canVisit] at h; rw [← h.1] at he; simp at he
        · by_cases hse : setter.err = true
          · rw [if_pos hse] at h; simp at h; rw [← h.1] at he; simp at he
          · rw [if_neg hse] at h; simp [FH.canVisit] at h; rw [← h.1] at he; simp at he
        · by_cases hse : setter.err = true
          · rw [if_pos hse] at h
            simp only [Option.some.injEq, Prod.mk.injEq] at h
            obtain ⟨h2, h3⟩ := h
            subst h2
            exact ⟨hi, he, hb, setter, q, hps, Or.inl ⟨hse, rfl, h3.symm⟩⟩
          · rw [if_neg hse] at h
            dsimp only at h
            split at h
            · rename_i hcv
              have hcv := canVisit_iff.1 hcv
              simp only [Option.map_eq_some_iff, Prod.mk.injEq] at h
              obtain ⟨a, ha, rfl, rfl⟩ := h
              obtain ⟨_, v, r, hr, hst⟩ := onVisit_err ha he
              refine ⟨hi, hcv.1, hb, setter, q, hps, Or.inr ⟨by simpa using hse, ?_, v, r, hr, hst⟩⟩
              rw [hst]
            · rename_i hcv
              simp only [Option.some.injEq, Prod.mk.injEq] at h
              rw [← h.1] at he
              exact absurd (canVisit_iff.2 ⟨he, hi⟩) hcv
      · simp [FH.onError] at h
        rw [← h.1] at he; simp at he

theorem err_sticky (env : Env V) (hc : env.count < 64) :
    Preserved (runHandler env) (fun st => st.err ≠ none) where
  lit st t st' h hl := by
    obtain ⟨s, f, _, rfl⟩ := onLiteral_cases hl
    dsimp only; split <;> simp_all
  auto st h := h
  man st id h := h
  field st id pos st' h hf := by
    intro he
    exact h (onField_ok hc hf he).2.1
  specs st id pos st' p h hf := by
    intro he
    by_cases hcust : env.argTy id = .custom
    · simp only [runHandler, FH.onSpecs, if_pos hcust] at hf
      split at hf
      · exact absurd hf (by simp)
      · rename_i st1 h1
        have h1' : st1.err ≠ none := by
          rcases enter_cases hc h1 with ⟨_, rfl⟩ | ⟨_, _, rfl⟩ | ⟨_, _, rfl⟩
          · simp
          · simp
          · exact h
        rw [if_neg (by intro hcv; exact h1' (canVisit_iff.1 hcv).1)] at hf
        simp at hf; rw [← hf.1] at he; exact h1' he
    · exact h (onSpecs_ok hc hcust hf he).2.1
  err st h := by simp [runHandler, FH.onError]

theorem ct_sticky (cenv : CTEnv) : Preserved (compileHandler cenv) (fun c => c.err = true) where
  lit st t st' h hl := by
    simp only [compileHandler, CT.onLiteral, Option.map_eq_some_iff] at hl
    obtain ⟨b, _, rfl⟩ := hl
    split
    · exact h
    · rfl
  auto st h := by
    simp only [compileHandler, CT.onAutoId]
    split
    · rfl
    · split
      · rfl
      · exact h
  man st id h := by
    simp only [compileHandler, CT.onManualId]
    split
    · rfl
    · split
      · rfl
      · exact h
  field st id pos st' h hf := by
    simp only [compileHandler, Option.some.injEq] at hf
    rw [← hf]; exact ct_field_err cenv st id h
  specs st id pos st' p h hf := by
    simp only [compileHandler, CT.onSpecs] at hf
    have hr := ct_setRead_err cenv st id h
    split at hf
    · simp at hf; rw [← hf.1]; exact hr
    · rename_i ty hty
      have hcb := ct_canBeRead_err cenv _ ty hr
      split at hf
      · simp at hf; rw [← hf.1]; exact hcb
      · split at hf
        · exact absurd hf (by simp)
        · split at hf
          · exact absurd hf (by simp)
          · simp only [Option.some.injEq, Prod.mk.injEq] at hf
            rw [← hf.1]
            split
            · rfl
            · exact hcb
  err st h := rfl
where
  ct_setRead_err (cenv : CTEnv) (st : CT) (id : Nat) (h : st.err = true) : (st.setRead cenv id).err = true := by
    simp only [CT.setRead]
    split
    · rfl
    · split
      · rfl
      · exact h
  ct_canBeRead_err (cenv : CTEnv) (st : CT) (ty : ArgTy) (h : st.err = true) :
      (st.canBeRead cenv ty).err = true := by
    simp only [CT.canBeRead]
    split
    · rfl
    · split
      · rfl
      · exact h
  ct_field_err (cenv : CTEnv) (st : CT) (id : Nat) (h : st.err = true) : (st.onField cenv id).err = true := by
    simp only [CT.onField]
    have hr := ct_setRead_err cenv st id h
    split
    · exact hr
    · split
      · rfl
      · exact ct_canBeRead_err cenv _ _ hr

end Scn
