import Verif.Lemmas.Follow
import Verif.Lemmas.Driver3
/-
What the compile-time check ensures about destinations that point into the source.
-/
namespace Scn
open Spec
variable {σ : Type}

/-- The parser never asks for a specification at the end of the format string. -/
def Handler.guarded (H : Handler σ) : Handler σ :=
  { H with onSpecs := fun st id pos => if pos = [] then some (H.onError st, pos) else H.onSpecs st id pos }

theorem parseArgId_guarded (H : Handler σ) (st : σ) (s : List Nat) : parseArgId H.guarded st s = parseArgId H st s := rfl

theorem parseField_guarded (H : Handler σ) (st : σ) (s : List Nat) : parseField H.guarded st s = parseField H st s := by
  unfold parseField
  rw [parseArgId_guarded]
  split
  · rfl
  · rfl
  · rfl
  · split
    · rfl
    · split
      · rfl
      · rfl
      · rfl
      · rename_i q hne _
        have : H.guarded.onSpecs = fun st id pos => if pos = [] then some (H.onError st, pos) else H.onSpecs st id pos := rfl
        simp only [this, if_neg (show ¬ q = [] from hne)]
        rfl
      · rfl

theorem parseLoop_guarded (H : Handler σ) (n : Nat) : ∀ (st : σ) (s : List Nat), parseLoop H.guarded n st s = parseLoop H n st s := by
  induction n with
  | zero => intro st s; rfl
  | succ n ih =>
    intro st s
    simp only [parseLoop, ih, parseField_guarded]
    rfl

/-- Every destination that has been visited may point into the source. -/
def ViewsOk (env : CTEnv) (c : CT) : Prop :=
  c.err = false → ∀ i ty, c.visited.getD i false = true → env.types[i]? = some ty →
    (ty = .narrowStringView ∨ ty = .wideStringView ∨ ty = .narrowRegex ∨ ty = .wideRegex) →
      env.contiguous = true ∧ env.borrowed = true

theorem viewsOk_set {env : CTEnv} {c : CT} {id : Nat} {ty : ArgTy} (h : ViewsOk env c) (he : c.err = false)
    (hty : env.types[id]? = some ty)
    (hok : (ty = .narrowStringView ∨ ty = .wideStringView ∨ ty = .narrowRegex ∨ ty = .wideRegex) →
      env.contiguous = true ∧ env.borrowed = true) :
    ViewsOk env { c with visited := c.visited.set id true } := by
  intro _ i t hv ht hview
  by_cases hi : i = id
  · subst hi
    rw [hty] at ht
    cases ht
    exact hok hview
  · refine h he i t ?_ ht hview
    simpa [List.getD_eq_getElem?_getD, List.getElem?_set, Ne.symm hi] using hv

theorem ct_canBeRead_view {env : CTEnv} {c : CT} {ty : ArgTy} (h : (c.canBeRead env ty).err = false)
    (hv : ty = .narrowStringView ∨ ty = .wideStringView) : env.contiguous = true ∧ env.borrowed = true := by
  simp only [CT.canBeRead] at h
  split at h
  · simp [CT.onError] at h
  · rename_i hn
    cases hc : env.contiguous <;> cases hb : env.borrowed <;> simp [hc, hb, hv] at hn ⊢

theorem views_preserved (env : CTEnv) : Preserved (compileHandler env).guarded (ViewsOk env) where
  lit c t c' h hl := by
    simp only [Handler.guarded, compileHandler, CT.onLiteral, Option.map_eq_some_iff] at hl
    obtain ⟨b, _, rfl⟩ := hl
    cases b
    · intro he; simp [CT.onError] at he
    · exact h
  auto c h := by
    simp only [Handler.guarded, compileHandler, CT.onAutoId]
    split
    · intro he; simp [CT.onError] at he
    · split
      · intro he; simp [CT.onError] at he
      · exact h
  man c id h := by
    simp only [Handler.guarded, compileHandler, CT.onManualId]
    split
    · intro he; simp [CT.onError] at he
    · split
      · intro he; simp [CT.onError] at he
      · exact h
  field c id pos c' h hf := by
    simp only [Handler.guarded, compileHandler, Option.some.injEq] at hf
    subst hf
    intro he
    simp only [CT.onField] at he ⊢
    have hset : (c.setRead env id).err = false := by
      cases hx : (c.setRead env id).err
      · rfl
      · exfalso
        revert he
        split
        · simp [hx]
        · split
          · simp [CT.onError]
          · simp [ct_sticky.ct_canBeRead_err env _ _ hx]
    obtain ⟨hid, hv, heq⟩ := ct_setRead_ok hset
    have hce : c.err = false := by rw [heq] at hset; exact hset
    split at he
    · rename_i hn
      rw [List.getElem?_eq_none_iff] at hn
      omega
    · rename_i ty hty
      split at he
      · simp [CT.onError] at he
      · rename_i hre
        rw [if_neg hre, ct_canBeRead_ok he, heq]
        refine viewsOk_set h hce hty (fun hview => ?_) (by simpa using hce)
        rcases hview with hv | hv | hv | hv
        · exact ct_canBeRead_view he (Or.inl hv)
        · exact ct_canBeRead_view he (Or.inr hv)
        · exact absurd (Or.inl hv) hre
        · exact absurd (Or.inr hv) hre
  specs c id pos c' p h hf := by
    intro he
    simp only [Handler.guarded, compileHandler] at hf
    split at hf
    · simp only [Option.some.injEq, Prod.mk.injEq] at hf
      rw [← hf.1] at he
      simp [CT.onError] at he
    · rename_i hpos
      simp only [CT.onSpecs, if_neg hpos] at hf
      have hset : (c.setRead env id).err = false := by
        cases hx : (c.setRead env id).err
        · rfl
        · exfalso
          split at hf
          · simp only [Option.some.injEq, Prod.mk.injEq] at hf
            rw [← hf.1, hx] at he; cases he
          · split at hf
            · exact absurd hf (by simp)
            · split at hf
              · exact absurd hf (by simp)
              · simp only [Option.some.injEq, Prod.mk.injEq] at hf
                rw [← hf.1] at he
                split at he
                · simp [CT.onError] at he
                · rw [ct_sticky.ct_canBeRead_err env _ _ hx] at he; cases he
      obtain ⟨hid, hv, heq⟩ := ct_setRead_ok hset
      have hce : c.err = false := by rw [heq] at hset; exact hset
      split at hf
      · rename_i hn
        rw [List.getElem?_eq_none_iff] at hn
        omega
      · rename_i ty hty
        split at hf
        · exact absurd hf (by simp)
        · rename_i setter q hps
          split at hf
          · exact absurd hf (by simp)
          · rename_i ok hck
            simp only [Option.some.injEq, Prod.mk.injEq] at hf
            rw [← hf.1] at he ⊢
            split at he
            · simp [CT.onError] at he
            · rename_i hbad
              rw [if_neg hbad]
              rw [ct_canBeRead_ok he, heq]
              refine viewsOk_set h hce hty (fun hview => ?_) (by simpa using hce)
              have hreg : (ty = .narrowRegex ∨ ty = .wideRegex) → env.contiguous = true ∧ env.borrowed = true := by
                intro hr
                have hck' : ok = true := by
                  cases ok
                  · exact absurd (Or.inr (Or.inl (by simp))) hbad
                  · rfl
                have : setter.specs.type = .regex ∨ setter.specs.type = .regexEscaped := by
                  rw [hck'] at hck
                  have hcr : checkRegex setter.specs = true := by
                    rcases hr with rfl | rfl <;> exact Option.some.inj hck
                  simp only [checkRegex] at hcr
                  split at hcr
                  · cases hcr
                  · simpa using hcr
                cases hc : env.contiguous <;> cases hb : env.borrowed <;> simp [hc, hb, this] at hbad ⊢
              rcases hview with hv | hv | hv | hv
              · exact ct_canBeRead_view he (Or.inl hv)
              · exact ct_canBeRead_view he (Or.inr hv)
              · exact hreg (Or.inl hv)
              · exact hreg (Or.inr hv)
  err c _ := by intro he; simp [Handler.guarded, compileHandler, CT.onError] at he

/-- The number of flags never changes. -/
theorem visited_length_preserved (env : CTEnv) : Preserved (compileHandler env) (fun c => c.visited.length = env.types.length) where
  lit c t c' h hl := by
    simp only [compileHandler, CT.onLiteral, Option.map_eq_some_iff] at hl
    obtain ⟨b, _, rfl⟩ := hl
    cases b <;> exact h
  auto c h := by
    simp only [compileHandler, CT.onAutoId]
    split
    · exact h
    · split <;> exact h
  man c id h := by
    simp only [compileHandler, CT.onManualId]
    split <;> (try split) <;> exact h
  field c id pos c' h hf := by
    simp only [compileHandler, Option.some.injEq] at hf
    subst hf
    simp only [CT.onField]
    have h1 : (c.setRead env id).visited.length = env.types.length := by
      simp only [CT.setRead]; split
      · exact h
      · split
        · exact h
        · simpa using h
    have h2 : ∀ ty, ((c.setRead env id).canBeRead env ty).visited.length = env.types.length := by
      intro ty; simp only [CT.canBeRead]; split
      · exact h1
      · split <;> exact h1
    split
    · exact h1
    · split
      · exact h2 _
      · exact h2 _
  specs c id pos c' p h hf := by
    simp only [compileHandler, CT.onSpecs] at hf
    have h1 : (c.setRead env id).visited.length = env.types.length := by
      simp only [CT.setRead]; split
      · exact h
      · split
        · exact h
        · simpa using h
    have h2 : ∀ ty, ((c.setRead env id).canBeRead env ty).visited.length = env.types.length := by
      intro ty; simp only [CT.canBeRead]; split
      · exact h1
      · split <;> exact h1
    split at hf
    · simp only [Option.some.injEq, Prod.mk.injEq] at hf
      rw [← hf.1]; exact h1
    · split at hf
      · simp only [Option.some.injEq, Prod.mk.injEq] at hf
        rw [← hf.1]; exact h2 _
      · split at hf
        · exact absurd hf (by simp)
        · split at hf
          · exact absurd hf (by simp)
          · simp only [Option.some.injEq, Prod.mk.injEq] at hf
            rw [← hf.1]
            split
            · exact h2 _
            · exact h2 _
  err c h := h

theorem accepted_views {env : CTEnv} {fmt : List Nat} {c : CT} (h : compileCheck env fmt = some c) (he : c.err = false)
    {i : Nat} {ty : ArgTy} (hty : env.types[i]? = some ty)
    (hv : ty = .narrowStringView ∨ ty = .wideStringView ∨ ty = .narrowRegex ∨ ty = .wideRegex) :
    env.contiguous = true ∧ env.borrowed = true := by
  simp only [compileCheck, Option.map_eq_some_iff] at h
  obtain ⟨c1, hc1, rfl⟩ := h
  simp only [CT.checkExhausted] at he
  split at he
  · rename_i hall
    have hlen := parseLoop_inv (visited_length_preserved env) _ _ _ _ (by simp) hc1
    have hi : i < env.types.length := by
      rcases Nat.lt_or_ge i env.types.length with h | h
      · exact h
      · rw [List.getElem?_eq_none_iff.2 h] at hty; cases hty
    rw [← parseLoop_guarded] at hc1
    have := parseLoop_inv (views_preserved env) _ _ _ _ (by
      intro _ i ty hx
      exfalso
      revert hx
      simp [List.getD_eq_getElem?_getD, List.getElem?_replicate]
      split <;> simp) hc1
    refine this he i ty ?_ hty hv
    rw [List.getD_eq_getElem?_getD, List.getElem?_eq_getElem (by omega)]
    exact (List.all_eq_true.1 hall) _ (List.getElem_mem _)
  · simp [CT.onError] at he

end Scn
