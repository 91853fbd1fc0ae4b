import Verif.Lemmas.VScan2
/-
Two handlers driven by the same format string stay in step as long as neither reports an error;
applied to the compile-time checker and the run-time handler.
-/
namespace Scn
open Spec
variable {V : Type} {σ τ : Type}

/-- Callback-wise conditions for two handlers to stay in step. -/
structure Lockstep (H : Handler σ) (K : Handler τ) (R : σ → τ → Prop) : Prop where
  stickyH : Preserved H (fun a => H.hasError a = true)
  stickyK : Preserved K (fun b => K.hasError b = true)
  errH : ∀ a, H.hasError (H.onError a) = true
  lit : ∀ a b t a' b', R a b → H.onLiteral a t = some a' → K.onLiteral b t = some b' →
    H.hasError a' = false → K.hasError b' = false → R a' b'
  auto : ∀ a b, R a b → H.hasError (H.onAutoId a).1 = false → K.hasError (K.onAutoId b).1 = false →
    R (H.onAutoId a).1 (K.onAutoId b).1 ∧ (H.onAutoId a).2 = (K.onAutoId b).2
  man : ∀ a b id, R a b → H.hasError (H.onManualId a id).1 = false → K.hasError (K.onManualId b id).1 = false →
    R (H.onManualId a id).1 (K.onManualId b id).1 ∧ (H.onManualId a id).2 = (K.onManualId b id).2
  field : ∀ a b id pos a' b', R a b → H.onField a id pos = some a' → K.onField b id pos = some b' →
    H.hasError a' = false → K.hasError b' = false → R a' b'
  specs : ∀ a b id pos a' b' p q, pos ≠ [] → R a b → H.onSpecs a id pos = some (a', 125 :: p) →
    K.onSpecs b id pos = some (b', q) →
    H.hasError a' = false → K.hasError b' = false → R a' b' ∧ q = 125 :: p

theorem not_true_of {b : Bool} (h : b = false) : ¬ b = true := by simp [h]

theorem parseArgId_step {H : Handler σ} {K : Handler τ} {R : σ → τ → Prop} (L : Lockstep H K R)
    {a a' : σ} {b b' : τ} {s p p' : List Nat} {id id' : Nat} (hr : R a b)
    (h : parseArgId H a s = some (a', id, p)) (k : parseArgId K b s = some (b', id', p'))
    (ha : H.hasError a' = false) (hb : K.hasError b' = false) : R a' b' ∧ id = id' ∧ p = p' := by
  unfold parseArgId at h k
  split at h
  · exact absurd h (by simp)
  · rename_i c cs
    dsimp only at k
    split at h
    · rename_i hc
      rw [if_pos hc] at k
      simp only [Option.some.injEq, Prod.mk.injEq] at h k
      obtain ⟨rfl, rfl, rfl⟩ := h
      obtain ⟨rfl, rfl, rfl⟩ := k
      obtain ⟨h1, h2⟩ := L.auto a b hr ha hb
      exact ⟨h1, h2, rfl⟩
    · rename_i hc
      rw [if_neg hc] at k
      split at h
      · simp only [Option.some.injEq, Prod.mk.injEq] at h
        rw [← h.1, L.errH] at ha; cases ha
      · rename_i hd
        rw [if_neg hd] at k
        dsimp only at h k
        generalize (if c ≠ 48 then simpleIntLoop 0 (c :: cs) else ((0 : Int), cs)) = w at h k
        obtain ⟨w1, w2⟩ := w
        cases w2 with
        | nil =>
          simp only [Option.some.injEq, Prod.mk.injEq] at h
          rw [← h.1, L.errH] at ha; cases ha
        | cons d ds =>
          dsimp only at h k
          split at h
          · simp only [Option.some.injEq, Prod.mk.injEq] at h
            rw [← h.1, L.errH] at ha; cases ha
          · rename_i hdd
            rw [if_neg hdd] at k
            simp only [Option.some.injEq, Prod.mk.injEq] at h k
            obtain ⟨rfl, rfl, rfl⟩ := h
            obtain ⟨rfl, rfl, rfl⟩ := k
            obtain ⟨h1, h2⟩ := L.man a b _ hr ha hb
            exact ⟨h1, h2, rfl⟩

theorem parseField_step {H : Handler σ} {K : Handler τ} {R : σ → τ → Prop} (L : Lockstep H K R)
    {a a' : σ} {b b' : τ} {s p p' : List Nat} (hr : R a b)
    (h : parseField H a s = some (a', p)) (k : parseField K b s = some (b', p'))
    (ha : H.hasError a' = false) (hb : K.hasError b' = false) : R a' b' ∧ p = p' := by
  unfold parseField at h
  split at h
  · simp only [Option.some.injEq, Prod.mk.injEq] at h
    rw [← h.1, L.errH] at ha; cases ha
  · simp only [parseField, Option.map_eq_some_iff, Prod.mk.injEq] at h k
    obtain ⟨a1, h1, rfl, rfl⟩ := h
    obtain ⟨b1, k1, rfl, rfl⟩ := k
    have hea : H.hasError (H.onAutoId a).1 = false := by
      cases he : H.hasError (H.onAutoId a).1
      · rfl
      · have := L.stickyH.field _ _ _ _ he h1
        rw [ha] at this; cases this
    have heb : K.hasError (K.onAutoId b).1 = false := by
      cases he : K.hasError (K.onAutoId b).1
      · rfl
      · have := L.stickyK.field _ _ _ _ he k1
        rw [hb] at this; cases this
    obtain ⟨hR, hid⟩ := L.auto a b hr hea heb
    rw [hid] at h1
    exact ⟨L.field _ _ _ _ _ _ hR h1 k1 ha hb, rfl⟩
  · simp only [parseField, Option.map_eq_some_iff, Prod.mk.injEq] at h k
    obtain ⟨a1, h1, rfl, rfl⟩ := h
    obtain ⟨b1, k1, rfl, rfl⟩ := k
    exact ⟨L.lit _ _ _ _ _ hr h1 k1 ha hb, rfl⟩
  · rename_i n1 n2 n3
    unfold parseField at k
    split at k
    · exact absurd rfl n1
    · exact absurd rfl (n2 _)
    · exact absurd rfl (n3 _)
    · split at h
      · exact absurd h (by simp)
      · rename_i a1 id q hid
        split at k
        · exact absurd k (by simp)
        · rename_i b1 id' q' hid'
          -- no error yet on either side
          have hea : H.hasError a1 = false := by
            cases he : H.hasError a1
            · rfl
            · exfalso
              have key : H.hasError a' = true := by
                split at h
                · simp only [Option.some.injEq, Prod.mk.injEq] at h; rw [← h.1]; exact L.errH _
                · simp only [Option.map_eq_some_iff, Prod.mk.injEq] at h
                  obtain ⟨a2, h2, rfl, _⟩ := h
                  exact L.stickyH.field _ _ _ _ he h2
                · simp only [Option.some.injEq, Prod.mk.injEq] at h; rw [← h.1]; exact L.errH _
                · split at h
                  · exact absurd h (by simp)
                  · rename_i a2 p2 h2
                    have := L.stickyH.specs _ _ _ _ _ he h2
                    split at h
                    · simp only [Option.some.injEq, Prod.mk.injEq] at h; rw [← h.1]; exact this
                    · simp only [Option.some.injEq, Prod.mk.injEq] at h; rw [← h.1]; exact L.errH _
                · simp only [Option.some.injEq, Prod.mk.injEq] at h; rw [← h.1]; exact L.errH _
              rw [ha] at key; cases key
          have heb : K.hasError b1 = false := by
            cases he : K.hasError b1
            · rfl
            · exfalso
              have key : K.hasError b' = true := by
                split at k
                · simp only [Option.some.injEq, Prod.mk.injEq] at k; rw [← k.1]
                  exact L.stickyK.err _ he
                · simp only [Option.map_eq_some_iff, Prod.mk.injEq] at k
                  obtain ⟨a2, h2, rfl, _⟩ := k
                  exact L.stickyK.field _ _ _ _ he h2
                · simp only [Option.some.injEq, Prod.mk.injEq] at k; rw [← k.1]
                  exact L.stickyK.err _ he
                · split at k
                  · exact absurd k (by simp)
                  · rename_i a2 p2 h2
                    have := L.stickyK.specs _ _ _ _ _ he h2
                    split at k
                    · simp only [Option.some.injEq, Prod.mk.injEq] at k; rw [← k.1]; exact this
                    · simp only [Option.some.injEq, Prod.mk.injEq] at k; rw [← k.1]
                      exact L.stickyK.err _ this
                · simp only [Option.some.injEq, Prod.mk.injEq] at k; rw [← k.1]
                  exact L.stickyK.err _ he
              rw [hb] at key; cases key
          obtain ⟨hR, rfl, rfl⟩ := parseArgId_step L hr hid hid' hea heb
          split at h
          · simp only [Option.some.injEq, Prod.mk.injEq] at h
            rw [← h.1, L.errH] at ha; cases ha
          · simp only [Option.map_eq_some_iff, Prod.mk.injEq] at h k
            obtain ⟨a2, h2, rfl, rfl⟩ := h
            obtain ⟨b2, k2, rfl, rfl⟩ := k
            exact ⟨L.field _ _ _ _ _ _ hR h2 k2 ha hb, rfl⟩
          · simp only [Option.some.injEq, Prod.mk.injEq] at h
            rw [← h.1, L.errH] at ha; cases ha
          · rename_i w hw
            split at h
            · exact absurd h (by simp)
            · rename_i a2 p2 h2
              split at h
              · rename_i rest
                simp only [Option.some.injEq, Prod.mk.injEq] at h
                obtain ⟨rfl, rfl⟩ := h
                split at k
                · rename_i h0; simp at h0
                · rename_i h0; simp at h0
                · rename_i h0; simp at h0; exact absurd h0 hw
                · rename_i w' _ h0
                  simp at h0
                  subst h0
                  split at k
                  · exact absurd k (by simp)
                  · rename_i b2 q2 k2
                    have heb2 : K.hasError b2 = false := by
                      cases he : K.hasError b2
                      · rfl
                      · exfalso
                        have key : K.hasError b' = true := by
                          split at k
                          · simp only [Option.some.injEq, Prod.mk.injEq] at k; rw [← k.1]; exact he
                          · simp only [Option.some.injEq, Prod.mk.injEq] at k; rw [← k.1]
                            exact L.stickyK.err _ he
                        rw [hb] at key; cases key
                    obtain ⟨hR2, rfl⟩ := L.specs _ _ _ _ _ _ _ _ hw hR h2 k2 ha heb2
                    simp only [Option.some.injEq, Prod.mk.injEq] at k
                    obtain ⟨rfl, rfl⟩ := k
                    exact ⟨hR2, rfl⟩
                · rename_i h0 h1 h2 h3
                  exact absurd rfl (h3 _)
              · simp only [Option.some.injEq, Prod.mk.injEq] at h
                rw [← h.1, L.errH] at ha; cases ha
          · simp only [Option.some.injEq, Prod.mk.injEq] at h
            rw [← h.1, L.errH] at ha; cases ha

theorem parseLoop_step {H : Handler σ} {K : Handler τ} {R : σ → τ → Prop} (L : Lockstep H K R) :
    ∀ (n m : Nat) (a a' : σ) (b b' : τ) (s : List Nat), R a b → parseLoop H n a s = some a' →
      parseLoop K m b s = some b' → H.hasError a' = false → K.hasError b' = false → R a' b' := by
  intro n
  induction n with
  | zero => intro m a a' b b' s _ h; simp [parseLoop] at h
  | succ n ih =>
    intro m a a' b b' s hr h k ha hb
    cases m with
    | zero => simp [parseLoop] at k
    | succ m =>
    unfold parseLoop at h k
    dsimp only at h k
    split at h
    · rename_i hd
      rw [hd] at k
      exact L.lit _ _ _ _ _ hr h k ha hb
    · rename_i c cs hd
      rw [hd] at k
      dsimp only at k
      split at h
      · rename_i hc
        rw [if_pos hc] at k
        split at h
        · exact absurd h (by simp)
        · rename_i a1 h1
          split at k
          · exact absurd k (by simp)
          · rename_i b1 k1
            split at h
            · exact absurd h (by simp)
            · rename_i a2 s2 h2
              split at k
              · exact absurd k (by simp)
              · rename_i b2 s2' k2
                have hea2 : H.hasError a2 = false := by
                  cases he : H.hasError a2
                  · rfl
                  · rw [he] at h; simp at h; rw [h, ha] at he; cases he
                have heb2 : K.hasError b2 = false := by
                  cases he : K.hasError b2
                  · rfl
                  · rw [he] at k; simp at k; rw [k, hb] at he; cases he
                have hea1 : H.hasError a1 = false := by
                  cases he : H.hasError a1
                  · rfl
                  · have := parseField_inv L.stickyH he h2; rw [hea2] at this; cases this
                have heb1 : K.hasError b1 = false := by
                  cases he : K.hasError b1
                  · rfl
                  · have := parseField_inv L.stickyK he k2; rw [heb2] at this; cases this
                have hR1 := L.lit _ _ _ _ _ hr h1 k1 hea1 heb1
                obtain ⟨hR2, rfl⟩ := parseField_step L hR1 h2 k2 hea2 heb2
                rw [hea2] at h
                rw [heb2] at k
                exact ih _ _ _ _ _ _ hR2 h k ha hb
      · rename_i hc
        rw [if_neg hc] at k
        split at h
        · rename_i rest
          replace k : (match K.onLiteral b (s.takeWhile (fun c => ! isBrace c) ++ [125]) with
            | none => none
            | some st => parseLoop K m st rest) = some b' := k
          split at h
          · exact absurd h (by simp)
          · rename_i a1 h1
            split at k
            · exact absurd k (by simp)
            · rename_i b1 k1
              have hea1 : H.hasError a1 = false := by
                cases he : H.hasError a1
                · rfl
                · have := parseLoop_inv L.stickyH _ _ _ _ he h; rw [ha] at this; cases this
              have heb1 : K.hasError b1 = false := by
                cases he : K.hasError b1
                · rfl
                · have := parseLoop_inv L.stickyK _ _ _ _ he k; rw [hb] at this; cases this
              exact ih _ _ _ _ _ _ (L.lit _ _ _ _ _ hr h1 k1 hea1 heb1) h k ha hb
        · simp only [Option.some.injEq] at h
          rw [← h, L.errH] at ha; cases ha

/-! ### Compile-time checker and run-time handler -/

/-- The scan call described by `env` is the one that was checked as `cenv`. -/
structure SameCall (cenv : CTEnv) (env : Env V) : Prop where
  enc : cenv.enc = env.enc
  cfg : cenv.cfg = env.cfg
  count : cenv.types.length = env.count
  ty : ∀ i, cenv.types[i]? = if i < env.count then some (env.ty i) else none

/-- Checker and handler are in step: same next id, and every argument marked as visited has
    actually been given to its reader. -/
def InStep (c : CT) (r : FH V) : Prop :=
  c.nextId = r.nextId ∧ ∀ i, r.lower.testBit i = true → i ∈ visits r.events

theorem ct_setRead_next (cenv : CTEnv) (c : CT) (id : Nat) : (c.setRead cenv id).nextId = c.nextId := by
  simp only [CT.setRead]
  split
  · rfl
  · split <;> rfl

theorem ct_canBeRead_next (cenv : CTEnv) (c : CT) (ty : ArgTy) : (c.canBeRead cenv ty).nextId = c.nextId := by
  simp only [CT.canBeRead]
  split
  · rfl
  · split <;> rfl

theorem ct_field_next (cenv : CTEnv) (c : CT) (id : Nat) : (c.onField cenv id).nextId = c.nextId := by
  simp only [CT.onField]
  split
  · exact ct_setRead_next _ _ _
  · split
    · show (CT.canBeRead cenv _ _).nextId = _
      rw [ct_canBeRead_next, ct_setRead_next]
    · rw [ct_canBeRead_next, ct_setRead_next]

theorem visits_visit (evs : List (Event V)) (id : Nat) (s : List Nat) (res : Res (V × List Nat)) :
    visits (evs ++ [Event.visit id s res]) = visits evs ++ [id] := by
  rw [visits_append]; rfl

theorem err_sticky' (env : Env V) (hc : env.count < 64) :
    Preserved (runHandler env) (fun st => (runHandler env).hasError st = true) := by
  have : (fun st : FH V => (runHandler env).hasError st = true) = fun st => st.err ≠ none := by
    funext st; simp [runHandler, Option.isSome_iff_ne_none]
  rw [this]; exact err_sticky env hc

theorem check_run_lockstep {cenv : CTEnv} {env : Env V} (hs : SameCall cenv env) (hc : env.count < 64) :
    Lockstep (compileHandler cenv) (runHandler env) InStep where
  stickyH := ct_sticky cenv
  stickyK := err_sticky' env hc
  errH _ := rfl
  lit c r t c' r' h hl kl _ _ := by
    simp only [compileHandler, CT.onLiteral, Option.map_eq_some_iff] at hl
    obtain ⟨b, _, rfl⟩ := hl
    obtain ⟨s, f, _, rfl⟩ := onLiteral_cases kl
    refine ⟨?_, ?_⟩
    · rw [← h.1]; split <;> rfl
    · intro i hi
      rw [visits_literal]; exact h.2 i hi
  auto c r h ha hb := by
    simp only [compileHandler, runHandler, CT.onAutoId, FH.autoId, nextArgId] at ha ⊢
    rw [h.1] at ha ⊢
    split at ha
    · simp [CT.onError] at ha
    · rename_i hn
      rw [if_neg hn, if_neg hn]
      refine ⟨⟨?_, h.2⟩, rfl⟩
      split <;> rfl
  man c r id h ha hb := by
    simp only [compileHandler, runHandler, CT.onManualId, FH.manualId, checkArgId] at ha ⊢
    rw [h.1] at ha ⊢
    refine ⟨⟨?_, h.2⟩, trivial⟩
    split at ha
    · simp [CT.onError] at ha
    · rename_i hid
      by_cases hn : r.nextId > 0
      · rw [if_pos hn] at ha; simp [CT.onError] at ha
      · rw [if_neg hid, if_neg hn, if_neg hn]
  field c r id pos c' r' h hf kf ha hb := by
    simp only [compileHandler, Option.some.injEq] at hf
    have hb' : r'.err = none := by simpa [runHandler] using hb
    obtain ⟨_, _, _, v, q, _, rfl⟩ := onField_ok hc kf hb'
    refine ⟨by rw [← hf, ct_field_next]; exact h.1, ?_⟩
    intro i hi
    simp only [testBit_or_shift, Bool.or_eq_true, decide_eq_true_eq] at hi
    rw [visits_visit]
    rcases hi with hi | rfl
    · exact List.mem_append_left _ (h.2 i hi)
    · simp
  specs c r id pos c' r' p q hpos h hf kf ha hb := by
    have hb' : r'.err = none := by simpa [runHandler] using hb
    simp only [compileHandler, CT.onSpecs, hs.ty id] at hf
    by_cases hid : id < env.count
    · rw [if_pos hid] at hf
      dsimp only at hf
      rw [if_neg hpos] at hf
      split at hf
      · exact absurd hf (by simp)
      · rename_i setter p1 hps
        split at hf
        · exact absurd hf (by simp)
        · rename_i ok hct
          simp only [Option.some.injEq, Prod.mk.injEq] at hf
          obtain ⟨rfl, rfl⟩ := hf
          have hset : setter.err = false := by
            cases hse : setter.err
            · rfl
            · simp [hse, CT.onError, compileHandler] at ha
          have hty : env.argTy id = env.ty id := by simp [Env.argTy, hid]
          have hcust : env.argTy id ≠ .custom := by
            intro h0; rw [hty] at h0; rw [h0] at hct; simp [compileTypeCheck] at hct
          obtain ⟨_, _, _, setter', q', hps', hcase⟩ := onSpecs_ok hc hcust kf hb'
          rw [hty, ← hs.cfg, ← hs.enc, hps] at hps'
          simp only [Option.some.injEq, Prod.mk.injEq, List.cons.injEq, true_and] at hps'
          obtain ⟨rfl, rfl⟩ := hps'
          rcases hcase with ⟨h1, _, _⟩ | ⟨_, rfl, v, q1, _, rfl⟩
          · rw [hset] at h1; cases h1
          · refine ⟨⟨?_, ?_⟩, rfl⟩
            · have : ∀ (b : Prop) [Decidable b] (x : CT), (if b then x.onError else x).nextId = x.nextId := by
                intro b _ x; split <;> rfl
              rw [this, ct_canBeRead_next, ct_setRead_next]; exact h.1
            · intro i hi
              simp only [testBit_or_shift, Bool.or_eq_true, decide_eq_true_eq] at hi
              rw [visits_visit]
              rcases hi with hi | rfl
              · exact List.mem_append_left _ (h.2 i hi)
              · simp
    · rw [if_neg hid] at hf
      simp only [Option.some.injEq, Prod.mk.injEq] at hf
      have : (c.setRead cenv id).err = true := by
        simp only [CT.setRead]
        rw [if_pos (by rw [hs.count]; omega)]; rfl
      rw [← hf.1] at ha
      simp only [compileHandler] at ha
      rw [this] at ha; cases ha

/-- A format string accepted by the compile-time checker: on success every argument marked as
    visited has been given to its reader. -/
theorem accepted_all_visited {cenv : CTEnv} {env : Env V} (hs : SameCall cenv env) (hc : env.count < 64)
    {fmt src : List Nat} {c : CT} {st : FH V} (hacc : compileCheck cenv fmt = some c) (hok : c.err = false)
    (h : vscanGeneral env fmt src = some st) (he : st.err = none) :
    ∀ i, i < env.count → i ∈ visits st.events := by
  have hl := (general_good hc h).2 he
  unfold vscanGeneral at h
  split at h
  · exact absurd h (by simp)
  · rename_i st1 h1
    rw [checkExhausted_cases hc] at h
    simp only [Option.some.injEq] at h
    have heq : st1 = st := by
      split at h
      · exact h
      · rw [← h] at he; simp at he
    subst heq
    simp only [compileCheck, Option.map_eq_some_iff] at hacc
    obtain ⟨c1, hc1, rfl⟩ := hacc
    have hc1e : c1.err = false := by
      cases hx : c1.err
      · rfl
      · simp only [CT.checkExhausted] at hok
        split at hok
        · rw [hx] at hok; cases hok
        · simp [CT.onError] at hok
    have := parseLoop_step (check_run_lockstep hs hc) _ _ _ _ _ _ fmt
      (show InStep _ (FH.init env.count fmt src) from ⟨rfl, by simp [FH.init]⟩) hc1 h1 hc1e
      (by simp [runHandler, he])
    intro i hi
    apply this.2
    rw [hl, Nat.testBit_two_pow_sub_one]
    simpa using hi

end Scn
