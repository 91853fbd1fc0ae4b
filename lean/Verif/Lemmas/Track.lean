import Verif.Lemmas.Follow
import Verif.Lemmas.SpecRound
import Verif.Lemmas.Defined
/-
A format string accepted by one handler: the other handler is well-defined on it. Applied to the compile-time checker and
the run-time handler.
-/
namespace Scn
open Spec
variable {V : Type} {σ τ : Type}

theorem unlessEnd_mono {r r' : Option (Setter × List Nat)} {k k' : Setter → List Nat → Option (Setter × List Nat)} {x : Setter × List Nat}
    (hr : ∀ y, r = some y → r' = some y) (hk : ∀ st s y, k st s = some y → k' st s = some y) (h : unlessEnd r k = some x) :
    unlessEnd r' k' = some x := by
  cases r with
  | none => cases h
  | some y =>
    rw [hr y rfl]
    obtain ⟨st, s⟩ := y
    cases s with
    | nil => exact h
    | cons c cs => exact hk _ _ _ h

/-- If a specification is parsed for a type, it ends inside the format string. -/
theorem parseSpecs_within {cfg : RegexCfg} {e : Enc} {ty : ArgTy} {st st' : Setter} {s p : List Nat}
    (h : parseSpecs cfg e ty st s = some (st', p)) : p <:+ s := by
  by_cases hc : ty.category = none
  · have h' : parseSpecs cfg e .int st s = some (st', p) := by
      rw [parseSpecs_long] at h ⊢
      unfold parseSpecsLong at h ⊢
      refine unlessEnd_mono (fun _ h => h) (fun st s x hx => ?_) h
      refine unlessEnd_mono (fun _ h => h) (fun st s x hx => ?_) hx
      refine unlessEnd_mono (fun _ h => h) (fun st s x hx => ?_) hx
      refine unlessEnd_mono (fun _ h => h) (fun st s x hx => ?_) hx
      refine unlessEnd_mono (fun y hy => ?_) (fun st s x hx => hx) hx
      cases s with
      | nil => exact hy
      | cons c cs =>
        by_cases h76 : c = 76
        · subst h76
          have hno : st.onLocalized ty = none := by unfold Setter.onLocalized; rw [hc]
          have : locStage ty st (76 :: cs) = none := by
            show (st.onLocalized ty).map _ = none
            rw [hno]; rfl
          rw [this] at hy; cases hy
        · rw [locStage_skip _ _ _ _ h76] at hy ⊢
          exact hy
    obtain ⟨a, q, h1, h2⟩ := parseSpecs_steps cfg e .int st s (Or.inl (by decide))
    rw [h'] at h1
    cases h1
    exact h2
  · obtain ⟨a, q, h1, h2⟩ := parseSpecs_steps cfg e ty st s (Or.inl hc)
    rw [h] at h1
    cases h1
    exact h2

/-- Callback-wise conditions for `K` to be well-defined where `H` accepts, with units of encoding `e`. -/
structure Track (e : Enc) (H : Handler σ) (K : Handler τ) (R : σ → τ → Prop) : Prop where
  stickyH : Preserved H (fun a => H.hasError a = true)
  errH : ∀ a, H.hasError (H.onError a) = true
  lit : ∀ a b t a', UnitsOk e t → R a b → H.onLiteral a t = some a' → H.hasError a' = false → ∃ b', K.onLiteral b t = some b' ∧ R a' b'
  auto : ∀ a b, R a b → H.hasError (H.onAutoId a).1 = false →
    R (H.onAutoId a).1 (K.onAutoId b).1 ∧ (H.onAutoId a).2 = (K.onAutoId b).2
  man : ∀ a b id, R a b → H.hasError (H.onManualId a id).1 = false →
    R (H.onManualId a id).1 (K.onManualId b id).1 ∧ (H.onManualId a id).2 = (K.onManualId b id).2
  field : ∀ a b id pos a', R a b → H.onField a id pos = some a' → H.hasError a' = false → ∃ b', K.onField b id pos = some b' ∧ R a' b'
  specs : ∀ a b id pos a' p, pos ≠ [] → R a b → H.onSpecs a id pos = some (a', 125 :: p) → H.hasError a' = false →
    p <:+ pos ∧ ∃ b', K.onSpecs b id pos = some (b', 125 :: p) ∧ R a' b'

theorem parseArgId_track {e : Enc} {H : Handler σ} {K : Handler τ} {R : σ → τ → Prop} (L : Track e H K R)
    {a a' : σ} {b : τ} {s p : List Nat} {id : Nat} (hr : R a b)
    (h : parseArgId H a s = some (a', id, p)) (ha : H.hasError a' = false) :
    p <:+ s ∧ ∃ b', parseArgId K b s = some (b', id, p) ∧ R a' b' := by
  unfold parseArgId at h ⊢
  split at h
  · exact absurd h (by simp)
  · rename_i c cs
    dsimp only
    split at h
    · rename_i hc
      rw [if_pos hc]
      simp only [Option.some.injEq, Prod.mk.injEq] at h
      obtain ⟨rfl, rfl, rfl⟩ := h
      obtain ⟨h1, h2⟩ := L.auto a b hr ha
      exact ⟨List.suffix_refl _, _, by rw [← h2], h1⟩
    · rename_i hc
      rw [if_neg hc]
      split at h
      · simp only [Option.some.injEq, Prod.mk.injEq] at h
        rw [← h.1, L.errH] at ha; cases ha
      · rename_i hd
        rw [if_neg hd]
        dsimp only at h ⊢
        have hsuf : (if c ≠ 48 then simpleIntLoop 0 (c :: cs) else ((0 : Int), cs)).2 <:+ c :: cs := by
          split
          · exact simpleIntLoop_suffix _ _
          · exact List.suffix_cons c cs
        generalize (if c ≠ 48 then simpleIntLoop 0 (c :: cs) else ((0 : Int), cs)) = w at h hsuf
        obtain ⟨w1, w2⟩ := w
        cases w2 with
        | nil =>
          simp only [Option.some.injEq, Prod.mk.injEq] at h
          rw [← h.1, L.errH] at ha; cases ha
        | cons d ds =>
          dsimp only at h ⊢
          split at h
          · simp only [Option.some.injEq, Prod.mk.injEq] at h
            rw [← h.1, L.errH] at ha; cases ha
          · rename_i hdd
            rw [if_neg hdd]
            simp only [Option.some.injEq, Prod.mk.injEq] at h
            obtain ⟨rfl, rfl, rfl⟩ := h
            obtain ⟨h1, h2⟩ := L.man a b _ hr ha
            exact ⟨hsuf, _, by rw [← h2], h1⟩

theorem parseField_track {e : Enc} {H : Handler σ} {K : Handler τ} {R : σ → τ → Prop} (L : Track e H K R)
    {a a' : σ} {b : τ} {s p : List Nat} (hr : R a b) (h : parseField H a s = some (a', p)) (ha : H.hasError a' = false) :
    p <:+ s ∧ ∃ b', parseField K b s = some (b', p) ∧ R a' b' := by
  unfold parseField at h
  split at h
  · simp only [Option.some.injEq, Prod.mk.injEq] at h
    rw [← h.1, L.errH] at ha; cases ha
  · simp only [Option.map_eq_some_iff, Prod.mk.injEq] at h
    obtain ⟨a1, h1, rfl, rfl⟩ := h
    have hea : H.hasError (H.onAutoId a).1 = false := by
      cases he : H.hasError (H.onAutoId a).1
      · rfl
      · have := L.stickyH.field _ _ _ _ he h1
        rw [ha] at this; cases this
    obtain ⟨hR, hid⟩ := L.auto a b hr hea
    rw [hid] at h1
    obtain ⟨b', k1, k2⟩ := L.field _ _ _ _ _ hR h1 ha
    refine ⟨List.suffix_cons _ _, b', ?_, k2⟩
    simp only [parseField]
    rw [k1]; rfl
  · simp only [Option.map_eq_some_iff, Prod.mk.injEq] at h
    obtain ⟨a1, h1, rfl, rfl⟩ := h
    obtain ⟨b', k1, k2⟩ := L.lit _ _ _ _ (fun _ c hc => by simp at hc; omega) hr h1 ha
    refine ⟨List.suffix_cons _ _, b', ?_, k2⟩
    simp only [parseField]
    rw [k1]; rfl
  · rename_i n1 n2 n3
    have hk : ∀ b' x p', parseArgId K b s = some (b', x, p') → parseField K b s = (match p' with
        | [] => some (K.onError b', [])
        | 125 :: rest => (K.onField b' x p').map fun st => (st, rest)
        | [58] => some (K.onError b', p')
        | 58 :: q =>
          match K.onSpecs b' x q with
          | none => none
          | some (st, p) =>
            match p with
            | 125 :: rest => some (st, rest)
            | p => some (K.onError st, p)
        | p => some (K.onError b', p)) := by
      intro b' x p' hb
      unfold parseField
      split
      · exact absurd rfl n1
      · exact absurd rfl (n2 _)
      · exact absurd rfl (n3 _)
      · rw [hb]
        rfl
    split at h
    · exact absurd h (by simp)
    · rename_i a1 id q hid
      have hea : H.hasError a1 = false := by
        cases he : H.hasError a1
        · rfl
        · exfalso
          have key : H.hasError a' = true := by
            split at h
            · simp only [Option.some.injEq, Prod.mk.injEq] at h; rw [← h.1]; exact L.errH _
            · simp only [Option.map_eq_some_iff, Prod.mk.injEq] at h
              obtain ⟨a2, h2, rfl, _⟩ := h
              exact L.stickyH.field _ _ _ _ he h2
            · simp only [Option.some.injEq, Prod.mk.injEq] at h; rw [← h.1]; exact L.errH _
            · split at h
              · exact absurd h (by simp)
              · rename_i a2 p2 h2
                have := L.stickyH.specs _ _ _ _ _ he h2
                split at h
                · simp only [Option.some.injEq, Prod.mk.injEq] at h; rw [← h.1]; exact this
                · simp only [Option.some.injEq, Prod.mk.injEq] at h; rw [← h.1]; exact L.errH _
            · simp only [Option.some.injEq, Prod.mk.injEq] at h; rw [← h.1]; exact L.errH _
          rw [ha] at key; cases key
      obtain ⟨hsuf, b1, hb1, hR⟩ := parseArgId_track L hr hid hea
      rw [hk _ _ _ hb1]
      split at h
      · simp only [Option.some.injEq, Prod.mk.injEq] at h
        rw [← h.1, L.errH] at ha; cases ha
      · simp only [Option.map_eq_some_iff, Prod.mk.injEq] at h
        obtain ⟨a2, h2, rfl, rfl⟩ := h
        obtain ⟨b2, k1, k2⟩ := L.field _ _ _ _ _ hR h2 ha
        refine ⟨(List.suffix_cons _ _).trans hsuf, b2, ?_, k2⟩
        rw [k1]; rfl
      · simp only [Option.some.injEq, Prod.mk.injEq] at h
        rw [← h.1, L.errH] at ha; cases ha
      · rename_i w hw
        split at h
        · exact absurd h (by simp)
        · rename_i a2 p2 h2
          split at h
          · rename_i rest
            simp only [Option.some.injEq, Prod.mk.injEq] at h
            obtain ⟨rfl, rfl⟩ := h
            obtain ⟨hs2, b2, k1, k2⟩ := L.specs _ _ _ _ _ _ hw hR h2 ha
            refine ⟨hs2.trans ((List.suffix_cons _ _).trans hsuf), b2, ?_, k2⟩
            cases w with
            | nil => exact absurd rfl hw
            | cons x xs =>
              show (match K.onSpecs b1 id (x :: xs) with
                | none => none
                | some (st, p) =>
                  match p with
                  | 125 :: rest => some (st, rest)
                  | p => some (K.onError st, p)) = _
              rw [k1]
              rfl
          · simp only [Option.some.injEq, Prod.mk.injEq] at h
            rw [← h.1, L.errH] at ha; cases ha
      · simp only [Option.some.injEq, Prod.mk.injEq] at h
        rw [← h.1, L.errH] at ha; cases ha

theorem parseLoop_track {e : Enc} {H : Handler σ} {K : Handler τ} {R : σ → τ → Prop} (L : Track e H K R) :
    ∀ (n : Nat) (a a' : σ) (b : τ) (s : List Nat), UnitsOk e s → R a b → parseLoop H n a s = some a' → H.hasError a' = false →
      ∃ b', parseLoop K n b s = some b' := by
  intro n
  induction n with
  | zero => intro a a' b s _ _ h; simp [parseLoop] at h
  | succ n ih =>
    intro a a' b s hu hr h ha
    have hdrop : ∀ x xs, s.dropWhile (fun c => ! isBrace c) = x :: xs → xs <:+ s := fun x xs hx =>
      (List.suffix_cons x xs).trans (hx ▸ List.dropWhile_suffix _)
    unfold parseLoop at h ⊢
    dsimp only at h ⊢
    split at h
    · obtain ⟨b', k, _⟩ := L.lit _ _ _ _ (takeWhile_units hu _) hr h ha
      exact ⟨b', k⟩
    · rename_i c cs hd
      have hcs := hdrop c cs hd
      split at h
      · rename_i hc
        rw [if_pos hc]
        split at h
        · exact absurd h (by simp)
        · rename_i a1 h1
          split at h
          · exact absurd h (by simp)
          · rename_i a2 s2 h2
            have hea2 : H.hasError a2 = false := by
              cases he : H.hasError a2
              · rfl
              · rw [he] at h; simp at h; rw [h, ha] at he; cases he
            have hea1 : H.hasError a1 = false := by
              cases he : H.hasError a1
              · rfl
              · have := parseField_inv L.stickyH he h2; rw [hea2] at this; cases this
            rw [hea2] at h
            obtain ⟨b1, k1, r1⟩ := L.lit _ _ _ _ (takeWhile_units hu _) hr h1 hea1
            obtain ⟨hs2, b2, k2, r2⟩ := parseField_track L r1 h2 hea2
            rw [k1]
            dsimp only
            rw [k2]
            dsimp only
            split
            · exact ⟨_, rfl⟩
            · exact ih _ _ _ _ (hu.suffix (hs2.trans hcs)) r2 h ha
      · rename_i hc
        rw [if_neg hc]
        split at h
        · rename_i rest
          split at h
          · exact absurd h (by simp)
          · rename_i a1 h1
            have hea1 : H.hasError a1 = false := by
              cases he : H.hasError a1
              · rfl
              · have := parseLoop_inv L.stickyH _ _ _ _ he h; rw [ha] at this; cases this
            obtain ⟨b1, k1, r1⟩ := L.lit _ _ _ _ (fun he x hx => by
              rcases List.mem_append.1 hx with hx | hx
              · exact takeWhile_units hu _ he x hx
              · simp at hx; omega) hr h1 hea1
            rw [k1]
            exact ih _ _ _ _ (hu.suffix ((List.suffix_cons _ _).trans hcs)) r1 h ha
        · simp only [Option.some.injEq] at h
          rw [← h, L.errH] at ha; cases ha

/-! ### The checker and the handler -/

/-- What the driver relies on if the format string was checked: as `EnvOk`, but only for specifications that the check
    accepts for their argument. -/
structure CheckedOk (env : Env V) (U : List Nat → Prop) : Prop where
  down : ∀ s t, U s → t <:+ s → U t
  skip : ∀ s, U s → ∃ s', env.skip s = some s' ∧ s' <:+ s
  dflt : ∀ id s, id < env.count → U s → Sound (env.readDefault id s) s
  specs : ∀ id pos setter p s, id < env.count → parseSpecs env.cfg env.enc (env.ty id) ⟨{}, false⟩ pos = some (setter, p) →
    setter.err = false → compileTypeCheck (env.ty id) setter.specs = some true → U s → Sound (env.readSpecs id setter.specs s) s

/-- Checker and handler agree on the arguments; the handler may have met a failure. -/
def Level (U : List Nat → Prop) (count : Nat) (c : CT) (r : FH V) : Prop :=
  c.nextId = r.nextId ∧ U r.src ∧ c.visited.length = count ∧ ∀ i, r.lower.testBit i = c.visited.getD i false

theorem level_enter {env : Env V} {U : List Nat → Prop} (hc : env.count < 64) {c : CT} {r : FH V} {id : Nat} (h : Level U env.count c r)
    (hid : id < env.count) (hv : c.visited.getD id false = false) :
    ∃ r1, r.enter env id = some r1 ∧ Level U env.count { c with visited := c.visited.set id true } r1 := by
  obtain ⟨r1, h1, _⟩ := enter_total hc r id
  refine ⟨r1, h1, ?_⟩
  rcases enter_cases hc h1 with ⟨hi, rfl⟩ | ⟨hi, hb, rfl⟩ | ⟨hi, hb, rfl⟩
  · omega
  · rw [h.2.2.2 id, hv] at hb; cases hb
  · refine ⟨h.1, h.2.1, by rw [List.length_set]; exact h.2.2.1, ?_⟩
    intro i
    simp only [testBit_or_shift, h.2.2.2 i]
    by_cases hi2 : id = i
    · subst hi2
      have hlen : id < c.visited.length := by rw [h.2.2.1]; exact hi
      simp [List.getD_eq_getElem?_getD, hlen]
    · simp [List.getD_eq_getElem?_getD, hi2]

theorem level_visit {env : Env V} {U : List Nat → Prop} (hdown : ∀ s t, U s → t <:+ s → U t) {c : CT} {r : FH V} {id : Nat} {res : Res (V × List Nat)}
    (h : Level U env.count c r) (hres : Sound res r.src) :
    ∃ r', r.onVisit id res = some r' ∧ Level U env.count c r' ∧ r'.fmtPos = r.fmtPos := by
  unfold FH.onVisit
  cases hr : res with
  | ub => exact absurd hr hres.1
  | err x => exact ⟨_, rfl, h, rfl⟩
  | ok v =>
    obtain ⟨v, q⟩ := v
    exact ⟨_, rfl, ⟨h.1, hdown _ _ h.2.1 (hres.2 v q hr), h.2.2.1, h.2.2.2⟩, rfl⟩

theorem check_run_track {cenv : CTEnv} {env : Env V} {U : List Nat → Prop} (hs : SameCall cenv env) (hc : env.count < 64) (ho : CheckedOk env U) :
    Track env.enc (compileHandler cenv) (runHandler env) (Level U env.count) where
  stickyH := ct_sticky cenv
  errH _ := rfl
  lit c r t c' hu h hl ha := by
    simp only [compileHandler, CT.onLiteral, Option.map_eq_some_iff] at hl
    obtain ⟨b, _, rfl⟩ := hl
    have hb : b = true := by
      cases b
      · simp [compileHandler, CT.onError] at ha
      · rfl
    subst hb
    obtain ⟨q, f, hlit, hq⟩ := litLoop_total env U ho.down ho.skip t.length r.src t h.2.1 hu (Nat.le_refl _)
    show ∃ b', FH.onLiteral env r t = some b' ∧ _
    unfold FH.onLiteral
    rw [hlit]
    cases f <;> exact ⟨_, rfl, h.1, ho.down _ _ h.2.1 hq, h.2.2.1, h.2.2.2⟩
  auto c r h ha := by
    simp only [compileHandler, runHandler, FH.autoId, CT.onAutoId, nextArgId] at ha ⊢
    rw [h.1] at ha ⊢
    split at ha
    · simp [CT.onError] at ha
    · rename_i hn
      rw [if_neg hn, if_neg hn]
      refine ⟨⟨?_, h.2.1, ?_, ?_⟩, rfl⟩
      · split <;> rfl
      · split <;> exact h.2.2.1
      · split <;> exact h.2.2.2
  man c r id h ha := by
    simp only [compileHandler, runHandler, FH.manualId, CT.onManualId, checkArgId] at ha ⊢
    rw [h.1] at ha ⊢
    split at ha
    · simp [CT.onError] at ha
    · rename_i hid
      by_cases hn : r.nextId > 0
      · rw [if_pos hn] at ha; simp [CT.onError] at ha
      · rw [if_neg hid, if_neg hn, if_neg hn]
        exact ⟨⟨rfl, h.2.1, h.2.2.1, h.2.2.2⟩, trivial⟩
  field c r id pos c' h hf ha := by
    simp only [compileHandler, Option.some.injEq, CT.onField] at hf
    have hset : (c.setRead cenv id).err = false := by
      cases he : (c.setRead cenv id).err
      · rfl
      · exfalso
        have : c'.err = true := by
          rw [← hf]
          split
          · exact he
          · split
            · rfl
            · exact ct_sticky.ct_canBeRead_err cenv _ _ he
        simp only [compileHandler] at ha
        rw [this] at ha; cases ha
    obtain ⟨hid, hv, heq⟩ := ct_setRead_ok hset
    rw [hs.count] at hid
    have hc' : c' = { c with visited := c.visited.set id true } := by
      rw [hs.ty id, if_pos hid] at hf
      dsimp only at hf
      split at hf
      · rw [← hf] at ha; simp [compileHandler, CT.onError] at ha
      · rw [← hf] at ha ⊢
        rw [ct_canBeRead_ok ha, heq]
    subst hc'
    obtain ⟨r1, h1, hA⟩ := level_enter hc h hid hv
    show ∃ b', FH.onField env r id = some b' ∧ _
    unfold FH.onField
    rw [h1]
    dsimp only
    split
    · obtain ⟨r2, k1, k2, _⟩ := level_visit (env := env) (id := id) ho.down hA (ho.dflt id r1.src hid hA.2.1)
      exact ⟨r2, k1, k2⟩
    · exact ⟨r1, rfl, hA⟩
  specs c r id pos c' p hpos h hf ha := by
    simp only [compileHandler, CT.onSpecs] at hf
    have hset : (c.setRead cenv id).err = false := by
      cases he : (c.setRead cenv id).err
      · rfl
      · exfalso
        have : c'.err = true := by
          split at hf
          · simp at hf; rw [← hf.1]; exact he
          · have hcb := fun ty => ct_sticky.ct_canBeRead_err cenv _ ty he
            split at hf
            · simp at hf; rw [← hf.1]; exact hcb _
            · split at hf
              · exact absurd hf (by simp)
              · split at hf
                · exact absurd hf (by simp)
                · simp only [Option.some.injEq, Prod.mk.injEq] at hf
                  rw [← hf.1]
                  split
                  · rfl
                  · exact hcb _
        simp only [compileHandler] at ha
        rw [this] at ha; cases ha
    obtain ⟨hid, hv, heq⟩ := ct_setRead_ok hset
    rw [hs.count] at hid
    rw [hs.ty id, if_pos hid] at hf
    dsimp only at hf
    rw [if_neg hpos] at hf
    split at hf
    · exact absurd hf (by simp)
    · rename_i setter p1 hps
      split at hf
      · exact absurd hf (by simp)
      · rename_i ok hct
        simp only [Option.some.injEq, Prod.mk.injEq] at hf
        obtain ⟨hf, rfl⟩ := hf
        have hserr : setter.err = false := by
          cases hse : setter.err
          · rfl
          · rw [← hf] at ha; simp [hse, CT.onError, compileHandler] at ha
        have hokt : ok = true := by
          cases hse : ok
          · rw [← hf] at ha; simp [hse, CT.onError, compileHandler] at ha
          · rfl
        have hc' : c' = { c with visited := c.visited.set id true } := by
          split at hf
          · rw [← hf] at ha; simp [compileHandler, CT.onError] at ha
          · rw [← hf] at ha ⊢
            rw [ct_canBeRead_ok ha, heq]
        subst hc'
        have hty : env.argTy id = env.ty id := by simp [Env.argTy, hid]
        have hcust : env.argTy id ≠ .custom := by
          intro h0; rw [hty] at h0; rw [h0] at hct; simp [compileTypeCheck] at hct
        refine ⟨cons_suffix (parseSpecs_within hps), ?_⟩
        obtain ⟨r1, h1, hA⟩ := level_enter hc h hid hv
        rw [hs.cfg, hs.enc] at hps
        show ∃ b', FH.onSpecs env r id pos = some (b', 125 :: p) ∧ _
        unfold FH.onSpecs
        rw [h1]
        dsimp only
        rw [if_neg hcust, hty, hps]
        simp only [hserr, Bool.false_eq_true, if_false]
        by_cases hcv : ({ r1 with fmtPos := 125 :: p } : FH V).canVisit env id = true
        · rw [if_pos hcv]
          obtain ⟨r2, k1, k2, k3⟩ := level_visit (env := env) (r := { r1 with fmtPos := 125 :: p }) (id := id) ho.down hA
            (ho.specs id pos setter _ r1.src hid hps hserr (by rw [hct, hokt]) hA.2.1)
          refine ⟨r2, ?_, k2⟩
          simp only [k1, Option.map_some]
          rw [k3]
        · rw [if_neg hcv]
          exact ⟨_, rfl, hA⟩

/-- A format string that the compile-time check accepts is well-defined. -/
theorem checked_total {cenv : CTEnv} {env : Env V} {U : List Nat → Prop} (hs : SameCall cenv env) (hc : env.count < 64) (ho : CheckedOk env U)
    {fmt src : List Nat} {c : CT} (hacc : compileCheck cenv fmt = some c) (hok : c.err = false) (hu : UnitsOk env.enc fmt) (hU : U src) :
    ∃ r, vscan env fmt src = some r := by
  unfold vscan
  split
  · unfold scanSimple
    rename_i h1
    split
    · rename_i h; exact absurd h (ho.dflt 0 src (by omega) hU).1
    · exact ⟨_, rfl⟩
    · exact ⟨_, rfl⟩
  · simp only [compileCheck, Option.map_eq_some_iff] at hacc
    obtain ⟨c1, hc1, rfl⟩ := hacc
    have hall : c1.err = false := by
      simp only [CT.checkExhausted] at hok
      split at hok
      · exact hok
      · simp [CT.onError] at hok
    have hrep : ∀ i, (List.replicate env.count false).getD i false = false := by
      intro i
      by_cases hi : i < env.count <;> simp [List.getD_eq_getElem?_getD, hi]
    rw [hs.count] at hc1
    obtain ⟨st, hst⟩ := parseLoop_track (check_run_track hs hc ho) _ _ _ (FH.init env.count fmt src) fmt hu
      ⟨rfl, hU, by simp, by intro i; rw [hrep i]; simp [FH.init]⟩ hc1 hall
    unfold vscanGeneral
    rw [hst]
    dsimp only
    rw [checkExhausted_cases hc]
    exact ⟨_, rfl⟩

end Scn
