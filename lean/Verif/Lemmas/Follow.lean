import Verif.Lemmas.Driver4
/-
A format string accepted by one handler: the other handler either follows it to the end, or has
met a failure of its own. Applied to the compile-time checker and the run-time handler.
-/
namespace Scn
open Spec
variable {V : Type} {σ τ : Type}

/-- Callback-wise conditions for `K` to follow `H` or fail. -/
structure Follow (H : Handler σ) (K : Handler τ) (R : σ → τ → Prop) (F : τ → Prop) : Prop where
  stickyH : Preserved H (fun a => H.hasError a = true)
  stickyF : Preserved K F
  errH : ∀ a, H.hasError (H.onError a) = true
  ok : ∀ a b, R a b → K.hasError b = false
  lit : ∀ a b t a' b', R a b → H.onLiteral a t = some a' → K.onLiteral b t = some b' →
    H.hasError a' = false → R a' b' ∨ F b'
  auto : ∀ a b, R a b → H.hasError (H.onAutoId a).1 = false →
    R (H.onAutoId a).1 (K.onAutoId b).1 ∧ (H.onAutoId a).2 = (K.onAutoId b).2
  man : ∀ a b id, R a b → H.hasError (H.onManualId a id).1 = false →
    R (H.onManualId a id).1 (K.onManualId b id).1 ∧ (H.onManualId a id).2 = (K.onManualId b id).2
  field : ∀ a b id pos a' b', R a b → H.onField a id pos = some a' → K.onField b id pos = some b' →
    H.hasError a' = false → R a' b' ∨ F b'
  specs : ∀ a b id pos a' b' p q, pos ≠ [] → R a b → H.onSpecs a id pos = some (a', 125 :: p) →
    K.onSpecs b id pos = some (b', q) → H.hasError a' = false → (R a' b' ∧ q = 125 :: p) ∨ F b'

theorem parseArgId_follow {H : Handler σ} {K : Handler τ} {R : σ → τ → Prop} {F : τ → Prop} (L : Follow H K R F)
    {a a' : σ} {b b' : τ} {s p p' : List Nat} {id id' : Nat} (hr : R a b)
    (h : parseArgId H a s = some (a', id, p)) (k : parseArgId K b s = some (b', id', p'))
    (ha : H.hasError a' = false) : R a' b' ∧ id = id' ∧ p = p' := by
  unfold parseArgId at h k
  split at h
  · exact absurd h (by simp)
  · rename_i c cs
    dsimp only at k
    split at h
    · rename_i hc
      rw [if_pos hc] at k
      simp only [Option.some.injEq, Prod.mk.injEq] at h k
      obtain ⟨rfl, rfl, rfl⟩ := h
      obtain ⟨rfl, rfl, rfl⟩ := k
      obtain ⟨h1, h2⟩ := L.auto a b hr ha
      exact ⟨h1, h2, rfl⟩
    · rename_i hc
      rw [if_neg hc] at k
      split at h
      · simp only [Option.some.injEq, Prod.mk.injEq] at h
        rw [← h.1, L.errH] at ha; cases ha
      · rename_i hd
        rw [if_neg hd] at k
        dsimp only at h k
        generalize (if c ≠ 48 then simpleIntLoop 0 (c :: cs) else ((0 : Int), cs)) = w at h k
        obtain ⟨w1, w2⟩ := w
        cases w2 with
        | nil =>
          simp only [Option.some.injEq, Prod.mk.injEq] at h
          rw [← h.1, L.errH] at ha; cases ha
        | cons d ds =>
          dsimp only at h k
          split at h
          · simp only [Option.some.injEq, Prod.mk.injEq] at h
            rw [← h.1, L.errH] at ha; cases ha
          · rename_i hdd
            rw [if_neg hdd] at k
            simp only [Option.some.injEq, Prod.mk.injEq] at h k
            obtain ⟨rfl, rfl, rfl⟩ := h
            obtain ⟨rfl, rfl, rfl⟩ := k
            obtain ⟨h1, h2⟩ := L.man a b _ hr ha
            exact ⟨h1, h2, rfl⟩

theorem parseField_follow {H : Handler σ} {K : Handler τ} {R : σ → τ → Prop} {F : τ → Prop} (L : Follow H K R F)
    {a a' : σ} {b b' : τ} {s p p' : List Nat} (hr : R a b)
    (h : parseField H a s = some (a', p)) (k : parseField K b s = some (b', p'))
    (ha : H.hasError a' = false) : (R a' b' ∧ p = p') ∨ F b' := by
  unfold parseField at h
  split at h
  · simp only [Option.some.injEq, Prod.mk.injEq] at h
    rw [← h.1, L.errH] at ha; cases ha
  · simp only [parseField, Option.map_eq_some_iff, Prod.mk.injEq] at h k
    obtain ⟨a1, h1, rfl, rfl⟩ := h
    obtain ⟨b1, k1, rfl, rfl⟩ := k
    have hea : H.hasError (H.onAutoId a).1 = false := by
      cases he : H.hasError (H.onAutoId a).1
      · rfl
      · have := L.stickyH.field _ _ _ _ he h1
        rw [ha] at this; cases this
    obtain ⟨hR, hid⟩ := L.auto a b hr hea
    rw [hid] at h1
    exact (L.field _ _ _ _ _ _ hR h1 k1 ha).imp (fun h => ⟨h, rfl⟩) id
  · simp only [parseField, Option.map_eq_some_iff, Prod.mk.injEq] at h k
    obtain ⟨a1, h1, rfl, rfl⟩ := h
    obtain ⟨b1, k1, rfl, rfl⟩ := k
    exact (L.lit _ _ _ _ _ hr h1 k1 ha).imp (fun h => ⟨h, rfl⟩) id
  · rename_i n1 n2 n3
    unfold parseField at k
    split at k
    · exact absurd rfl n1
    · exact absurd rfl (n2 _)
    · exact absurd rfl (n3 _)
    · split at h
      · exact absurd h (by simp)
      · rename_i a1 id q hid
        split at k
        · exact absurd k (by simp)
        · rename_i b1 id' q' hid'
          have hea : H.hasError a1 = false := by
            cases he : H.hasError a1
            · rfl
            · exfalso
              have key : H.hasError a' = true := by
                split at h
                · simp only [Option.some.injEq, Prod.mk.injEq] at h; rw [← h.1]; exact L.errH _
                · simp only [Option.map_eq_some_iff, Prod.mk.injEq] at h
                  obtain ⟨a2, h2, rfl, _⟩ := h
                  exact L.stickyH.field _ _ _ _ he h2
                · simp only [Option.some.injEq, Prod.mk.injEq] at h; rw [← h.1]; exact L.errH _
                · split at h
                  · exact absurd h (by simp)
                  · rename_i a2 p2 h2
                    have := L.stickyH.specs _ _ _ _ _ he h2
                    split at h
                    · simp only [Option.some.injEq, Prod.mk.injEq] at h; rw [← h.1]; exact this
                    · simp only [Option.some.injEq, Prod.mk.injEq] at h; rw [← h.1]; exact L.errH _
                · simp only [Option.some.injEq, Prod.mk.injEq] at h; rw [← h.1]; exact L.errH _
              rw [ha] at key; cases key
          obtain ⟨hR, rfl, rfl⟩ := parseArgId_follow L hr hid hid' hea
          split at h
          · simp only [Option.some.injEq, Prod.mk.injEq] at h
            rw [← h.1, L.errH] at ha; cases ha
          · simp only [Option.map_eq_some_iff, Prod.mk.injEq] at h k
            obtain ⟨a2, h2, rfl, rfl⟩ := h
            obtain ⟨b2, k2, rfl, rfl⟩ := k
            exact (L.field _ _ _ _ _ _ hR h2 k2 ha).imp (fun h => ⟨h, rfl⟩) (fun h => h)
          · simp only [Option.some.injEq, Prod.mk.injEq] at h
            rw [← h.1, L.errH] at ha; cases ha
          · rename_i w hw
            split at h
            · exact absurd h (by simp)
            · rename_i a2 p2 h2
              split at h
              · rename_i rest
                simp only [Option.some.injEq, Prod.mk.injEq] at h
                obtain ⟨rfl, rfl⟩ := h
                split at k
                · rename_i h0; simp at h0
                · rename_i h0; simp at h0
                · rename_i h0; simp at h0; exact absurd h0 hw
                · rename_i w' _ h0
                  simp at h0
                  subst h0
                  split at k
                  · exact absurd k (by simp)
                  · rename_i b2 q2 k2
                    rcases L.specs _ _ _ _ _ _ _ _ hw hR h2 k2 ha with ⟨hR2, rfl⟩ | hF
                    · simp only [Option.some.injEq, Prod.mk.injEq] at k
                      obtain ⟨rfl, rfl⟩ := k
                      exact Or.inl ⟨hR2, rfl⟩
                    · right
                      split at k
                      · simp only [Option.some.injEq, Prod.mk.injEq] at k; rw [← k.1]; exact hF
                      · simp only [Option.some.injEq, Prod.mk.injEq] at k; rw [← k.1]
                        exact L.stickyF.err _ hF
                · rename_i h0 h1 h2 h3
                  exact absurd rfl (h3 _)
              · simp only [Option.some.injEq, Prod.mk.injEq] at h
                rw [← h.1, L.errH] at ha; cases ha
          · simp only [Option.some.injEq, Prod.mk.injEq] at h
            rw [← h.1, L.errH] at ha; cases ha

theorem parseLoop_follow {H : Handler σ} {K : Handler τ} {R : σ → τ → Prop} {F : τ → Prop} (L : Follow H K R F) :
    ∀ (n m : Nat) (a a' : σ) (b b' : τ) (s : List Nat), R a b → parseLoop H n a s = some a' →
      parseLoop K m b s = some b' → H.hasError a' = false → R a' b' ∨ F b' := by
  intro n
  induction n with
  | zero => intro m a a' b b' s _ h; simp [parseLoop] at h
  | succ n ih =>
    intro m a a' b b' s hr h k ha
    cases m with
    | zero => simp [parseLoop] at k
    | succ m =>
    unfold parseLoop at h k
    dsimp only at h k
    split at h
    · rename_i hd
      rw [hd] at k
      exact L.lit _ _ _ _ _ hr h k ha
    · rename_i c cs hd
      rw [hd] at k
      dsimp only at k
      split at h
      · rename_i hc
        rw [if_pos hc] at k
        split at h
        · exact absurd h (by simp)
        · rename_i a1 h1
          split at k
          · exact absurd k (by simp)
          · rename_i b1 k1
            split at h
            · exact absurd h (by simp)
            · rename_i a2 s2 h2
              split at k
              · exact absurd k (by simp)
              · rename_i b2 s2' k2
                have hea2 : H.hasError a2 = false := by
                  cases he : H.hasError a2
                  · rfl
                  · rw [he] at h; simp at h; rw [h, ha] at he; cases he
                have hea1 : H.hasError a1 = false := by
                  cases he : H.hasError a1
                  · rfl
                  · have := parseField_inv L.stickyH he h2; rw [hea2] at this; cases this
                rw [hea2] at h
                have failed : F b2 → F b' := by
                  intro hF
                  split at k
                  · simp only [Option.some.injEq] at k; rw [← k]; exact hF
                  · exact parseLoop_inv L.stickyF _ _ _ _ hF k
                rcases L.lit _ _ _ _ _ hr h1 k1 hea1 with hR1 | hF
                · rcases parseField_follow L hR1 h2 k2 hea2 with ⟨hR2, rfl⟩ | hF
                  · rw [L.ok _ _ hR2] at k
                    exact ih _ _ _ _ _ _ hR2 h k ha
                  · exact Or.inr (failed hF)
                · exact Or.inr (failed (parseField_inv L.stickyF hF k2))
      · rename_i hc
        rw [if_neg hc] at k
        split at h
        · rename_i rest
          replace k : (match K.onLiteral b (s.takeWhile (fun c => ! isBrace c) ++ [125]) with
            | none => none
            | some st => parseLoop K m st rest) = some b' := k
          split at h
          · exact absurd h (by simp)
          · rename_i a1 h1
            split at k
            · exact absurd k (by simp)
            · rename_i b1 k1
              have hea1 : H.hasError a1 = false := by
                cases he : H.hasError a1
                · rfl
                · have := parseLoop_inv L.stickyH _ _ _ _ he h; rw [ha] at this; cases this
              rcases L.lit _ _ _ _ _ hr h1 k1 hea1 with hR | hF
              · exact ih _ _ _ _ _ _ hR h k ha
              · exact Or.inr (parseLoop_inv L.stickyF _ _ _ _ hF k)
        · simp only [Option.some.injEq] at h
          rw [← h, L.errH] at ha; cases ha

/-! ### Events only accumulate; readers that ran into undefined behaviour leave no event -/

/-- A property of single events that all events of a run have. -/
theorem events_preserved {env : Env V} (P : Event V → Prop)
    (hlit : ∀ t s r f, litLoop env t.length s t = some (r, f) → P (.literal t s r f))
    (hvis : ∀ id s res, res ≠ .ub → P (.visit id s res)) :
    Preserved (runHandler env) (fun st => ∀ ev ∈ st.events, P ev) := by
  have snoc : ∀ {evs : List (Event V)} {ev : Event V}, (∀ x ∈ evs, P x) → P ev → ∀ x ∈ evs ++ [ev], P x := by
    intro evs ev h he x hx
    rcases List.mem_append.1 hx with hx | hx
    · exact h x hx
    · simp at hx; rw [hx]; exact he
  have vis : ∀ {st st' : FH V} {id : Nat} {res : Res (V × List Nat)}, (∀ x ∈ st.events, P x) →
      st.onVisit id res = some st' → ∀ x ∈ st'.events, P x := by
    intro st st' id res h hv
    rw [onVisit_events hv]
    refine snoc h (hvis _ _ _ ?_)
    rintro rfl; simp [FH.onVisit] at hv
  have vis' : ∀ {st : FH V} (p : List Nat) {st' : FH V} {id : Nat} {res : Res (V × List Nat)}, (∀ x ∈ st.events, P x) →
      ({ st with fmtPos := p } : FH V).onVisit id res = some st' → ∀ x ∈ st'.events, P x :=
    by intro st p st' id res h hv; exact vis (st := { st with fmtPos := p }) h hv
  refine ⟨?_, fun st h => h, fun st id h => h, ?_, ?_, fun st h => h⟩
  · intro st t st' h hl
    obtain ⟨s, f, hlit', rfl⟩ := onLiteral_cases hl
    exact snoc h (hlit _ _ _ _ hlit')
  · intro st id pos st' h hf
    simp only [runHandler, FH.onField] at hf
    split at hf
    · exact absurd hf (by simp)
    · rename_i st1 h1
      rw [← enter_events h1] at h
      split at hf
      · exact vis h hf
      · simp at hf; rw [← hf]; exact h
  · intro st id pos st' p h hf
    simp only [runHandler, FH.onSpecs] at hf
    split at hf
    · exact absurd hf (by simp)
    · rename_i st1 h1
      rw [← enter_events h1] at h
      split at hf
      · split at hf
        · simp only [Option.map_eq_some_iff, Prod.mk.injEq] at hf
          obtain ⟨a, ha', rfl, _⟩ := hf
          exact vis' _ h ha'
        · simp at hf; rw [← hf.1]; exact h
      · split at hf
        · exact absurd hf (by simp)
        · split at hf
          · split at hf
            · simp at hf; rw [← hf.1]; exact h
            · split at hf
              · simp only [Option.map_eq_some_iff, Prod.mk.injEq] at hf
                obtain ⟨a, ha', rfl, _⟩ := hf
                exact vis' _ h ha'
              · simp at hf; rw [← hf.1]; exact h
          · simp at hf; rw [← hf.1]; exact h

theorem checkExhausted_events {count : Nat} {st st' : FH V} (h : st.checkExhausted count = some st') :
    st'.events = st.events ∧ (st'.err = none → st' = st) := by
  have key : st' = st ∨ st' = st.onError .invalidFormatString := by
    unfold FH.checkExhausted at h
    dsimp only at h
    generalize (if count ≥ 64 then 2 ^ 64 - 1 else 1 <<< count - 1) = mask at h
    repeat' split at h
    all_goals first
      | exact Or.inl (Option.some.inj h).symm
      | exact Or.inr (Option.some.inj h).symm
      | exact absurd h (by simp)
  rcases key with rfl | rfl
  · exact ⟨rfl, fun _ => rfl⟩
  · exact ⟨rfl, fun h => by simp [FH.onError] at h⟩

/-- Every event of a run is a literal, or a visit whose reader returned. -/
theorem general_noUb {env : Env V} {fmt src : List Nat} {st : FH V} (h : vscanGeneral env fmt src = some st) :
    ∀ ev ∈ st.events, ∀ id s, ev ≠ .visit id s .ub := by
  unfold vscanGeneral at h
  split at h
  · exact absurd h (by simp)
  · rename_i st1 h1
    have g := parseLoop_inv (events_preserved (env := env) (fun ev => ∀ id s, ev ≠ .visit id s .ub)
      (by intro t s r f _ id s' h; cases h) (by intro id s res hr id' s' h; cases h; exact hr rfl)) _ _ _ _
      (by intro ev hev; simp [FH.init] at hev) h1
    rw [(checkExhausted_events h).1]; exact g

/-! ### Quiet after failure, for any number of arguments -/

theorem enter_err {env : Env V} {st st' : FH V} {id : Nat} (h : st.enter env id = some st') (he : st'.err = none) :
    st.err = none := by
  unfold FH.enter FH.setVisited at h
  by_cases hid : id ≥ env.count
  · simp [hid, FH.onError] at h; rw [← h] at he; simp at he
  · simp only [hid, if_false] at h
    split at h
    · exact absurd h (by simp)
    · rename_i v _
      have key : (if v = true then st.onError .invalidFormatString else st).err = none → st.err = none := by
        cases v
        · intro h; exact h
        · intro h; simp [FH.onError] at h
      split at h
      · simp only [Option.some.injEq] at h
        rw [← h] at he; exact key he
      · split at h
        · exact absurd h (by simp)
        · simp only [Option.some.injEq] at h
          rw [← h] at he; exact key he

/-- Quiet after failure, and no failure as long as there is no error. -/
def QuietBooks (st : FH V) : Prop :=
  QuietAfterFailure st.events ∧ (st.err = none → ∀ e ∈ st.events, failure e = none)

theorem QuietBooks.literal {env : Env V} {st st' : FH V} {t : List Nat} (h : QuietBooks st)
    (hl : FH.onLiteral env st t = some st') : QuietBooks st' := by
  obtain ⟨s, f, _, rfl⟩ := onLiteral_cases hl
  refine ⟨?_, ?_⟩
  · refine List.pairwise_append.2 ⟨h.1, List.pairwise_singleton _ _, ?_⟩
    intro a _ b hb _
    simp at hb; rw [hb]; rfl
  · intro he e hm
    dsimp only at he
    split at he
    · rename_i hf
      rcases List.mem_append.1 hm with hm | hm
      · exact h.2 he e hm
      · simp at hm; rw [hm]; exact hf
    · rename_i hf; exact absurd he hf

theorem QuietBooks.visit {st st' : FH V} {id : Nat} {res : Res (V × List Nat)} (h : QuietBooks st)
    (h0 : st.err = none) (hv : st.onVisit id res = some st') : QuietBooks st' := by
  refine ⟨?_, ?_⟩
  · rw [onVisit_events hv]
    refine List.pairwise_append.2 ⟨h.1, List.pairwise_singleton _ _, ?_⟩
    intro a ha b _ hf
    exact absurd (h.2 h0 a ha) hf
  · intro he e hm
    obtain ⟨_, v, r, rfl, rfl⟩ := onVisit_err hv he
    rcases List.mem_append.1 hm with hm | hm
    · exact h.2 h0 e hm
    · simp at hm; rw [hm]; rfl

theorem quietBooks_preserved (env : Env V) : Preserved (runHandler env) (QuietBooks (V := V)) := by
  have ent : ∀ {st st1 : FH V} {id : Nat}, QuietBooks st → st.enter env id = some st1 → QuietBooks st1 := by
    intro st st1 id h h1
    refine ⟨by rw [enter_events h1]; exact h.1, fun he => ?_⟩
    rw [enter_events h1]; exact h.2 (enter_err h1 he)
  have vis' : ∀ {st : FH V} (p : List Nat) {st' : FH V} {id : Nat} {res : Res (V × List Nat)}, QuietBooks st →
      st.err = none → ({ st with fmtPos := p } : FH V).onVisit id res = some st' → QuietBooks st' := by
    intro st p st' id res h h0 hv
    exact QuietBooks.visit (st := { st with fmtPos := p }) h h0 hv
  refine ⟨fun st t st' h hl => h.literal hl, fun st h => h, fun st id h => h, ?_, ?_, ?_⟩
  · intro st id ps st' h hf
    simp only [runHandler, FH.onField] at hf
    split at hf
    · exact absurd hf (by simp)
    · rename_i st1 h1
      have h2 := ent h h1
      split at hf
      · rename_i hcv
        exact h2.visit (canVisit_iff.1 hcv).1 hf
      · simp at hf; rw [← hf]; exact h2
  · intro st id ps st' p h hf
    simp only [runHandler, FH.onSpecs] at hf
    split at hf
    · exact absurd hf (by simp)
    · rename_i st1 h1
      have h2 := ent h h1
      split at hf
      · split at hf
        · rename_i hcv
          simp only [Option.map_eq_some_iff, Prod.mk.injEq] at hf
          obtain ⟨a, ha', rfl, _⟩ := hf
          exact vis' _ h2 (canVisit_iff.1 hcv).1 ha'
        · simp at hf; rw [← hf.1]; exact h2
      · split at hf
        · exact absurd hf (by simp)
        · split at hf
          · split at hf
            · simp at hf; rw [← hf.1]; exact h2
            · split at hf
              · rename_i hcv
                simp only [Option.map_eq_some_iff, Prod.mk.injEq] at hf
                obtain ⟨a, ha', rfl, _⟩ := hf
                exact vis' _ h2 (canVisit_iff.1 hcv).1 ha'
              · simp at hf; rw [← hf.1]; exact h2
          · simp at hf; rw [← hf.1]; exact ⟨h2.1, by simp [FH.onError]⟩
  · intro st h; exact ⟨h.1, by simp [runHandler, FH.onError]⟩

theorem general_quiet {env : Env V} {fmt src : List Nat} {st : FH V} (h : vscanGeneral env fmt src = some st) :
    QuietBooks st := by
  unfold vscanGeneral at h
  split at h
  · exact absurd h (by simp)
  · rename_i st1 h1
    have g := parseLoop_inv (quietBooks_preserved env) _ _ _ _
      (⟨by simp [FH.init, QuietAfterFailure], by simp [FH.init]⟩ : QuietBooks (FH.init env.count fmt src)) h1
    obtain ⟨h2, h3⟩ := checkExhausted_events h
    refine ⟨by rw [h2]; exact g.1, fun he => ?_⟩
    have := h3 he
    subst this
    exact g.2 he

/-! ### Accepted formats -/

/-- Checker and handler agree and nothing has failed. -/
def Agree (count : Nat) (c : CT) (r : FH V) : Prop :=
  c.nextId = r.nextId ∧ r.err = none ∧ c.visited.length = count ∧
    ∀ i, r.lower.testBit i = c.visited.getD i false

/-- Some event has failed. -/
def HasFailure (r : FH V) : Prop := ∃ ev ∈ r.events, failure ev ≠ none

theorem hasFailure_preserved (env : Env V) : Preserved (runHandler env) (HasFailure (V := V)) := by
  have mono : ∀ {r r' : FH V} {l : List (Event V)}, HasFailure r → r'.events = r.events ++ l → HasFailure r' := by
    rintro r r' l ⟨ev, h1, h2⟩ h
    exact ⟨ev, by rw [h]; exact List.mem_append_left _ h1, h2⟩
  have same : ∀ {r r' : FH V}, HasFailure r → r'.events = r.events → HasFailure r' := by
    intro r r' h he; exact mono (l := []) h (by rw [he, List.append_nil])
  have vis' : ∀ {st : FH V} (p : List Nat) {st' : FH V} {id : Nat} {res : Res (V × List Nat)}, HasFailure st →
      ({ st with fmtPos := p } : FH V).onVisit id res = some st' → HasFailure st' := by
    intro st p st' id res h hv
    exact mono (r := { st with fmtPos := p }) h (onVisit_events hv)
  refine ⟨?_, fun st h => h, fun st id h => h, ?_, ?_, fun st h => h⟩
  · intro st t st' h hl
    obtain ⟨s, f, _, rfl⟩ := onLiteral_cases hl
    exact mono h rfl
  · intro st id ps st' h hf
    simp only [runHandler, FH.onField] at hf
    split at hf
    · exact absurd hf (by simp)
    · rename_i st1 h1
      have h2 := same h (enter_events h1)
      split at hf
      · exact mono h2 (onVisit_events hf)
      · simp at hf; rw [← hf]; exact h2
  · intro st id ps st' p h hf
    simp only [runHandler, FH.onSpecs] at hf
    split at hf
    · exact absurd hf (by simp)
    · rename_i st1 h1
      have h2 := same h (enter_events h1)
      split at hf
      · split at hf
        · simp only [Option.map_eq_some_iff, Prod.mk.injEq] at hf
          obtain ⟨a, ha', rfl, _⟩ := hf
          exact vis' _ h2 ha'
        · simp at hf; rw [← hf.1]; exact h2
      · split at hf
        · exact absurd hf (by simp)
        · split at hf
          · split at hf
            · simp at hf; rw [← hf.1]; exact h2
            · split at hf
              · simp only [Option.map_eq_some_iff, Prod.mk.injEq] at hf
                obtain ⟨a, ha', rfl, _⟩ := hf
                exact vis' _ h2 ha'
              · simp at hf; rw [← hf.1]; exact h2
          · simp at hf; rw [← hf.1]; exact h2

theorem ct_setRead_ok {env : CTEnv} {c : CT} {id : Nat} (h : (c.setRead env id).err = false) :
    id < env.types.length ∧ c.visited.getD id false = false ∧
      c.setRead env id = { c with visited := c.visited.set id true } := by
  simp only [CT.setRead] at h ⊢
  split at h
  · simp [CT.onError] at h
  · rename_i h1
    split at h
    · simp [CT.onError] at h
    · rename_i h2
      exact ⟨by omega, by simpa using h2, by rw [if_neg h1, if_neg h2]⟩

theorem ct_canBeRead_ok {env : CTEnv} {c : CT} {ty : ArgTy} (h : (c.canBeRead env ty).err = false) :
    c.canBeRead env ty = c := by
  simp only [CT.canBeRead] at h ⊢
  split at h
  · simp [CT.onError] at h
  · rename_i h1
    split at h
    · simp [CT.onError] at h
    · rename_i h2
      rw [if_neg h1, if_neg h2]

theorem agree_enter {env : Env V} (hc : env.count < 64) {c : CT} {r r1 : FH V} {id : Nat} (h : Agree env.count c r)
    (hid : id < env.count) (hv : c.visited.getD id false = false) (h1 : r.enter env id = some r1) :
    Agree env.count { c with visited := c.visited.set id true } r1 ∧ r1.canVisit env id = true := by
  rcases enter_cases hc h1 with ⟨hi, rfl⟩ | ⟨hi, hb, rfl⟩ | ⟨hi, hb, rfl⟩
  · omega
  · rw [h.2.2.2 id, hv] at hb; cases hb
  · refine ⟨⟨h.1, h.2.1, by rw [List.length_set]; exact h.2.2.1, ?_⟩, canVisit_iff.2 ⟨h.2.1, hi⟩⟩
    intro i
    simp only [testBit_or_shift, h.2.2.2 i]
    by_cases hi2 : id = i
    · subst hi2
      have hlen : id < c.visited.length := by rw [h.2.2.1]; exact hi
      simp [List.getD_eq_getElem?_getD, hlen]
    · simp [List.getD_eq_getElem?_getD, hi2]

theorem agree_visit {env : Env V} {c : CT} {r r' : FH V} {id : Nat} {res : Res (V × List Nat)}
    (h : Agree env.count c r) (hv : r.onVisit id res = some r') :
    (Agree env.count c r' ∧ r'.fmtPos = r.fmtPos) ∨ HasFailure r' := by
  rcases onVisit_cases hv with ⟨e, rfl, rfl⟩ | ⟨v, q, rfl, rfl⟩
  · right
    exact ⟨_, List.mem_append_right _ (List.mem_singleton.2 rfl), by simp [Spec.failure]⟩
  · exact Or.inl ⟨h, rfl⟩

theorem check_run_follow {cenv : CTEnv} {env : Env V} (hs : SameCall cenv env) (hc : env.count < 64) :
    Follow (compileHandler cenv) (runHandler env) (Agree env.count) (HasFailure (V := V)) where
  stickyH := ct_sticky cenv
  stickyF := hasFailure_preserved env
  errH _ := rfl
  ok c r h := by simp [runHandler, h.2.1]
  lit c r t c' r' h hl kl ha := by
    simp only [compileHandler, CT.onLiteral, Option.map_eq_some_iff] at hl
    obtain ⟨b, _, rfl⟩ := hl
    have hb : b = true := by
      cases b
      · simp [compileHandler, CT.onError] at ha
      · rfl
    subst hb
    obtain ⟨s, f, _, rfl⟩ := onLiteral_cases kl
    cases f with
    | none => left; simpa [Agree] using h
    | some x =>
      right
      exact ⟨_, List.mem_append_right _ (List.mem_singleton.2 rfl), by simp [Spec.failure]⟩
  auto c r h ha := by
    simp only [compileHandler, runHandler, FH.autoId, CT.onAutoId, nextArgId] at ha ⊢
    rw [h.1] at ha ⊢
    split at ha
    · simp [CT.onError] at ha
    · rename_i hn
      rw [if_neg hn, if_neg hn]
      refine ⟨⟨?_, h.2.1, ?_, ?_⟩, rfl⟩
      · split <;> rfl
      · split <;> exact h.2.2.1
      · split <;> exact h.2.2.2
  man c r id h ha := by
    simp only [compileHandler, runHandler, FH.manualId, CT.onManualId, checkArgId] at ha ⊢
    rw [h.1] at ha ⊢
    split at ha
    · simp [CT.onError] at ha
    · rename_i hid
      by_cases hn : r.nextId > 0
      · rw [if_pos hn] at ha; simp [CT.onError] at ha
      · rw [if_neg hid, if_neg hn, if_neg hn]
        exact ⟨⟨rfl, h.2.1, h.2.2.1, h.2.2.2⟩, trivial⟩
  field c r id pos c' r' h hf kf ha := by
    simp only [compileHandler, Option.some.injEq, CT.onField] at hf
    have hset : (c.setRead cenv id).err = false := by
      cases he : (c.setRead cenv id).err
      · rfl
      · exfalso
        have : c'.err = true := by
          rw [← hf]
          split
          · exact he
          · split
            · rfl
            · exact ct_sticky.ct_canBeRead_err cenv _ _ he
        simp only [compileHandler] at ha
        rw [this] at ha; cases ha
    obtain ⟨hid, hv, heq⟩ := ct_setRead_ok hset
    rw [hs.count] at hid
    have hc' : c' = { c with visited := c.visited.set id true } := by
      rw [hs.ty id, if_pos hid] at hf
      dsimp only at hf
      split at hf
      · rw [← hf] at ha; simp [compileHandler, CT.onError] at ha
      · rw [← hf] at ha ⊢
        rw [ct_canBeRead_ok ha, heq]
    subst hc'
    simp only [runHandler, FH.onField] at kf
    split at kf
    · exact absurd kf (by simp)
    · rename_i r1 h1
      obtain ⟨hA, hcv⟩ := agree_enter hc h hid hv h1
      rw [if_pos hcv] at kf
      exact (agree_visit hA kf).imp (fun h => h.1) (fun h => h)
  specs c r id pos c' r' p q hpos h hf kf ha := by
    simp only [compileHandler, CT.onSpecs] at hf
    have hset : (c.setRead cenv id).err = false := by
      cases he : (c.setRead cenv id).err
      · rfl
      · exfalso
        have : c'.err = true := by
          split at hf
          · simp at hf; rw [← hf.1]; exact he
          · have hcb := fun ty => ct_sticky.ct_canBeRead_err cenv _ ty he
            split at hf
            · simp at hf; rw [← hf.1]; exact hcb _
            · split at hf
              · exact absurd hf (by simp)
              · split at hf
                · exact absurd hf (by simp)
                · simp only [Option.some.injEq, Prod.mk.injEq] at hf
                  rw [← hf.1]
                  split
                  · rfl
                  · exact hcb _
        simp only [compileHandler] at ha
        rw [this] at ha; cases ha
    obtain ⟨hid, hv, heq⟩ := ct_setRead_ok hset
    rw [hs.count] at hid
    rw [hs.ty id, if_pos hid] at hf
    dsimp only at hf
    rw [if_neg hpos] at hf
    split at hf
    · exact absurd hf (by simp)
    · rename_i setter p1 hps
      split at hf
      · exact absurd hf (by simp)
      · rename_i ok hct
        simp only [Option.some.injEq, Prod.mk.injEq] at hf
        obtain ⟨hf, rfl⟩ := hf
        have hserr : setter.err = false := by
          cases hse : setter.err
          · rfl
          · rw [← hf] at ha; simp [hse, CT.onError, compileHandler] at ha
        have hc' : c' = { c with visited := c.visited.set id true } := by
          split at hf
          · rw [← hf] at ha; simp [compileHandler, CT.onError] at ha
          · rw [← hf] at ha ⊢
            rw [ct_canBeRead_ok ha, heq]
        subst hc'
        have hty : env.argTy id = env.ty id := by simp [Env.argTy, hid]
        have hcust : env.argTy id ≠ .custom := by
          intro h0; rw [hty] at h0; rw [h0] at hct; simp [compileTypeCheck] at hct
        simp only [runHandler, FH.onSpecs] at kf
        split at kf
        · exact absurd kf (by simp)
        · rename_i r1 h1
          obtain ⟨hA, hcv⟩ := agree_enter hc h hid hv h1
          rw [if_neg hcust, hty, ← hs.cfg, ← hs.enc, hps] at kf
          dsimp only at kf
          rw [if_neg (by simp [hserr])] at kf
          have hcv' : ({ r1 with fmtPos := 125 :: p } : FH V).canVisit env id = true := hcv
          rw [if_pos hcv'] at kf
          simp only [Option.map_eq_some_iff, Prod.mk.injEq] at kf
          obtain ⟨a, ha', rfl, rfl⟩ := kf
          rcases agree_visit (r := { r1 with fmtPos := 125 :: p }) hA ha' with ⟨h2, h3⟩ | h2
          · exact Or.inl ⟨h2, h3⟩
          · exact Or.inr h2

/-- A format string accepted by the compile-time checker fails only because a literal or a reader
    fails. -/
theorem accepted_ok_or_failure {cenv : CTEnv} {env : Env V} (hs : SameCall cenv env) (hc : env.count < 64)
    {fmt src : List Nat} {c : CT} {st : FH V} (hacc : compileCheck cenv fmt = some c) (hok : c.err = false)
    (h : vscanGeneral env fmt src = some st) : st.err = none ∨ HasFailure st := by
  simp only [compileCheck, Option.map_eq_some_iff] at hacc
  obtain ⟨c1, hc1, rfl⟩ := hacc
  have hall : c1.visited.all id = true ∧ c1.err = false := by
    simp only [CT.checkExhausted] at hok
    split at hok
    · rename_i hv; exact ⟨hv, hok⟩
    · simp [CT.onError] at hok
  unfold vscanGeneral at h
  split at h
  · exact absurd h (by simp)
  · rename_i st1 h1
    rw [checkExhausted_cases hc] at h
    simp only [Option.some.injEq] at h
    have hrep : ∀ i, (List.replicate env.count false).getD i false = false := by
      intro i
      by_cases hi : i < env.count <;> simp [List.getD_eq_getElem?_getD, hi]
    have := parseLoop_follow (check_run_follow hs hc) _ _ _ _ _ _ fmt
      (show Agree env.count ⟨0, List.replicate cenv.types.length false, false, false, false⟩
          (FH.init env.count fmt src) from ⟨rfl, rfl, by simp [hs.count], by
            intro i; rw [hs.count, hrep i]; simp [FH.init]⟩) hc1 h1 hall.2
    rcases this with hA | ⟨ev, hev, hf⟩
    · left
      have hl : st1.lower = 2 ^ env.count - 1 := by
        apply Nat.eq_of_testBit_eq
        intro i
        rw [hA.2.2.2 i, Nat.testBit_two_pow_sub_one]
        by_cases hi : i < env.count
        · have hi' : i < c1.visited.length := by rw [hA.2.2.1]; exact hi
          have := (List.all_eq_true.1 hall.1) c1.visited[i] (List.getElem_mem hi')
          simp [List.getD_eq_getElem?_getD, List.getElem?_eq_getElem hi', hi]
          exact this
        · have hi' : ¬ i < c1.visited.length := by rw [hA.2.2.1]; exact hi
          simp [List.getD_eq_getElem?_getD, List.getElem?_eq_none (Nat.le_of_not_lt hi'), hi]
      rw [if_pos hl] at h
      rw [← h]; exact hA.2.1
    · right
      refine ⟨ev, ?_, hf⟩
      rw [← h]
      split
      · exact hev
      · exact hev

end Scn
