import Verif.Spec.VScan
import Verif.Lemmas.Space2
/-
Invariants of the scanning driver.
-/
namespace Scn
open Spec
variable {V : Type} {σ : Type}

/-- A predicate preserved by every callback is preserved by the parser. -/
structure Preserved (H : Handler σ) (P : σ → Prop) : Prop where
  lit : ∀ st t st', P st → H.onLiteral st t = some st' → P st'
  auto : ∀ st, P st → P (H.onAutoId st).1
  man : ∀ st id, P st → P (H.onManualId st id).1
  field : ∀ st id pos st', P st → H.onField st id pos = some st' → P st'
  specs : ∀ st id pos st' p, P st → H.onSpecs st id pos = some (st', p) → P st'
  err : ∀ st, P st → P (H.onError st)

theorem parseArgId_inv {H : Handler σ} {P : σ → Prop} (hp : Preserved H P) {st st' : σ} {s p : List Nat} {id : Nat}
    (h : P st) (hr : parseArgId H st s = some (st', id, p)) : P st' := by
  unfold parseArgId at hr
  split at hr
  · exact absurd hr (by simp)
  · rename_i c cs
    split at hr
    · simp at hr; rw [← hr.1]; exact hp.auto _ h
    · split at hr
      · simp at hr; rw [← hr.1]; exact hp.err _ h
      · dsimp only at hr
        split at hr
        · simp at hr; rw [← hr.1]; exact hp.err _ h
        · split at hr
          · simp at hr; rw [← hr.1]; exact hp.err _ h
          · simp at hr; rw [← hr.1]; exact hp.man _ _ h

theorem parseField_inv {H : Handler σ} {P : σ → Prop} (hp : Preserved H P) {st st' : σ} {s p : List Nat}
    (h : P st) (hr : parseField H st s = some (st', p)) : P st' := by
  unfold parseField at hr
  split at hr
  · simp at hr; rw [← hr.1]; exact hp.err _ h
  · simp only [Option.map_eq_some_iff, Prod.mk.injEq] at hr
    obtain ⟨a, ha, rfl, _⟩ := hr
    exact hp.field _ _ _ _ (hp.auto _ h) ha
  · simp only [Option.map_eq_some_iff, Prod.mk.injEq] at hr
    obtain ⟨a, ha, rfl, _⟩ := hr
    exact hp.lit _ _ _ h ha
  · split at hr
    · exact absurd hr (by simp)
    · rename_i st1 id p1 hid
      have h1 := parseArgId_inv hp h hid
      split at hr
      · simp at hr; rw [← hr.1]; exact hp.err _ h1
      · simp only [Option.map_eq_some_iff, Prod.mk.injEq] at hr
        obtain ⟨a, ha, rfl, _⟩ := hr
        exact hp.field _ _ _ _ h1 ha
      · simp at hr; rw [← hr.1]; exact hp.err _ h1
      · split at hr
        · exact absurd hr (by simp)
        · rename_i st2 p2 hs
          have h2 := hp.specs _ _ _ _ _ h1 hs
          split at hr
          · simp at hr; rw [← hr.1]; exact h2
          · simp at hr; rw [← hr.1]; exact hp.err _ h2
      · simp at hr; rw [← hr.1]; exact hp.err _ h1

theorem parseLoop_inv {H : Handler σ} {P : σ → Prop} (hp : Preserved H P) :
    ∀ (n : Nat) (st : σ) (s : List Nat) (st' : σ), P st → parseLoop H n st s = some st' → P st' := by
  intro n
  induction n with
  | zero => intro st s st' _ h; simp [parseLoop] at h
  | succ n ih =>
    intro st s st' h hr
    unfold parseLoop at hr
    dsimp only at hr
    split at hr
    · exact hp.lit _ _ _ h hr
    · split at hr
      · split at hr
        · exact absurd hr (by simp)
        · rename_i st1 h1
          have h1' := hp.lit _ _ _ h h1
          split at hr
          · exact absurd hr (by simp)
          · rename_i st2 s2 h2
            have h2' := parseField_inv hp h1' h2
            split at hr
            · simp at hr; rw [← hr]; exact h2'
            · exact ih _ _ _ h2' hr
      · split at hr
        · split at hr
          · exact absurd hr (by simp)
          · rename_i st1 h1
            exact ih _ _ _ (hp.lit _ _ _ h h1) hr
        · simp at hr; rw [← hr]; exact hp.err _ h

/-! ### The books of the run-time handler -/

/-- What `onLiteral` does to a state. -/
theorem onLiteral_cases {env : Env V} {st st' : FH V} {t : List Nat} (h : FH.onLiteral env st t = some st') :
    ∃ src f, litLoop env t.length st.src t = some (src, f) ∧
      st' = { st with src := src, events := st.events ++ [Event.literal t st.src src f],
                      err := if f = none then st.err else f } := by
  unfold FH.onLiteral at h
  split at h
  · exact absurd h (by simp)
  · rename_i src f hl
    refine ⟨src, f, hl, ?_⟩
    dsimp only at h
    split at h
    · simp at h; rw [← h]; rfl
    · simp at h; rw [← h]; rfl

/-- What `onVisit` does to a state. -/
theorem onVisit_cases {st st' : FH V} {id : Nat} {res : Res (V × List Nat)} (h : st.onVisit id res = some st') :
    (∃ e, res = .err e ∧ st' = { st with events := st.events ++ [Event.visit id st.src res], err := some e }) ∨
    (∃ v r, res = .ok (v, r) ∧ st' = { st with events := st.events ++ [Event.visit id st.src res], src := r }) := by
  unfold FH.onVisit at h
  dsimp only at h
  split at h
  · exact absurd h (by simp)
  · rename_i e
    left; simp at h; exact ⟨e, rfl, by rw [← h]; rfl⟩
  · rename_i v r
    right; simp at h; exact ⟨v, r, rfl, by rw [← h]⟩

/-- What `enter` does to a state with fewer than 64 arguments. -/
theorem enter_cases {env : Env V} (hc : env.count < 64) {st st' : FH V} {id : Nat} (h : st.enter env id = some st') :
    (id ≥ env.count ∧ st' = { st with err := some .invalidFormatString }) ∨
    (id < env.count ∧ st.lower.testBit id = true ∧
      st' = { st with err := some .invalidFormatString, lower := st.lower ||| 1 <<< id }) ∨
    (id < env.count ∧ st.lower.testBit id = false ∧ st' = { st with lower := st.lower ||| 1 <<< id }) := by
  unfold FH.enter FH.setVisited at h
  by_cases hid : id ≥ env.count
  · left
    simp [hid, FH.onError] at h
    exact ⟨hid, h.symm⟩
  · right
    have hid64 : id < 64 := by omega
    simp only [hid, if_false, FH.visited, hid64, if_true] at h
    cases hb : st.lower.testBit id
    · right; simp [hb] at h; exact ⟨by omega, rfl, h.symm⟩
    · left; simp [hb, FH.onError] at h; exact ⟨by omega, rfl, h.symm⟩

theorem testBit_or_shift (w i j : Nat) : (w ||| 1 <<< i).testBit j = (w.testBit j || decide (i = j)) := by
  rw [Nat.testBit_or, Nat.one_shiftLeft, Nat.testBit_two_pow]

/-- The driver's invariant for fewer than 64 arguments. -/
structure Good (env : Env V) (src : List Nat) (st : FH V) : Prop where
  upper : st.upper = []
  bits : ∀ i, st.lower.testBit i = true → i < env.count
  nodup : (visits st.events).Nodup
  sub : ∀ id ∈ visits st.events, st.lower.testBit id = true
  clean : st.err = none → ∀ e ∈ st.events, failure e = none
  quiet : QuietAfterFailure st.events
  leads : Leads src st.events st.src

theorem Good.setErr {env : Env V} {src : List Nat} {st : FH V} (h : Good env src st) (e : Err) :
    Good env src { st with err := some e } :=
  ⟨h.upper, h.bits, h.nodup, h.sub, by simp, h.quiet, h.leads⟩

theorem Good.setPos {env : Env V} {src : List Nat} {st : FH V} (h : Good env src st) (p : List Nat) :
    Good env src { st with fmtPos := p } :=
  ⟨h.upper, h.bits, h.nodup, h.sub, h.clean, h.quiet, h.leads⟩

theorem Good.setId {env : Env V} {src : List Nat} {st : FH V} (h : Good env src st) (n : Int) (m : Bool) :
    Good env src { st with nextId := n, mixed := m } :=
  ⟨h.upper, h.bits, h.nodup, h.sub, h.clean, h.quiet, h.leads⟩

theorem visits_append (a b : List (Event V)) : visits (a ++ b) = visits a ++ visits b := by
  simp [visits]

theorem visits_literal (evs : List (Event V)) (t s r : List Nat) (f : Option Err) :
    visits (evs ++ [Event.literal t s r f]) = visits evs := by
  rw [visits_append]; exact List.append_nil _

theorem Good.literal {env : Env V} {src : List Nat} {st st' : FH V} {t : List Nat} (h : Good env src st)
    (hl : FH.onLiteral env st t = some st') : Good env src st' := by
  obtain ⟨s, f, hf, rfl⟩ := onLiteral_cases hl
  refine ⟨h.upper, h.bits, ?_, ?_, ?_, ?_, ?_⟩
  · have := h.nodup
    rwa [← visits_literal st.events t st.src s f] at this
  · have := h.sub
    rwa [← visits_literal st.events t st.src s f] at this
  · intro he e hm
    dsimp only at he hm
    cases f with
    | none =>
      simp only [if_true] at he
      rcases List.mem_append.1 hm with hm | hm
      · exact h.clean he e hm
      · simp at hm; rw [hm]; rfl
    | some x => simp at he
  · refine List.pairwise_append.2 ⟨h.quiet, by simp, ?_⟩
    intro a _ b hb _
    simp at hb; rw [hb]; rfl
  · exact Leads.snoc (.literal t st.src s f) h.leads rfl

/-- Entering a field keeps the invariant; if no error results the argument is new. -/
theorem Good.enter {env : Env V} {src : List Nat} {st st' : FH V} {id : Nat} (hc : env.count < 64)
    (h : Good env src st) (he : st.enter env id = some st') :
    Good env src st' ∧ (st'.err = none → id ∉ visits st'.events ∧ st'.lower.testBit id = true ∧
      st.err = none ∧ st.lower.testBit id = false ∧ id < env.count) := by
  rcases enter_cases hc he with ⟨_, rfl⟩ | ⟨hi, hb, rfl⟩ | ⟨hi, hb, rfl⟩
  · exact ⟨h.setErr _, by simp⟩
  · refine ⟨⟨h.upper, ?_, h.nodup, ?_, by simp, h.quiet, h.leads⟩, by simp⟩
    · intro i hb'
      simp only [testBit_or_shift, Bool.or_eq_true, decide_eq_true_eq] at hb'
      rcases hb' with hb' | rfl
      · exact h.bits i hb'
      · exact hi
    · intro i hm
      simp only [testBit_or_shift, h.sub i hm, Bool.true_or]
  · refine ⟨⟨h.upper, ?_, h.nodup, ?_, h.clean, h.quiet, h.leads⟩, ?_⟩
    · intro i hb'
      simp only [testBit_or_shift, Bool.or_eq_true, decide_eq_true_eq] at hb'
      rcases hb' with hb' | rfl
      · exact h.bits i hb'
      · exact hi
    · intro i hm
      simp only [testBit_or_shift, h.sub i hm, Bool.true_or]
    · intro he'
      refine ⟨fun hm => ?_, by simp, he', hb, hi⟩
      have := h.sub id hm
      rw [hb] at this; cases this

theorem Good.visit {env : Env V} {src : List Nat} {st st' : FH V} {id : Nat} {res : Res (V × List Nat)}
    (h : Good env src st) (he : st.err = none) (hn : id ∉ visits st.events) (hb : st.lower.testBit id = true)
    (hv : st.onVisit id res = some st') : Good env src st' := by
  have hnd : (visits (st.events ++ [Event.visit id st.src res])).Nodup := by
    rw [visits_append]
    refine List.nodup_append.2 ⟨h.nodup, by simp [visits, visitOf], ?_⟩
    intro a ha b hb'
    simp [visits, visitOf] at hb'
    rintro rfl; rw [hb'] at ha; exact hn ha
  have hsub : ∀ i ∈ visits (st.events ++ [Event.visit id st.src res]), st.lower.testBit i = true := by
    intro i hi
    rw [visits_append] at hi
    rcases List.mem_append.1 hi with hi | hi
    · exact h.sub i hi
    · simp [visits, visitOf] at hi; rw [hi]; exact hb
  have hq : QuietAfterFailure (st.events ++ [Event.visit id st.src res]) := by
    refine List.pairwise_append.2 ⟨h.quiet, by simp, ?_⟩
    intro a ha b _ hf
    exact absurd (h.clean he a ha) hf
  rcases onVisit_cases hv with ⟨e, rfl, rfl⟩ | ⟨v, r, rfl, rfl⟩
  · refine ⟨h.upper, h.bits, hnd, hsub, by simp, hq, ?_⟩
    have := Leads.snoc (Event.visit id st.src (.err e)) h.leads rfl
    exact this
  · refine ⟨h.upper, h.bits, hnd, hsub, ?_, hq, ?_⟩
    · intro _ e hm
      rcases List.mem_append.1 hm with hm | hm
      · exact h.clean he e hm
      · simp at hm; rw [hm]; rfl
    · have := Leads.snoc (Event.visit id st.src (.ok (v, r))) h.leads rfl
      exact this

theorem canVisit_iff {env : Env V} {st : FH V} {id : Nat} :
    st.canVisit env id = true ↔ st.err = none ∧ id < env.count := by
  simp [FH.canVisit]

theorem Good.field {env : Env V} {src : List Nat} {st st' : FH V} {id : Nat} (hc : env.count < 64)
    (h : Good env src st) (hf : FH.onField env st id = some st') : Good env src st' := by
  unfold FH.onField at hf
  split at hf
  · exact absurd hf (by simp)
  · rename_i st1 h1
    obtain ⟨g1, g2⟩ := h.enter hc h1
    split at hf
    · rename_i hcv
      have hcv := canVisit_iff.1 hcv
      exact g1.visit hcv.1 (g2 hcv.1).1 (g2 hcv.1).2.1 hf
    · simp at hf; rw [← hf]; exact g1

theorem Good.specs {env : Env V} {src : List Nat} {st st' : FH V} {id : Nat} {pos p : List Nat}
    (hc : env.count < 64) (h : Good env src st) (hf : FH.onSpecs env st id pos = some (st', p)) :
    Good env src st' := by
  unfold FH.onSpecs at hf
  split at hf
  · exact absurd hf (by simp)
  · rename_i st1 h1
    obtain ⟨g1, g2⟩ := h.enter hc h1
    split at hf
    · dsimp only at hf
      split at hf
      · rename_i hcv
        have hcv := canVisit_iff.1 hcv
        simp only [Option.map_eq_some_iff, Prod.mk.injEq] at hf
        obtain ⟨a, ha, rfl, _⟩ := hf
        have he : st1.err = none := hcv.1
        exact (g1.setPos (env.custom st1.mixed id pos st1.src).1).visit he (g2 he).1 (g2 he).2.1 ha
      · simp at hf; rw [← hf.1]; exact g1.setPos _
    · split at hf
      · exact absurd hf (by simp)
      · split at hf
        · split at hf
          · simp at hf; rw [← hf.1]; exact g1
          · dsimp only at hf
            split at hf
            · rename_i hcv
              have hcv := canVisit_iff.1 hcv
              simp only [Option.map_eq_some_iff, Prod.mk.injEq] at hf
              obtain ⟨a, ha, rfl, _⟩ := hf
              exact (g1.setPos _).visit hcv.1 (g2 hcv.1).1 (g2 hcv.1).2.1 ha
            · simp at hf; rw [← hf.1]; exact g1.setPos _
        · simp at hf; rw [← hf.1]; exact g1.setErr _

theorem good_preserved (env : Env V) (src : List Nat) (hc : env.count < 64) :
    Preserved (runHandler env) (Good env src) where
  lit _ _ _ h hl := h.literal hl
  auto _ h := h.setId _ _
  man _ _ h := h.setId _ _
  field _ _ _ _ h hf := h.field hc hf
  specs _ _ _ _ _ h hf := h.specs hc hf
  err _ h := h.setErr _

theorem good_init (env : Env V) (fmt src : List Nat) (hc : env.count < 64) :
    Good env src (FH.init env.count fmt src : FH V) := by
  refine ⟨?_, ?_, ?_, ?_, ?_, ?_, ?_⟩
  · simp [FH.init]; omega
  · simp [FH.init]
  · simp [FH.init, visits]
  · simp [FH.init, visits]
  · simp [FH.init]
  · simp [FH.init, QuietAfterFailure]
  · exact Leads.nil _

/-- `check_args_exhausted` with fewer than 64 arguments. -/
theorem checkExhausted_cases {count : Nat} (hc : count < 64) (st : FH V) :
    st.checkExhausted count =
      some (if st.lower = 2 ^ count - 1 then st else { st with err := some .invalidFormatString }) := by
  unfold FH.checkExhausted
  have h1 : ¬ count ≥ 64 := by omega
  simp only [h1, if_false, hc, if_true, Nat.one_shiftLeft]
  split <;> rename_i h <;> simp_all [FH.onError]

theorem general_good {env : Env V} {fmt src : List Nat} {st : FH V} (hc : env.count < 64)
    (h : vscanGeneral env fmt src = some st) : Good env src st ∧
      (st.err = none → st.lower = 2 ^ env.count - 1) := by
  unfold vscanGeneral at h
  split at h
  · exact absurd h (by simp)
  · rename_i st1 h1
    have g := parseLoop_inv (good_preserved env src hc) _ _ _ _ (good_init env fmt src hc) h1
    rw [checkExhausted_cases hc] at h
    simp at h
    by_cases hm : st1.lower = 2 ^ env.count - 1
    · simp only [hm, if_true] at h; rw [← h]; exact ⟨g, fun _ => hm⟩
    · simp only [hm, if_false] at h; rw [← h]; exact ⟨g.setErr _, by simp⟩

end Scn
