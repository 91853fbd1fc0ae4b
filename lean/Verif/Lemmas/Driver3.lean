import Verif.Lemmas.Driver2
/-
The reported error, the final position, literal text, the compile-time checker's totality.
-/
namespace Scn
open Spec
variable {V : Type} {σ τ : Type}

/-! ### Where the reported error comes from -/

/-- The current error is `invalid_format_string` or the error of some failed event. -/
def Caused (st : FH V) : Prop :=
  ∀ e, st.err = some e → e = .invalidFormatString ∨ ∃ ev ∈ st.events, failure ev = some e

theorem Caused.more {st st' : FH V} (h : Caused st) (he : st'.err = st.err)
    (hev : ∃ l, st'.events = st.events ++ l) : Caused st' := by
  intro e h1
  rw [he] at h1
  obtain ⟨l, hl⟩ := hev
  rcases h e h1 with h2 | ⟨ev, h2, h3⟩
  · exact Or.inl h2
  · exact Or.inr ⟨ev, by rw [hl]; exact List.mem_append_left _ h2, h3⟩

theorem caused_fmt (st : FH V) : Caused (st.onError .invalidFormatString) := by
  intro e h; simp [FH.onError] at h; exact Or.inl h.symm

theorem Caused.visit {st st' : FH V} {id : Nat} {res : Res (V × List Nat)} (h : Caused st)
    (hv : st.onVisit id res = some st') : Caused st' := by
  rcases onVisit_cases hv with ⟨e, rfl, rfl⟩ | ⟨v, r, rfl, rfl⟩
  · intro e' he
    simp only [Option.some.injEq] at he
    subst he
    exact Or.inr ⟨Event.visit id st.src (.err e), List.mem_append_right _ (by simp), rfl⟩
  · exact h.more rfl ⟨_, rfl⟩

theorem Caused.enter {env : Env V} {st st' : FH V} {id : Nat} (h : Caused st) (he : st.enter env id = some st') :
    Caused st' ∧ st'.events = st.events := by
  unfold FH.enter FH.setVisited at he
  split at he
  · simp only [Option.some.injEq] at he
    rw [← he]; exact ⟨caused_fmt _, rfl⟩
  · split at he
    · exact absurd he (by simp)
    · rename_i v _
      dsimp only at he
      have key : Caused (if v = true then st.onError .invalidFormatString else st) ∧
          (if v = true then st.onError .invalidFormatString else st).events = st.events := by
        split
        · exact ⟨caused_fmt _, rfl⟩
        · exact ⟨h, rfl⟩
      generalize (if v = true then st.onError .invalidFormatString else st) = st1 at he key
      split at he
      · simp only [Option.some.injEq] at he
        rw [← he]; exact ⟨key.1, key.2⟩
      · split at he
        · exact absurd he (by simp)
        · simp only [Option.some.injEq] at he
          rw [← he]; exact ⟨key.1, key.2⟩

theorem caused_preserved (env : Env V) : Preserved (runHandler env) (Caused (V := V)) where
  lit st t st' h hl := by
    obtain ⟨s, f, _, rfl⟩ := onLiteral_cases hl
    cases f with
    | none => exact h.more rfl ⟨_, rfl⟩
    | some x =>
      intro e he
      simp at he
      subst he
      exact Or.inr ⟨Event.literal t st.src s (some x), List.mem_append_right _ (by simp), rfl⟩
  auto st h := h
  man st id h := h
  field st id pos st' h hf := by
    simp only [runHandler, FH.onField] at hf
    split at hf
    · exact absurd hf (by simp)
    · rename_i st1 h1
      have hc1 := (h.enter h1).1
      split at hf
      · exact hc1.visit hf
      · simp at hf; rw [← hf]; exact hc1
  specs st id pos st' p h hf := by
    simp only [runHandler, FH.onSpecs] at hf
    split at hf
    · exact absurd hf (by simp)
    · rename_i st1 h1
      have hc1 : Caused st1 := (h.enter h1).1
      have hpos : ∀ q, Caused { st1 with fmtPos := q } := fun q => hc1
      split at hf
      · split at hf
        · simp only [Option.map_eq_some_iff, Prod.mk.injEq] at hf
          obtain ⟨a, ha, rfl, _⟩ := hf
          exact (hpos _).visit ha
        · simp at hf; rw [← hf.1]; exact hpos _
      · split at hf
        · exact absurd hf (by simp)
        · split at hf
          · split at hf
            · simp at hf; rw [← hf.1]; exact hc1
            · split at hf
              · simp only [Option.map_eq_some_iff, Prod.mk.injEq] at hf
                obtain ⟨a, ha, rfl, _⟩ := hf
                exact (hpos _).visit ha
              · simp at hf; rw [← hf.1]; exact hpos _
          · simp at hf; rw [← hf.1]; exact caused_fmt _
  err st h := caused_fmt st

theorem general_caused {env : Env V} {fmt src : List Nat} {st : FH V} (hc : env.count < 64)
    (h : vscanGeneral env fmt src = some st) : Caused st := by
  unfold vscanGeneral at h
  split at h
  · exact absurd h (by simp)
  · rename_i st1 h1
    have hinit : Caused (FH.init env.count fmt src : FH V) := by
      intro e he; simp [FH.init] at he
    have g := parseLoop_inv (caused_preserved env) _ _ _ _ hinit h1
    rw [checkExhausted_cases hc] at h
    simp only [Option.some.injEq] at h
    rw [← h]
    split
    · exact g
    · exact caused_fmt st1

/-! ### A failing reader ends the call with its error -/

/-- The errors of failed readers. -/
def visitErr : Event V → Option Err
  | .visit _ _ (.err e) => some e
  | _ => none

def visitErrs (evs : List (Event V)) : List Err := evs.filterMap visitErr

theorem visitErrs_append (a b : List (Event V)) : visitErrs (a ++ b) = visitErrs a ++ visitErrs b := by
  simp [visitErrs]

/-- Either no reader has failed, or exactly one has and its error is the current one. -/
def OneFailure (st : FH V) : Prop :=
  visitErrs st.events = [] ∨ ∃ e, visitErrs st.events = [e] ∧ st.err = some e

theorem literal_visitErrs {env : Env V} {st st' : FH V} {t : List Nat} (h : FH.onLiteral env st t = some st') :
    visitErrs st'.events = visitErrs st.events := by
  obtain ⟨s, f, _, rfl⟩ := onLiteral_cases h
  simp only [visitErrs_append]
  exact List.append_nil _

theorem visit_oneFailure {st st' : FH V} {id : Nat} {res : Res (V × List Nat)} (h : visitErrs st.events = [])
    (hv : st.onVisit id res = some st') : OneFailure st' := by
  rcases onVisit_cases hv with ⟨e, rfl, rfl⟩ | ⟨v, r, rfl, rfl⟩
  · right; refine ⟨e, ?_, rfl⟩
    simp only [visitErrs_append, h]; rfl
  · left
    simp only [visitErrs_append, h]; rfl

theorem enter_events {env : Env V} {st st' : FH V} {id : Nat} (he : st.enter env id = some st') :
    st'.events = st.events := by
  unfold FH.enter FH.setVisited at he
  split at he
  · simp only [Option.some.injEq] at he
    rw [← he]; rfl
  · split at he
    · exact absurd he (by simp)
    · rename_i v _
      dsimp only at he
      have key : (if v = true then st.onError .invalidFormatString else st).events = st.events := by
        split <;> rfl
      generalize (if v = true then st.onError .invalidFormatString else st) = st1 at he key
      split at he
      · simp only [Option.some.injEq] at he
        rw [← he]; exact key
      · split at he
        · exact absurd he (by simp)
        · simp only [Option.some.injEq] at he
          rw [← he]; exact key

theorem field_oneFailure {env : Env V} {st st' : FH V} {id : Nat} (h : visitErrs st.events = [])
    (hf : FH.onField env st id = some st') : OneFailure st' := by
  unfold FH.onField at hf
  split at hf
  · exact absurd hf (by simp)
  · rename_i st1 h1
    have h2 : visitErrs st1.events = [] := by rw [enter_events h1]; exact h
    split at hf
    · exact visit_oneFailure h2 hf
    · simp at hf; rw [← hf]; exact Or.inl h2

theorem specs_oneFailure {env : Env V} {st st' : FH V} {id : Nat} {pos p : List Nat}
    (hcust : env.argTy id ≠ .custom) (h : visitErrs st.events = [])
    (hf : FH.onSpecs env st id pos = some (st', p)) :
    visitErrs st'.events = [] ∨ (OneFailure st' ∧ ∃ q, p = 125 :: q) := by
  unfold FH.onSpecs at hf
  split at hf
  · exact absurd hf (by simp)
  · rename_i st1 h1
    have h2 : visitErrs st1.events = [] := by rw [enter_events h1]; exact h
    rw [if_neg hcust] at hf
    split at hf
    · exact absurd hf (by simp)
    · split at hf
      · rename_i q _
        split at hf
        · simp at hf; rw [← hf.1]; exact Or.inl h2
        · dsimp only at hf
          split at hf
          · simp only [Option.map_eq_some_iff, Prod.mk.injEq] at hf
            obtain ⟨a, ha, rfl, rfl⟩ := hf
            right
            refine ⟨visit_oneFailure (st := { st1 with fmtPos := 125 :: q }) h2 ha, q, ?_⟩
            rcases onVisit_cases ha with ⟨e, _, rfl⟩ | ⟨v, r, _, rfl⟩ <;> rfl
          · simp at hf; rw [← hf.1]; exact Or.inl h2
      · simp at hf; rw [← hf.1]; exact Or.inl h2

theorem parseArgId_events {env : Env V} {st st' : FH V} {s p : List Nat} {id : Nat}
    (h : parseArgId (runHandler env) st s = some (st', id, p)) : st'.events = st.events :=
  parseArgId_inv (P := fun x : FH V => x.events = st.events)
    (H := { runHandler env with onLiteral := fun _ _ => none, onField := fun _ _ _ => none, onSpecs := fun _ _ _ => none })
    ⟨by simp, fun _ h => h, fun _ _ h => h, by simp, by simp, fun _ h => h⟩ rfl h

theorem parseField_oneFailure {env : Env V} (hcust : ∀ id, env.argTy id ≠ .custom) {st st' : FH V} {s p : List Nat}
    (h : visitErrs st.events = []) (hf : parseField (runHandler env) st s = some (st', p)) : OneFailure st' := by
  unfold parseField at hf
  split at hf
  · simp at hf; rw [← hf.1]; exact Or.inl h
  · simp only [Option.map_eq_some_iff, Prod.mk.injEq] at hf
    obtain ⟨a, ha, rfl, _⟩ := hf
    exact field_oneFailure (st := st.autoId.1) h ha
  · simp only [Option.map_eq_some_iff, Prod.mk.injEq] at hf
    obtain ⟨a, ha, rfl, _⟩ := hf
    exact Or.inl ((literal_visitErrs ha).trans h)
  · split at hf
    · exact absurd hf (by simp)
    · rename_i st1 id p1 hid
      have h1 : visitErrs st1.events = [] := by rw [parseArgId_events hid]; exact h
      split at hf
      · simp at hf; rw [← hf.1]; exact Or.inl h1
      · simp only [Option.map_eq_some_iff, Prod.mk.injEq] at hf
        obtain ⟨a, ha, rfl, _⟩ := hf
        exact field_oneFailure h1 ha
      · simp at hf; rw [← hf.1]; exact Or.inl h1
      · split at hf
        · exact absurd hf (by simp)
        · rename_i st2 p2 h2
          rcases specs_oneFailure (hcust id) h1 h2 with h3 | ⟨h3, q, rfl⟩
          · split at hf
            · simp at hf; rw [← hf.1]; exact Or.inl h3
            · simp at hf; rw [← hf.1]; exact Or.inl h3
          · simp at hf; rw [← hf.1]; exact h3
      · simp at hf; rw [← hf.1]; exact Or.inl h1

theorem parseLoop_oneFailure {env : Env V} (hcust : ∀ id, env.argTy id ≠ .custom) :
    ∀ (n : Nat) (st : FH V) (s : List Nat) (st' : FH V), visitErrs st.events = [] →
      parseLoop (runHandler env) n st s = some st' → OneFailure st' := by
  intro n
  induction n with
  | zero => intro st s st' _ h; simp [parseLoop] at h
  | succ n ih =>
    intro st s st' h hr
    unfold parseLoop at hr
    dsimp only at hr
    split at hr
    · exact Or.inl ((literal_visitErrs hr).trans h)
    · split at hr
      · split at hr
        · exact absurd hr (by simp)
        · rename_i st1 h1
          have h1' := (literal_visitErrs h1).trans h
          split at hr
          · exact absurd hr (by simp)
          · rename_i st2 s2 h2
            have h2' := parseField_oneFailure hcust h1' h2
            split at hr
            · simp at hr; rw [← hr]; exact h2'
            · rename_i hne
              rcases h2' with h3 | ⟨e, _, h4⟩
              · exact ih _ _ _ h3 hr
              · exfalso; apply hne; simp [runHandler, h4]
      · split at hr
        · split at hr
          · exact absurd hr (by simp)
          · rename_i st1 h1
            exact ih _ _ _ ((literal_visitErrs h1).trans h) hr
        · simp at hr; rw [← hr]; exact Or.inl h

/-! ### The "{}" format on the general path -/

theorem general_braces {env : Env V} (hc : env.count = 1) (src : List Nat) :
    (vscanGeneral env [123, 125] src).map (fun st =>
      ((match st.err with | some e => Except.error e | none => Except.ok st.src), reads st.events)) =
    match env.readDefault 0 src with
    | .ub => none
    | .err e => some (.error e, [(0, src, .err e)])
    | .ok (v, rest) => some (.ok rest, [(0, src, .ok (v, rest))]) := by
  have hfuel : parseFuel env.count [123, 125] = 10 + 2 := by rw [hc]; rfl
  unfold vscanGeneral
  rw [hfuel]
  have h1 : parseLoop (runHandler env) (10 + 2) (FH.init env.count [123, 125] src) ([] ++ 123 :: [125]) =
      _ := parseLoop_open (runHandler env) (10 + 1) (FH.init env.count [123, 125] src) NoBrace.nil [125]
  rw [List.nil_append] at h1
  rw [h1]
  have hl : (runHandler env).onLiteral (FH.init env.count [123, 125] src) [] =
      some { (FH.init env.count [123, 125] src : FH V) with
              events := [Event.literal [] src src none] } := by
    simp [runHandler, FH.onLiteral, litLoop, FH.init]
  rw [hl]
  simp only
  have hf : ∀ st : FH V, parseField (runHandler env) st [125] =
      (FH.onField env st.autoId.1 st.autoId.2).map
        fun st => (st, []) := fun st => rfl
  rw [hf]
  have hn : nextArgId (FH.init env.count [123, 125] src : FH V).nextId = (1, 0) := rfl
  simp only [FH.autoId, hn]
  simp only [FH.onField, FH.enter, FH.setVisited, FH.init, hc, FH.visited, FH.canVisit]
  simp only [show ¬ (0 : Nat) ≥ 1 by omega, if_false, show (0 : Nat) < 64 by omega, if_true,
    Nat.zero_testBit, Bool.false_eq_true, Option.isNone_none, show (0 : Nat) < 1 by omega, decide_true, Bool.and_self]
  cases hr : env.readDefault 0 src with
  | ub => simp [FH.onVisit]
  | err e =>
    simp [FH.onVisit, FH.onError, runHandler, FH.checkExhausted, reads]
  | ok a =>
    obtain ⟨v, rest⟩ := a
    simp [FH.onVisit, runHandler, FH.checkExhausted, reads, parseLoop, FH.onLiteral, litLoop]

end Scn
