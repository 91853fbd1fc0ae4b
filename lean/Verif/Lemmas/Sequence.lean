import Verif.Spec.Sequence
import Verif.Lemmas.Driver2
/-
A scan with default fields does what `leftToRight` says.
-/
namespace Scn
open Spec

variable {V : Type}

/-- The literal matcher as a step. -/
def litStep (env : Env V) (t s : List Nat) : Res (List Nat) :=
  match litLoop env t.length s t with
  | none => .ub
  | some (r, none) => .ok r
  | some (_, some e) => .err e

/-- All arguments below `i` have been read, nothing failed. -/
structure At (i : Nat) (st : FH V) : Prop where
  next : st.nextId = i
  err : st.err = none
  lower : st.lower = 2 ^ i - 1

theorem mask_step (i : Nat) : (2 ^ i - 1) ||| 1 <<< i = 2 ^ (i + 1) - 1 := by
  apply Nat.eq_of_testBit_eq
  intro j
  rw [Nat.testBit_or, Nat.testBit_two_pow_sub_one, Nat.testBit_two_pow_sub_one, Nat.one_shiftLeft, Nat.testBit_two_pow]
  by_cases h1 : j < i
  · simp [h1]; omega
  · by_cases h2 : j = i
    · simp [h2]
    · simp [h1]; omega

theorem onLiteral_ok {env : Env V} {st : FH V} {t r : List Nat} (h : litStep env t st.src = .ok r) :
    FH.onLiteral env st t = some { st with src := r, events := st.events ++ [Event.literal t st.src r none] } := by
  unfold litStep at h
  unfold FH.onLiteral
  split at h
  · cases h
  · rename_i r' hr; rw [hr]; cases h; rfl
  · cases h

theorem onLiteral_err {env : Env V} {st : FH V} {t : List Nat} {e : Err} (h : litStep env t st.src = .err e) :
    ∃ r, FH.onLiteral env st t =
      some { st with src := r, events := st.events ++ [Event.literal t st.src r (some e)], err := some e } := by
  unfold litStep at h
  unfold FH.onLiteral
  split at h
  · cases h
  · cases h
  · rename_i r' e' hr; rw [hr]; cases h; exact ⟨r', rfl⟩

theorem onLiteral_ub {env : Env V} {st : FH V} {t : List Nat} (h : litStep env t st.src = .ub) :
    FH.onLiteral env st t = none := by
  unfold litStep at h
  unfold FH.onLiteral
  split at h
  · rename_i hr; rw [hr]
  · cases h
  · cases h

theorem parseField_default (env : Env V) (st : FH V) (rest : List Nat) :
    parseField (runHandler env) st (125 :: rest) =
      (FH.onField env st.autoId.1 st.autoId.2).map fun st => (st, rest) := rfl

theorem onField_at {env : Env V} {i : Nat} {st : FH V} (h : At i st) (hi : i < env.count) (h64 : i < 64) :
    FH.onField env st.autoId.1 st.autoId.2 =
      ({ st with nextId := ((i + 1 : Nat) : Int), lower := 2 ^ (i + 1) - 1 } : FH V).onVisit i (env.readDefault i st.src) := by
  have hn : nextArgId st.nextId = (((i + 1 : Nat) : Int), i) := by
    rw [h.next]; unfold nextArgId; rw [if_neg (by omega)]; simp
  unfold FH.autoId
  have hmx : (st.mixed || decide (st.nextId < 0)) = st.mixed := by
    rw [h.next]; simp only [show ¬ ((i : Int) < 0) by omega, decide_false, Bool.or_false]
  rw [hn, hmx]
  unfold FH.onField FH.enter
  rw [if_neg (by omega)]
  unfold FH.setVisited
  rw [if_neg (by omega)]
  have hv : ({ st with nextId := ((i + 1 : Nat) : Int) } : FH V).visited i = some false := by
    unfold FH.visited
    rw [if_pos h64]
    dsimp only
    rw [h.lower, Nat.testBit_two_pow_sub_one]; simp
  rw [hv]
  dsimp only
  rw [if_pos h64]
  simp only [Bool.false_eq_true, if_false]
  rw [if_pos (by simp [FH.canVisit, h.err, hi]), h.lower, mask_step]

theorem onField_failed {env : Env V} {i : Nat} {e : Err} {st : FH V} (hn : st.nextId = i) (he : st.err = some e)
    (hl : st.lower = 2 ^ i - 1) (hi : i < env.count) (h64 : i < 64) :
    ∃ st', FH.onField env st.autoId.1 st.autoId.2 = some st' ∧ st'.err = some e := by
  have hn' : nextArgId st.nextId = (((i + 1 : Nat) : Int), i) := by
    rw [hn]; unfold nextArgId; rw [if_neg (by omega)]; simp
  unfold FH.autoId
  rw [hn']
  unfold FH.onField FH.enter
  rw [if_neg (by omega)]
  unfold FH.setVisited
  rw [if_neg (by omega)]
  have hv : ({ st with nextId := ((i + 1 : Nat) : Int), mixed := st.mixed || decide (st.nextId < 0) } : FH V).visited i = some false := by
    unfold FH.visited
    rw [if_pos h64]
    dsimp only
    rw [hl, Nat.testBit_two_pow_sub_one]; simp
  rw [hv]
  dsimp only
  rw [if_pos h64]
  simp only [Bool.false_eq_true, if_false]
  rw [if_neg (by simp [FH.canVisit, he])]
  exact ⟨_, rfl, he⟩

/-- A successful run of the parser over the fields. -/
theorem loop_ok {env : Env V} (gaps : List (List Nat)) (last : List Nat) (hg : ∀ g ∈ gaps, NoBrace g) (hl : NoBrace last) :
    ∀ (n i : Nat) (st : FH V) (vs : List V) (r : List Nat), At i st → gaps.length < n → i + gaps.length ≤ env.count →
      env.count < 64 → leftToRight (litStep env) env.readDefault i gaps last st.src = .ok (vs, r) →
      ∃ st', parseLoop (runHandler env) n st (fieldsFormat gaps last) = some st' ∧ At (i + gaps.length) st' ∧ st'.src = r ∧
        stored st'.events = stored st.events ++ numberedFrom i vs := by
  induction gaps with
  | nil =>
    intro n i st vs r hat hn hc h64 h
    obtain ⟨n, rfl⟩ : ∃ k, n = k + 1 := ⟨n - 1, by simp at hn; omega⟩
    simp only [leftToRight] at h
    show ∃ st', parseLoop (runHandler env) (n + 1) st last = some st' ∧ _
    rw [parseLoop_end _ _ _ hl]
    cases hlit : litStep env last st.src with
    | ub => rw [hlit] at h; cases h
    | err e => rw [hlit] at h; cases h
    | ok r' =>
      rw [hlit] at h; cases h
      refine ⟨_, onLiteral_ok hlit, ⟨hat.next, hat.err, hat.lower⟩, rfl, ?_⟩
      simp [stored, numberedFrom]
  | cons g gs ih =>
    intro n i st vs r hat hn hc h64 h
    obtain ⟨n, rfl⟩ : ∃ k, n = k + 1 := ⟨n - 1, by simp at hn; omega⟩
    simp only [List.length_cons] at hn hc
    have hfmt : fieldsFormat (g :: gs) last = g ++ 123 :: (125 :: fieldsFormat gs last) := by simp [fieldsFormat]
    rw [hfmt, parseLoop_open _ _ _ (hg g (by simp))]
    simp only [leftToRight] at h
    cases hlit : litStep env g st.src with
    | ub => rw [hlit] at h; cases h
    | err e => rw [hlit] at h; cases h
    | ok s1 =>
      rw [hlit, Res.bind_ok] at h
      rw [show (runHandler env).onLiteral st g = _ from onLiteral_ok hlit]
      dsimp only
      rw [parseField_default, onField_at (i := i)
        (st := { st with src := s1, events := st.events ++ [Event.literal g st.src s1 none] }) ⟨hat.next, hat.err, hat.lower⟩
        (by omega) (by omega)]
      dsimp only
      cases hrd : env.readDefault i s1 with
      | ub => rw [hrd] at h; cases h
      | err e => rw [hrd] at h; cases h
      | ok a =>
        obtain ⟨v, s2⟩ := a
        rw [hrd, Res.bind_ok] at h
        dsimp only at h
        cases hrec : leftToRight (litStep env) env.readDefault (i + 1) gs last s2 with
        | ub => rw [hrec] at h; cases h
        | err e => rw [hrec] at h; cases h
        | ok q =>
          rw [hrec] at h; cases h
          simp only [FH.onVisit, Option.map_some]
          rw [if_neg (by simp [runHandler, hat.err])]
          obtain ⟨st', h1, h2, h3, h4⟩ := ih (fun g hg' => hg g (by simp [hg'])) n (i + 1)
            { st with nextId := ((i + 1 : Nat) : Int), lower := 2 ^ (i + 1) - 1, src := s2,
                      events := st.events ++ [Event.literal g st.src s1 none] ++ [Event.visit i s1 (.ok (v, s2))] } q.1 q.2
            ⟨rfl, hat.err, rfl⟩ (by omega) (by omega) h64 hrec
          refine ⟨st', h1, by rw [List.length_cons]; rw [show i + (gs.length + 1) = i + 1 + gs.length by omega]; exact h2, h3, ?_⟩
          rw [h4]
          simp [stored, numberedFrom]

/-- A failing run of the parser over the fields. -/
theorem loop_err {env : Env V} (gaps : List (List Nat)) (last : List Nat) (hg : ∀ g ∈ gaps, NoBrace g) (hl : NoBrace last) :
    ∀ (n i : Nat) (st : FH V) (e : Err), At i st → gaps.length < n → i + gaps.length ≤ env.count →
      env.count < 64 → leftToRight (litStep env) env.readDefault i gaps last st.src = .err e →
      ∃ st', parseLoop (runHandler env) n st (fieldsFormat gaps last) = some st' ∧ st'.err = some e := by
  induction gaps with
  | nil =>
    intro n i st e hat hn hc h64 h
    obtain ⟨n, rfl⟩ : ∃ k, n = k + 1 := ⟨n - 1, by simp at hn; omega⟩
    simp only [leftToRight] at h
    show ∃ st', parseLoop (runHandler env) (n + 1) st last = some st' ∧ _
    rw [parseLoop_end _ _ _ hl]
    cases hlit : litStep env last st.src with
    | ub => rw [hlit] at h; cases h
    | ok r' => rw [hlit] at h; cases h
    | err e' =>
      rw [hlit] at h; cases h
      obtain ⟨r, hr⟩ := onLiteral_err hlit
      exact ⟨_, hr, rfl⟩
  | cons g gs ih =>
    intro n i st e hat hn hc h64 h
    obtain ⟨n, rfl⟩ : ∃ k, n = k + 1 := ⟨n - 1, by simp at hn; omega⟩
    simp only [List.length_cons] at hn hc
    have hfmt : fieldsFormat (g :: gs) last = g ++ 123 :: (125 :: fieldsFormat gs last) := by simp [fieldsFormat]
    rw [hfmt, parseLoop_open _ _ _ (hg g (by simp))]
    simp only [leftToRight] at h
    cases hlit : litStep env g st.src with
    | ub => rw [hlit] at h; cases h
    | err e' =>
      rw [hlit] at h; cases h
      obtain ⟨r, hr⟩ := onLiteral_err hlit
      rw [show (runHandler env).onLiteral st g = _ from hr]
      dsimp only
      rw [parseField_default]
      obtain ⟨st', h1, h2⟩ := onField_failed (env := env) (i := i) (e := e)
        (st := { st with src := r, events := st.events ++ [Event.literal g st.src r (some e)], err := some e })
        hat.next rfl hat.lower (by omega) (by omega)
      rw [h1, Option.map_some]
      dsimp only
      rw [if_pos (by simp [runHandler, h2])]
      exact ⟨_, rfl, h2⟩
    | ok s1 =>
      rw [hlit, Res.bind_ok] at h
      rw [show (runHandler env).onLiteral st g = _ from onLiteral_ok hlit]
      dsimp only
      rw [parseField_default, onField_at (i := i)
        (st := { st with src := s1, events := st.events ++ [Event.literal g st.src s1 none] }) ⟨hat.next, hat.err, hat.lower⟩
        (by omega) (by omega)]
      dsimp only
      cases hrd : env.readDefault i s1 with
      | ub => rw [hrd] at h; cases h
      | err e' =>
        rw [hrd] at h; cases h
        simp only [FH.onVisit, Option.map_some]
        rw [if_pos (by simp [runHandler, FH.onError])]
        exact ⟨_, rfl, rfl⟩
      | ok a =>
        obtain ⟨v, s2⟩ := a
        rw [hrd, Res.bind_ok] at h
        dsimp only at h
        cases hrec : leftToRight (litStep env) env.readDefault (i + 1) gs last s2 with
        | ub => rw [hrec] at h; cases h
        | ok q => rw [hrec] at h; cases h
        | err e' =>
          rw [hrec] at h; cases h
          simp only [FH.onVisit, Option.map_some]
          rw [if_neg (by simp [runHandler, hat.err])]
          exact ih (fun g hg' => hg g (by simp [hg'])) n (i + 1)
            { st with nextId := ((i + 1 : Nat) : Int), lower := 2 ^ (i + 1) - 1, src := s2,
                      events := st.events ++ [Event.literal g st.src s1 none] ++ [Event.visit i s1 (.ok (v, s2))] } e
            ⟨rfl, hat.err, rfl⟩ (by omega) (by omega) h64 hrec

theorem fieldsFormat_length (gaps : List (List Nat)) (last : List Nat) : gaps.length ≤ (fieldsFormat gaps last).length := by
  unfold fieldsFormat
  rw [List.length_append]
  have : gaps.length ≤ (gaps.flatMap fun g => g ++ [123, 125]).length := by
    induction gaps with
    | nil => simp
    | cons g gs ih => rw [List.flatMap_cons, List.length_append, List.length_append, List.length_cons]; simp only [List.length_cons, List.length_nil]; omega
  omega

theorem general_ok {env : Env V} (gaps : List (List Nat)) (last : List Nat) (hg : ∀ g ∈ gaps, NoBrace g) (hl : NoBrace last)
    (hc : env.count = gaps.length) (h64 : env.count < 64) (src : List Nat) (vs : List V) (r : List Nat)
    (h : leftToRight (litStep env) env.readDefault 0 gaps last src = .ok (vs, r)) :
    ∃ st, vscanGeneral env (fieldsFormat gaps last) src = some st ∧ st.err = none ∧ st.src = r ∧
      stored st.events = numberedFrom 0 vs := by
  have hfuel : gaps.length < parseFuel env.count (fieldsFormat gaps last) := by
    have := fieldsFormat_length gaps last
    unfold parseFuel
    calc gaps.length < 1 * ((fieldsFormat gaps last).length + 2) := by omega
      _ ≤ _ := Nat.mul_le_mul_right _ (by omega)
  obtain ⟨st, h1, h2, h3, h4⟩ := loop_ok gaps last hg hl _ 0 (FH.init env.count (fieldsFormat gaps last) src) vs r
    ⟨rfl, rfl, rfl⟩ hfuel (by omega) h64 h
  refine ⟨st, ?_, h2.err, h3, by rw [h4]; simp [FH.init, stored]⟩
  unfold vscanGeneral
  rw [h1]
  dsimp only
  unfold FH.checkExhausted
  dsimp only
  have hm : st.lower = if env.count ≥ 64 then 2 ^ 64 - 1 else 1 <<< env.count - 1 := by
    rw [h2.lower, if_neg (by omega), Nat.one_shiftLeft, hc, Nat.zero_add]
  rw [if_neg (fun h => h hm), if_pos h64]

theorem general_err {env : Env V} (gaps : List (List Nat)) (last : List Nat) (hg : ∀ g ∈ gaps, NoBrace g) (hl : NoBrace last)
    (hc : env.count = gaps.length) (h64 : env.count < 64) (src : List Nat) (e : Err)
    (h : leftToRight (litStep env) env.readDefault 0 gaps last src = .err e) :
    ∃ st e', vscanGeneral env (fieldsFormat gaps last) src = some st ∧ st.err = some e' ∧ (e' = e ∨ e' = .invalidFormatString) := by
  have hfuel : gaps.length < parseFuel env.count (fieldsFormat gaps last) := by
    have := fieldsFormat_length gaps last
    unfold parseFuel
    calc gaps.length < 1 * ((fieldsFormat gaps last).length + 2) := by omega
      _ ≤ _ := Nat.mul_le_mul_right _ (by omega)
  obtain ⟨st, h1, h2⟩ := loop_err gaps last hg hl _ 0 (FH.init env.count (fieldsFormat gaps last) src) e
    ⟨rfl, rfl, rfl⟩ hfuel (by omega) h64 h
  unfold vscanGeneral
  rw [h1]
  dsimp only
  unfold FH.checkExhausted
  dsimp only
  by_cases hm : st.lower ≠ if env.count ≥ 64 then 2 ^ 64 - 1 else 1 <<< env.count - 1
  · rw [if_pos hm]; exact ⟨_, _, rfl, rfl, Or.inr rfl⟩
  · rw [if_neg hm, if_pos h64]; exact ⟨st, e, rfl, h2, Or.inl rfl⟩

theorem litStep_nil (env : Env V) (s : List Nat) : litStep env [] s = .ok s := by simp [litStep, litLoop]

theorem fieldsFormat_braces {gaps : List (List Nat)} {last : List Nat} (hg : ∀ g ∈ gaps, NoBrace g) (hl : NoBrace last)
    (h : fieldsFormat gaps last = [123, 125]) : gaps = [[]] ∧ last = [] := by
  cases gaps with
  | nil =>
    exfalso
    have : last = [123, 125] := by simpa [fieldsFormat] using h
    have := hl 123 (by rw [this]; simp)
    simp [isBrace] at this
  | cons g gs =>
    have h' : g ++ (123 :: 125 :: fieldsFormat gs last) = [123, 125] := by simpa [fieldsFormat] using h
    have hg0 : g = [] := by
      cases g with
      | nil => rfl
      | cons c cs =>
        exfalso
        simp only [List.cons_append, List.cons.injEq] at h'
        have := hg (c :: cs) (by simp) c (by simp)
        rw [h'.1] at this
        simp [isBrace] at this
    subst hg0
    have h2 : fieldsFormat gs last = [] := by simpa using h'
    have h3 := fieldsFormat_length gs last
    rw [h2] at h3
    have : gs = [] := List.length_eq_zero_iff.1 (by simpa using h3)
    subst this
    exact ⟨rfl, by simpa [fieldsFormat] using h2⟩

theorem vscan_ok {env : Env V} (gaps : List (List Nat)) (last : List Nat) (hg : ∀ g ∈ gaps, NoBrace g) (hl : NoBrace last)
    (hc : env.count = gaps.length) (h64 : env.count < 64) (src : List Nat) (vs : List V) (r : List Nat)
    (h : leftToRight (litStep env) env.readDefault 0 gaps last src = .ok (vs, r)) :
    ∃ evs, vscan env (fieldsFormat gaps last) src = some (.ok r, evs) ∧ stored evs = numberedFrom 0 vs := by
  unfold vscan
  by_cases hb : fieldsFormat gaps last = [123, 125] ∧ env.count = 1
  · rw [if_pos hb]
    obtain ⟨rfl, rfl⟩ := fieldsFormat_braces hg hl hb.1
    simp only [leftToRight, litStep_nil, Res.bind_ok, Res.map_ok] at h
    unfold scanSimple
    cases hrd : env.readDefault 0 src with
    | ub => rw [hrd] at h; cases h
    | err e => rw [hrd] at h; cases h
    | ok a => rw [hrd, Res.bind_ok] at h; cases h; exact ⟨_, rfl, rfl⟩
  · rw [if_neg hb]
    obtain ⟨st, h1, h2, h3, h4⟩ := general_ok gaps last hg hl hc h64 src vs r h
    rw [h1, Option.map_some, h2, h3]
    exact ⟨_, rfl, h4⟩

theorem vscan_err {env : Env V} (gaps : List (List Nat)) (last : List Nat) (hg : ∀ g ∈ gaps, NoBrace g) (hl : NoBrace last)
    (hc : env.count = gaps.length) (h64 : env.count < 64) (src : List Nat) (e : Err)
    (h : leftToRight (litStep env) env.readDefault 0 gaps last src = .err e) :
    ∃ evs e', vscan env (fieldsFormat gaps last) src = some (.error e', evs) ∧ (e' = e ∨ e' = .invalidFormatString) := by
  unfold vscan
  by_cases hb : fieldsFormat gaps last = [123, 125] ∧ env.count = 1
  · rw [if_pos hb]
    obtain ⟨rfl, rfl⟩ := fieldsFormat_braces hg hl hb.1
    simp only [leftToRight, litStep_nil, Res.bind_ok, Res.map_ok] at h
    unfold scanSimple
    cases hrd : env.readDefault 0 src with
    | ub => rw [hrd] at h; cases h
    | err e => rw [hrd] at h; cases h; exact ⟨_, _, rfl, Or.inl rfl⟩
    | ok a => rw [hrd, Res.bind_ok] at h; cases h
  · rw [if_neg hb]
    obtain ⟨st, e', h1, h2, h3⟩ := general_err gaps last hg hl hc h64 src e h
    rw [h1, Option.map_some, h2]
    exact ⟨_, e', rfl, h3⟩

end Scn
