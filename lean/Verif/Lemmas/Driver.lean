import Verif.Lemmas.Lockstep
/-
The driver terminates and never leaves the format string; literal text; the error reported.
-/
namespace Scn
open Spec
variable {V : Type} {σ τ : Type}

/-! ### Literal text -/

theorem getNext_suffix {e : Enc} {s p : List Nat} {cp : Nat} (h : getNext e s = some (p, cp)) :
    p <:+ s ∧ p.length < s.length := by
  cases s with
  | nil => simp [getNext] at h
  | cons c cs =>
    have hl := getNext_length h
    refine ⟨?_, hl⟩
    have := getNext_progress e (c :: cs) (by simp)
    obtain ⟨used, rest, cp', h1, h2, h3⟩ := this
    rw [h1] at h
    simp only [Option.some.injEq, Prod.mk.injEq] at h
    rw [← h.1]
    exact ⟨used, h3.symm⟩

/-- The literal loop is total and leaves the source at a suffix. -/
theorem litLoop_total (env : Env V) (U : List Nat → Prop) (hdown : ∀ s t, U s → t <:+ s → U t)
    (hsk : ∀ s, U s → ∃ s', env.skip s = some s' ∧ s' <:+ s) (n : Nat) :
    ∀ (src t : List Nat), U src → UnitsOk env.enc t → t.length ≤ n →
      ∃ r f, litLoop env n src t = some (r, f) ∧ r <:+ src := by
  induction n with
  | zero =>
    intro src t _ _ h
    have : t = [] := List.length_eq_zero_iff.1 (by omega)
    subst this
    exact ⟨src, none, by simp [litLoop], List.suffix_refl _⟩
  | succ n ih =>
    intro src t hU hu h
    cases t with
    | nil => exact ⟨src, none, by simp [litLoop], List.suffix_refl _⟩
    | cons c cs =>
      cases src with
      | nil => exact ⟨[], some .invalidLiteral, by simp [litLoop], List.suffix_refl _⟩
      | cons d ds =>
        obtain ⟨used, after, cp, h1, _, _⟩ := getNext_progress env.enc (c :: cs) (by simp)
        have hs := getNext_suffix h1
        simp only [litLoop, h1]
        split
        · exact ⟨_, _, rfl, List.suffix_refl _⟩
        · split
          · obtain ⟨s', hs1, hs2⟩ := hsk (d :: ds) hU
            obtain ⟨t', ht1, ht2⟩ := readWhileSpace_total env.enc after (hu.suffix hs.1)
            simp only [hs1, ht1]
            obtain ⟨r, f, hr1, hr2⟩ := ih s' t' (hdown _ _ hU hs2) (hu.suffix (ht2.trans hs.1)) (by
              have := ht2.length_le
              have := hs.2
              omega)
            exact ⟨r, f, hr1, hr2.trans hs2⟩
          · split
            · exact ⟨_, _, rfl, List.suffix_refl _⟩
            · obtain ⟨r, f, hr1, hr2⟩ := ih ds cs (hdown _ _ hU (List.suffix_cons _ _)) (hu.suffix (List.suffix_cons _ _)) (by simpa using h)
              exact ⟨r, f, hr1, suffix_cons_of hr2⟩


/-! ### Totality of the driver -/

/-- What the driver relies on, for sources that satisfy `U` (for instance: all units are bytes):
    the whitespace skipper and the readers (with the specifications of the format string) have no
    undefined behaviour and stay inside the source,
    a custom reader stays inside the format string, and no argument is a `regex_matches`, or there is no `L` in the format string. -/
structure EnvOk (env : Env V) (U : List Nat → Prop) (fmt : List Nat) : Prop where
  down : ∀ s t, U s → t <:+ s → U t
  skip : ∀ s, U s → ∃ s', env.skip s = some s' ∧ s' <:+ s
  dflt : ∀ id s, id < env.count → U s → env.readDefault id s ≠ .ub ∧ ∀ v r, env.readDefault id s = .ok (v, r) → r <:+ s
  specs : ∀ id pos setter p s, id < env.count → 58 :: pos <:+ fmt → parseSpecs env.cfg env.enc (env.argTy id) ⟨{}, false⟩ pos = some (setter, p) →
    setter.err = false → U s →
    env.readSpecs id setter.specs s ≠ .ub ∧ ∀ v r, env.readSpecs id setter.specs s = .ok (v, r) → r <:+ s
  custom : ∀ id pos s, env.argTy id = .custom → U s → (env.readCustom id pos s).2 ≠ .ub ∧ (env.readCustom id pos s).1 <:+ pos ∧
    ∀ v r, (env.readCustom id pos s).2 = .ok (v, r) → r <:+ s
  types : ∀ id, id < env.count → (env.ty id).category ≠ none ∨ 76 ∉ fmt

theorem custom_ok {env : Env V} {m : Bool} {id : Nat} {pos s : List Nat} {x : V × List Nat} (h : (env.custom m id pos s).2 = .ok x) :
    (env.readCustom id pos s).2 = .ok x := by
  unfold Env.custom at h
  cases m with
  | true => cases h
  | false => exact h

theorem custom_total {env : Env V} {U : List Nat → Prop} {fmt : List Nat} (ho : EnvOk env U fmt) (id : Nat) (pos s : List Nat) (mixed : Bool)
    (ht : env.argTy id = .custom) (hU : U s) : (env.custom mixed id pos s).2 ≠ .ub ∧ (env.custom mixed id pos s).1 <:+ pos ∧
      ∀ v r, (env.custom mixed id pos s).2 = .ok (v, r) → r <:+ s := by
  unfold Env.custom
  cases mixed with
  | true => exact ⟨(fun h => by cases h), List.suffix_refl _, (fun v r h => by cases h)⟩
  | false => exact ho.custom id pos s ht hU

theorem onVisit_total {st : FH V} {id : Nat} {res : Res (V × List Nat)}
    (h : res ≠ .ub ∧ ∀ v r, res = .ok (v, r) → r <:+ st.src) :
    ∃ st', st.onVisit id res = some st' ∧ st'.fmtPos = st.fmtPos ∧ st'.lower = st.lower ∧ st'.src <:+ st.src := by
  unfold FH.onVisit
  cases res with
  | ub => exact absurd rfl h.1
  | err e => exact ⟨_, rfl, rfl, rfl, List.suffix_refl _⟩
  | ok a => exact ⟨_, rfl, rfl, rfl, h.2 a.1 a.2 rfl⟩

theorem enter_total {env : Env V} (hc : env.count < 64) (st : FH V) (id : Nat) :
    ∃ st', st.enter env id = some st' ∧ st'.fmtPos = st.fmtPos ∧ st'.src = st.src := by
  unfold FH.enter FH.setVisited
  by_cases hid : id ≥ env.count
  · simp only [hid, if_true]; exact ⟨_, rfl, rfl, rfl⟩
  · have h64 : id < 64 := by omega
    simp only [hid, if_false, FH.visited, h64, if_true]
    refine ⟨_, rfl, ?_, ?_⟩ <;> (dsimp only; split <;> rfl)

theorem onLiteral_total {env : Env V} {U : List Nat → Prop} {fmt : List Nat} (ho : EnvOk env U fmt) (st : FH V) (hU : U st.src)
    (t : List Nat) (hu : UnitsOk env.enc t) :
    ∃ st', FH.onLiteral env st t = some st' ∧ st'.fmtPos = st.fmtPos ∧ st'.lower = st.lower ∧ U st'.src := by
  obtain ⟨r, f, h, hr⟩ := litLoop_total env U ho.down ho.skip t.length st.src t hU hu (Nat.le_refl _)
  unfold FH.onLiteral
  rw [h]
  cases f <;> exact ⟨_, rfl, rfl, rfl, ho.down _ _ hU hr⟩

theorem canVisit_lt {env : Env V} {st : FH V} {id : Nat} (h : st.canVisit env id = true) : id < env.count := by
  unfold FH.canVisit at h
  simp only [Bool.and_eq_true, decide_eq_true_eq] at h
  exact h.2

theorem onField_total {env : Env V} {U : List Nat → Prop} {fmt : List Nat} (ho : EnvOk env U fmt) (hc : env.count < 64) (st : FH V)
    (hU : U st.src) (id : Nat) :
    ∃ st', FH.onField env st id = some st' ∧ st'.fmtPos = st.fmtPos ∧ U st'.src := by
  unfold FH.onField
  obtain ⟨st1, h1, h2, h2s⟩ := enter_total hc st id
  rw [h1]; dsimp only
  have hU1 : U st1.src := by rw [h2s]; exact hU
  split
  · obtain ⟨st2, h3, h4, _, h5⟩ := onVisit_total (st := st1) (id := id) (ho.dflt id st1.src (canVisit_lt (by assumption)) hU1)
    exact ⟨st2, h3, h4.trans h2, ho.down _ _ hU1 h5⟩
  · exact ⟨st1, rfl, h2, hU1⟩

theorem argTy_category {env : Env V} {U : List Nat → Prop} {fmt : List Nat} (ho : EnvOk env U fmt) (id : Nat) :
    (env.argTy id).category ≠ none ∨ 76 ∉ fmt := by
  unfold Env.argTy
  split
  · rename_i h; exact ho.types id h
  · exact Or.inl (by simp [ArgTy.category])

theorem onSpecs_total {env : Env V} {U : List Nat → Prop} {fmt : List Nat} (ho : EnvOk env U fmt) (hc : env.count < 64) (st : FH V)
    (hU : U st.src) (id : Nat) (pos : List Nat) (hcol : 58 :: pos <:+ fmt) (hfp : st.fmtPos <:+ fmt) :
    ∃ st' p, FH.onSpecs env st id pos = some (st', p) ∧ st'.fmtPos <:+ fmt ∧ p <:+ fmt ∧ U st'.src := by
  have hpos : pos <:+ fmt := (List.suffix_cons _ _).trans hcol
  unfold FH.onSpecs
  obtain ⟨st1, h1, h2, h2s⟩ := enter_total hc st id
  rw [h1]; dsimp only
  have hU1 : U st1.src := by rw [h2s]; exact hU
  split
  · split
    · obtain ⟨hcu, hcp, hcs⟩ := custom_total ho id pos st1.src st1.mixed (by assumption) hU1
      obtain ⟨st2, h3, h4, _, h5⟩ := onVisit_total
        (st := { st1 with fmtPos := (env.custom st1.mixed id pos st1.src).1 }) (id := id) ⟨hcu, hcs⟩
      simp only [h3, Option.map_some]
      refine ⟨st2, _, rfl, ?_, ?_, ho.down _ _ hU1 h5⟩ <;> (rw [h4]; exact hcp.trans hpos)
    · exact ⟨_, _, rfl, hpos, hpos, hU1⟩
  · obtain ⟨setter, p, hp, hps⟩ := parseSpecs_steps env.cfg env.enc (env.argTy id) ⟨{}, false⟩ pos
      ((argTy_category ho id).imp_right fun h hm => h (hpos.subset hm))
    rw [hp]; dsimp only
    have hp' : p <:+ fmt := hps.trans hpos
    have hf1 : st1.fmtPos <:+ fmt := by rw [h2]; exact hfp
    split
    · rename_i q
      split
      · exact ⟨st1, _, rfl, hf1, hf1, hU1⟩
      · split
        · obtain ⟨st2, h3, h4, _, h5⟩ := onVisit_total (st := { st1 with fmtPos := 125 :: q }) (id := id)
            (ho.specs id pos setter _ st1.src (canVisit_lt (by assumption)) hcol hp (Bool.eq_false_iff.2 (by assumption)) hU1)
          simp only [h3, Option.map_some]
          exact ⟨st2, _, rfl, by rw [h4]; exact hp', by rw [h4]; exact hp', ho.down _ _ hU1 h5⟩
        · exact ⟨_, _, rfl, hp', hp', hU1⟩
    · exact ⟨_, _, rfl, hf1, hf1, hU1⟩

/-! ### Progress -/

theorem countP_lt {α : Type} (p q : α → Bool) (l : List α) (h : ∀ x, p x = true → q x = true) {x : α} (hx : x ∈ l)
    (hp : p x = false) (hq : q x = true) : l.countP p < l.countP q := by
  induction l with
  | nil => simp at hx
  | cons a l ih =>
    have hle : l.countP p ≤ l.countP q := List.countP_mono_left (fun y _ => h y)
    rw [List.countP_cons, List.countP_cons]
    rcases List.mem_cons.1 hx with rfl | hx
    · rw [hp, hq]; simp; omega
    · have := ih hx
      have : (if p a = true then 1 else 0) ≤ (if q a = true then 1 else 0) := by
        split
        · rename_i ha; rw [if_pos (h a ha)]; exact Nat.le_refl 1
        · exact Nat.zero_le _
      omega

/-- How many arguments are not yet marked as visited. -/
def unvisited (count : Nat) (st : FH V) : Nat := (List.range count).countP fun i => ! st.lower.testBit i

theorem unvisited_lower {count : Nat} {st st' : FH V} (h : st'.lower = st.lower) :
    unvisited count st' = unvisited count st := by
  unfold unvisited; rw [h]

theorem unvisited_set {count : Nat} {st st' : FH V} {id : Nat} (hid : id < count) (hb : st.lower.testBit id = false)
    (h : st'.lower = st.lower ||| 1 <<< id) : unvisited count st' < unvisited count st := by
  unfold unvisited
  apply countP_lt (x := id)
  · intro x hx
    rw [h, testBit_or_shift] at hx
    cases hs : st.lower.testBit x
    · rfl
    · rw [hs] at hx; simp at hx
  · exact List.mem_range.2 hid
  · rw [h, testBit_or_shift]; simp
  · rw [hb]; rfl

theorem unvisited_le (count : Nat) (st : FH V) : unvisited count st ≤ count := by
  have := List.countP_le_length (p := fun i => ! st.lower.testBit i) (l := List.range count)
  rwa [List.length_range] at this

/-- Custom arguments too: the specification callback ended without error, so an argument was newly
    marked. -/
theorem onSpecs_progress {env : Env V} (hc : env.count < 64) {st st' : FH V} {id : Nat} {pos p : List Nat}
    (h : FH.onSpecs env st id pos = some (st', p)) (he : st'.err = none) :
    unvisited env.count st' < unvisited env.count st := by
  by_cases hcust : env.argTy id = .custom
  · simp only [FH.onSpecs, if_pos hcust] at h
    split at h
    · exact absurd h (by simp)
    · rename_i st1 h1
      have key : st1.err = none → unvisited env.count st1 < unvisited env.count st := by
        intro he1
        rcases enter_cases hc h1 with ⟨hi, rfl⟩ | ⟨hi, hb, rfl⟩ | ⟨hi, hb, rfl⟩
        · simp at he1
        · simp at he1
        · exact unvisited_set hi hb rfl
      split at h
      · rename_i hcv
        have hcv : st1.err = none := (canVisit_iff.1 hcv).1
        simp only [Option.map_eq_some_iff, Prod.mk.injEq] at h
        obtain ⟨a, ha, rfl, rfl⟩ := h
        obtain ⟨_, v, r, _, hst⟩ := onVisit_err ha he
        have : a.lower = st1.lower := by rw [hst]
        rw [unvisited_lower this]; exact key hcv
      · simp only [Option.some.injEq, Prod.mk.injEq] at h
        rw [← h.1] at he
        rw [← h.1]; exact key he
  · obtain ⟨hi, _, hb, setter, q, _, hcase⟩ := onSpecs_ok hc hcust h he
    rcases hcase with ⟨_, rfl, _⟩ | ⟨_, _, v, r, _, rfl⟩
    · exact unvisited_set hi hb rfl
    · exact unvisited_set hi hb rfl

theorem onField_progress {env : Env V} (hc : env.count < 64) {st st' : FH V} {id : Nat}
    (h : FH.onField env st id = some st') (he : st'.err = none) :
    unvisited env.count st' < unvisited env.count st := by
  obtain ⟨hi, _, hb, v, r, _, rfl⟩ := onField_ok hc h he
  exact unvisited_set hi hb rfl

theorem parseArgId_total {env : Env V} (st : FH V) (s fmt : List Nat) (hs : s ≠ []) (hsf : s <:+ fmt) :
    ∃ st' id p, parseArgId (runHandler env) st s = some (st', id, p) ∧ st'.fmtPos = st.fmtPos ∧
      st'.lower = st.lower ∧ p <:+ fmt ∧ st'.src = st.src := by
  cases s with
  | nil => exact absurd rfl hs
  | cons c cs =>
    simp only [parseArgId]
    split
    · exact ⟨_, _, _, rfl, rfl, rfl, hsf, rfl⟩
    · split
      · exact ⟨_, _, _, rfl, rfl, rfl, hsf, rfl⟩
      · have hsuf : (if c ≠ 48 then simpleIntLoop 0 (c :: cs) else ((0 : Int), cs)).2 <:+ fmt := by
          split
          · exact (simpleIntLoop_suffix _ _).trans hsf
          · exact (List.suffix_cons c cs).trans hsf
        generalize (if c ≠ 48 then simpleIntLoop 0 (c :: cs) else ((0 : Int), cs)) = w at hsuf
        obtain ⟨w1, w2⟩ := w
        cases w2 with
        | nil => exact ⟨_, _, _, rfl, rfl, rfl, hsuf, rfl⟩
        | cons d ds =>
          dsimp only
          split
          · exact ⟨_, _, _, rfl, rfl, rfl, hsuf, rfl⟩
          · exact ⟨_, _, _, rfl, rfl, rfl, hsuf, rfl⟩

theorem cons_suffix {c : Nat} {cs fmt : List Nat} (h : c :: cs <:+ fmt) : cs <:+ fmt :=
  (List.suffix_cons c cs).trans h

theorem parseField_total {env : Env V} {U : List Nat → Prop} {fmt : List Nat} (ho : EnvOk env U fmt) (hc : env.count < 64) (st : FH V)
    (hU : U st.src) (s : List Nat) (hsf : s <:+ fmt) (hfp : st.fmtPos <:+ fmt) :
    ∃ st' p, parseField (runHandler env) st s = some (st', p) ∧ st'.fmtPos <:+ fmt ∧ p <:+ fmt ∧ U st'.src ∧
      (st'.err ≠ none ∨ unvisited env.count st' < unvisited env.count st ∨
        (unvisited env.count st' = unvisited env.count st ∧ p.length < s.length)) := by
  unfold parseField
  split
  · exact ⟨_, _, rfl, hfp, by simp, hU, Or.inl (by simp [runHandler, FH.onError])⟩
  · rename_i rest
    obtain ⟨st', h1, h2, hU'⟩ := onField_total ho hc st.autoId.1 hU st.autoId.2
    refine ⟨st', rest, ?_, by rw [h2]; exact hfp, cons_suffix hsf, hU', ?_⟩
    · show Option.map _ (FH.onField env st.autoId.1 st.autoId.2) = _
      rw [h1]; rfl
    · by_cases he : st'.err = none
      · exact Or.inr (Or.inl (onField_progress hc h1 he :
          unvisited env.count st' < unvisited env.count st.autoId.1))
      · exact Or.inl he
  · rename_i rest
    obtain ⟨st', h1, h2, h3, hU'⟩ := onLiteral_total ho st hU [123] (by intro _ b hb; simp at hb; omega)
    refine ⟨st', rest, ?_, by rw [h2]; exact hfp, cons_suffix hsf, hU', Or.inr (Or.inr ⟨unvisited_lower h3, by simp⟩)⟩
    show Option.map _ (FH.onLiteral env st [123]) = _
    rw [h1]; rfl
  · rename_i n1 n2 n3
    have hs : s ≠ [] := fun h => n1 h
    obtain ⟨st1, id, p, h1, h2, h3, h4, hs1⟩ := parseArgId_total (env := env) st s fmt hs hsf
    rw [h1]; dsimp only
    have hU1 : U st1.src := by rw [hs1]; exact hU
    have hfp1 : st1.fmtPos <:+ fmt := by rw [h2]; exact hfp
    split
    · exact ⟨_, _, rfl, hfp1, by simp, hU1, Or.inl (by simp [runHandler, FH.onError])⟩
    · rename_i rest
      obtain ⟨st', h5, h6, hU'⟩ := onField_total ho hc st1 hU1 id
      refine ⟨st', rest, ?_, by rw [h6]; exact hfp1, cons_suffix h4, hU', ?_⟩
      · show Option.map _ (FH.onField env _ _) = _
        rw [h5]; rfl
      · by_cases he : st'.err = none
        · have := onField_progress hc h5 he
          rw [unvisited_lower (st' := st1) (st := st) h3] at this
          exact Or.inr (Or.inl this)
        · exact Or.inl he
    · exact ⟨_, _, rfl, hfp1, h4, hU1, Or.inl (by simp [runHandler, FH.onError])⟩
    · rename_i q hq
      obtain ⟨st', p', h5, h6, h7, hU'⟩ := onSpecs_total ho hc st1 hU1 id q h4 hfp1
      have h5' : (runHandler env).onSpecs st1 id q = some (st', p') := h5
      rw [h5']; dsimp only
      split
      · rename_i rest
        refine ⟨st', rest, rfl, h6, cons_suffix h7, hU', ?_⟩
        by_cases he : st'.err = none
        · have := onSpecs_progress hc h5 he
          rw [unvisited_lower (st' := st1) (st := st) h3] at this
          exact Or.inr (Or.inl this)
        · exact Or.inl he
      · exact ⟨_, _, rfl, h6, h7, hU', Or.inl (by simp [runHandler, FH.onError])⟩
    · exact ⟨_, _, rfl, hfp1, h4, hU1, Or.inl (by simp [runHandler, FH.onError])⟩

theorem onLiteral_lower {env : Env V} {st st' : FH V} {t : List Nat} (h : FH.onLiteral env st t = some st') :
    st'.lower = st.lower ∧ st'.fmtPos = st.fmtPos := by
  obtain ⟨s, f, _, rfl⟩ := onLiteral_cases h; exact ⟨rfl, rfl⟩

theorem takeWhile_units {e : Enc} {s : List Nat} (h : UnitsOk e s) (p : Nat → Bool) : UnitsOk e (s.takeWhile p) :=
  fun he b hb => h he b ((List.takeWhile_sublist p).subset hb)

theorem parseLoop_total {env : Env V} {U : List Nat → Prop} {fmt : List Nat} (ho : EnvOk env U fmt) (hc : env.count < 64)
    (hu : UnitsOk env.enc fmt) : ∀ (n : Nat) (st : FH V) (s : List Nat), U st.src → s <:+ fmt → st.fmtPos <:+ fmt →
      unvisited env.count st * (fmt.length + 1) + s.length < n →
      ∃ st', parseLoop (runHandler env) n st s = some st' ∧ U st'.src := by
  intro n
  induction n with
  | zero => intro st s _ _ _ h; omega
  | succ n ih =>
    intro st s hU hsf hfp hn
    have hus := hu.suffix hsf
    obtain ⟨st1, h1, h2, h3, hU1⟩ := onLiteral_total ho st hU _ (takeWhile_units hus (fun c => ! isBrace c))
    have h1' : (runHandler env).onLiteral st (s.takeWhile fun c => ! isBrace c) = some st1 := h1
    have hdw : s.dropWhile (fun c => ! isBrace c) <:+ s := List.dropWhile_suffix _
    unfold parseLoop
    dsimp only
    split
    · exact ⟨_, h1', hU1⟩
    · rename_i c cs hd
      rw [hd] at hdw
      have hcs : cs <:+ fmt := cons_suffix (hdw.trans hsf)
      have hlen : cs.length < s.length := by have := hdw.length_le; simp only [List.length_cons] at this; omega
      split
      · rw [h1']; dsimp only
        obtain ⟨st2, p, h4, h5, h6, hU2, h7⟩ := parseField_total ho hc st1 hU1 cs hcs (by rw [h2]; exact hfp)
        rw [h4]; dsimp only
        split
        · exact ⟨_, rfl, hU2⟩
        · rename_i hne
          refine ih st2 p hU2 h6 h5 ?_
          have hpl := h6.length_le
          have he : st2.err = none := by simpa [runHandler] using hne
          rw [unvisited_lower (st' := st1) (st := st) h3] at h7
          rcases h7 with h7 | h7 | ⟨h7, h8⟩
          · exact absurd he h7
          · have hm : (unvisited env.count st2 + 1) * (fmt.length + 1) ≤ unvisited env.count st * (fmt.length + 1) :=
              Nat.mul_le_mul_right _ h7
            rw [Nat.add_mul, Nat.one_mul] at hm
            omega
          · rw [h7]; omega
      · split
        · rename_i rest
          obtain ⟨st3, h4, h5, h6, hU3⟩ := onLiteral_total ho st hU (s.takeWhile (fun c => ! isBrace c) ++ [125]) (by
            intro he b hb
            rcases List.mem_append.1 hb with hb | hb
            · exact takeWhile_units hus _ he b hb
            · simp at hb; omega)
          have h4' : (runHandler env).onLiteral st (s.takeWhile (fun c => ! isBrace c) ++ [125]) = some st3 := h4
          rw [h4']; dsimp only
          refine ih st3 rest hU3 (cons_suffix hcs) (by rw [h5]; exact hfp) ?_
          rw [unvisited_lower h6]
          simp only [List.length_cons] at hlen
          omega
        · exact ⟨_, rfl, hU⟩

/-- The driver always finishes, without leaving the format string. -/
theorem general_within {env : Env V} {U : List Nat → Prop} {fmt : List Nat} (ho : EnvOk env U fmt) (hc : env.count < 64)
    (src : List Nat) (hU : U src) (hu : UnitsOk env.enc fmt) : ∃ st, vscanGeneral env fmt src = some st ∧ U st.src := by
  obtain ⟨st, h, hU'⟩ := parseLoop_total ho hc hu (parseFuel env.count fmt) (FH.init env.count fmt src) fmt hU
    (List.suffix_refl _) (List.suffix_refl _) (by
      have h1 := unvisited_le env.count (FH.init env.count fmt src : FH V)
      have h2 : unvisited env.count (FH.init env.count fmt src : FH V) * (fmt.length + 1) ≤
        env.count * (fmt.length + 1) := Nat.mul_le_mul_right _ h1
      have h3 : parseFuel env.count fmt =
          env.count * (fmt.length + 1) + env.count + 2 * (fmt.length + 2) := by
        unfold parseFuel
        rw [Nat.add_mul, show fmt.length + 2 = fmt.length + 1 + 1 by omega, Nat.mul_add env.count, Nat.mul_one]
      rw [h3]; omega)
  unfold vscanGeneral
  rw [h]; dsimp only
  rw [checkExhausted_cases hc]
  refine ⟨_, rfl, ?_⟩
  split <;> exact hU'

theorem general_total {env : Env V} {U : List Nat → Prop} {fmt : List Nat} (ho : EnvOk env U fmt) (hc : env.count < 64)
    (src : List Nat) (hU : U src) (hu : UnitsOk env.enc fmt) : ∃ st, vscanGeneral env fmt src = some st :=
  (general_within ho hc src hU hu).imp fun _ h => h.1

/-- What remains is the end of the source. -/
theorem EnvOk.within {env : Env V} {U : List Nat → Prop} {fmt : List Nat} (ho : EnvOk env U fmt) (src : List Nat) :
    EnvOk env (fun s => U s ∧ s <:+ src) fmt where
  down s t hs ht := ⟨ho.down s t hs.1 ht, ht.trans hs.2⟩
  skip s hs := ho.skip s hs.1
  dflt id s hid hs := ho.dflt id s hid hs.1
  specs id pos setter p s hid hpos hp he hs := ho.specs id pos setter p s hid hpos hp he hs.1
  custom id pos s hc hs := ho.custom id pos s hc hs.1
  types := ho.types

end Scn
