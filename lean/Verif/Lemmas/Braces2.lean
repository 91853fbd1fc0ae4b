import Verif.Lemmas.Braces
/-
A scan call whose literal texts contain doubled braces does what `inOrder` says.
-/
namespace Scn
open Spec

variable {V : Type}

/-- A field without its literal text. -/
def bare (f : CallField V) : CallField V := { f with gap := [] }

/-- The steps of the parser for a format string. -/
def cost : List (CallField V) → List Nat → Nat
  | [], last => last.length + 1
  | f :: fs, last => f.gap.length + 1 + cost fs last

theorem escapedFormat_nil (auto : Bool) (last : List Nat) : escapedFormat auto ([] : List (CallField V)) last = doubled last := by
  simp [escapedFormat, callFormat]

theorem escapedFormat_cons (auto : Bool) (f : CallField V) (fs : List (CallField V)) (last : List Nat) :
    escapedFormat auto (f :: fs) last = doubled f.gap ++ 123 :: ((f.text auto).tail ++ escapedFormat auto fs last) := by
  unfold escapedFormat
  rw [List.map_cons, callFormat_cons]
  rfl

theorem doubled_length (t : List Nat) : t.length ≤ (doubled t).length := by
  induction t with
  | nil => simp
  | cons c t ih =>
    show (c :: t).length ≤ ((if c = 123 ∨ c = 125 then [c, c] else [c]) ++ doubled t).length
    split <;> simp <;> omega

theorem cost_le (auto : Bool) (fs : List (CallField V)) (last : List Nat) : cost fs last ≤ (escapedFormat auto fs last).length + 1 := by
  induction fs with
  | nil =>
    rw [escapedFormat_nil]
    have := doubled_length last
    simp only [cost]; omega
  | cons f fs ih =>
    rw [escapedFormat_cons]
    have := doubled_length f.gap
    simp only [cost, List.length_append, List.length_cons]; omega

theorem encodes_length (e : Enc) (y : List Nat) (hy : ∀ c ∈ y, Simple e c) : y.length ≤ (encodes e y).length := by
  induction y with
  | nil => simp
  | cons c y ih =>
    obtain ⟨d, ds, hd, _, _⟩ := encode_head e c (hy c (by simp)).1
    rw [encodes_cons, hd]
    have := ih fun x hx => hy x (by simp [hx])
    simp only [List.length_append, List.length_cons]; omega

theorem encodes_mem_open (e : Enc) (y : List Nat) (h : 123 ∈ y) : 123 ∈ encodes e y := by
  unfold encodes
  rw [List.mem_flatMap]
  exact ⟨123, h, by rw [encode_ascii e 123 (by omega)]; simp⟩

/-- A literal text of which the characters are `Simple`. -/
def SimpleText (e : Enc) (t : List Nat) : Prop := ∃ y, t = encodes e y ∧ ∀ c ∈ y, Simple e c

/-- What a literal text with doubled braces leads to, and then a field. -/
theorem gap_field {env : Env V} {U : List Nat → Prop} (hU : Skips env U) {t : List Nat} (ht : SimpleText env.enc t) (n : Nat) (st : FH V) (cs : List Nat)
    (hn : t.length < n) (hs : U st.src) (he : st.err = none) :
    (∃ st', parseLoop (runHandler env) n st (doubled t ++ 123 :: cs) = some st' ∧ 123 ∈ t ∧ SameMarks st st' ∧
      st'.err = some .invalidLiteral ∧ litStep env t st.src = .err .invalidLiteral) ∨
    ∃ m st1, n ≤ m + 1 + t.length ∧ SameMarks st st1 ∧ U st1.src ∧
      ((litStep env t st.src = .ok st1.src ∧ st1.err = none) ∨ (litStep env t st.src = .err .invalidLiteral ∧ st1.err = some .invalidLiteral)) ∧
      parseLoop (runHandler env) n st (doubled t ++ 123 :: cs) =
        match parseField (runHandler env) st1 cs with
        | none => none
        | some (st, s) => if (runHandler env).hasError st then some st else parseLoop (runHandler env) m st s := by
  obtain ⟨y, rfl, hy⟩ := ht
  have hlen := encodes_length env.enc y hy
  rcases gap_run hU y.length y (Nat.le_refl _) n st (123 :: cs) (by omega) hy hs (Or.inl he) with ⟨st', q1, q2, q3, q4, q5⟩ | ⟨m, y1, y2, st1, rfl, q2, q3, q4, q5, q6⟩
  · refine Or.inl ⟨st', q1, encodes_mem_open _ _ q2, q3, q4, ?_⟩
    rcases q5 with q5 | q5
    · rw [he] at q5; cases q5
    · exact q5
  · have hy1 : ∀ c ∈ y1, Simple env.enc c := fun c hc => hy c (by simp [hc])
    have hy2 : ∀ c ∈ y2, Simple env.enc c := fun c hc => hy c (by simp [hc])
    have hnb := encodes_noBrace (e := env.enc) (fun c hc => (hy2 c hc).1) q2
    simp only [List.length_append] at hlen
    obtain ⟨m, rfl⟩ : ∃ j, m = j + 1 := ⟨m - 1, by omega⟩
    obtain ⟨st2, k1, k2⟩ := matched_simple hU hy2 q3.mem
    have hm := q3.append hy1 hy2 (fun c d hc _ hsp => by rw [q4 c hc] at hsp; cases hsp) k2
    rw [q6, parseLoop_open _ _ _ hnb, show (runHandler env).onLiteral st1 (encodes env.enc y2) = some st2 from k1]
    refine Or.inr ⟨m, st2, by omega, hm.same, hm.mem, ?_, by dsimp only; cases parseField (runHandler env) st2 cs <;> rfl⟩
    rcases hm.out with ⟨p1, p2⟩ | ⟨p1, p2 | p2⟩
    · exact Or.inl ⟨p1, p2.trans he⟩
    · rw [he] at p2; cases p2
    · exact Or.inr ⟨p2, p1⟩

/-- The literal text at the end of the format string. -/
theorem gap_end {env : Env V} {U : List Nat → Prop} (hU : Skips env U) {t : List Nat} (ht : SimpleText env.enc t) (n : Nat) (st : FH V)
    (hn : t.length < n) (hs : U st.src) (he : st.err = none) :
    ∃ st', parseLoop (runHandler env) n st (doubled t) = some st' ∧ SameMarks st st' ∧
      ((litStep env t st.src = .ok st'.src ∧ st'.err = none) ∨ (litStep env t st.src = .err .invalidLiteral ∧ st'.err = some .invalidLiteral)) := by
  obtain ⟨y, rfl, hy⟩ := ht
  have hlen := encodes_length env.enc y hy
  have hrun := gap_run hU y.length y (Nat.le_refl _) n st [] (by omega) hy hs (Or.inl he)
  rw [List.append_nil] at hrun
  rcases hrun with ⟨st', q1, q2, q3, q4, q5⟩ | ⟨m, y1, y2, st1, rfl, q2, q3, q4, q5, q6⟩
  · refine ⟨st', q1, q3, Or.inr ⟨?_, q4⟩⟩
    rcases q5 with q5 | q5
    · rw [he] at q5; cases q5
    · exact q5
  · have hy1 : ∀ c ∈ y1, Simple env.enc c := fun c hc => hy c (by simp [hc])
    have hy2 : ∀ c ∈ y2, Simple env.enc c := fun c hc => hy c (by simp [hc])
    have hnb := encodes_noBrace (e := env.enc) (fun c hc => (hy2 c hc).1) q2
    simp only [List.length_append] at hlen
    obtain ⟨m, rfl⟩ : ∃ j, m = j + 1 := ⟨m - 1, by omega⟩
    obtain ⟨st2, k1, k2⟩ := matched_simple hU hy2 q3.mem
    have hm := q3.append hy1 hy2 (fun c d hc _ hsp => by rw [q4 c hc] at hsp; cases hsp) k2
    rw [q6, List.append_nil, parseLoop_end _ _ _ hnb, show (runHandler env).onLiteral st1 (encodes env.enc y2) = some st2 from k1]
    refine ⟨st2, rfl, hm.same, ?_⟩
    rcases hm.out with ⟨p1, p2⟩ | ⟨p1, p2 | p2⟩
    · exact Or.inl ⟨p1, p2.trans he⟩
    · rw [he] at p2; cases p2
    · exact Or.inr ⟨p2, p1⟩

/-- The reader of a field stays in the set. -/
def Stays (U : List Nat → Prop) (fs : List (CallField V)) : Prop := ∀ f ∈ fs, ∀ s v r, U s → f.read s = .ok (v, r) → U r

theorem midway_marks {auto : Bool} {k : Nat} {seen : List Nat} {st st' : FH V} (hm : Midway auto k seen st) (h : SameMarks st st') : Midway auto k seen st' :=
  midway_same hm _ h.lower h.upper h.next h.mixed

/-- What the driver has done after the fields of a format string with doubled braces. -/
theorem braces_run {env : Env V} {U : List Nat → Prop} (hU : Skips env U) {auto : Bool} {k : Nat} {last : List Nat} (hl : SimpleText env.enc last)
    (h64 : env.count ≤ 64 + 8 * k) (hmax : env.count ≤ intMax) (fs : List (CallField V)) :
    ∀ (n : Nat) (seen : List Nat) (st : FH V), Ready env auto seen (fs.map bare) → (∀ f ∈ fs, SimpleText env.enc f.gap) → Stays U fs →
      Midway auto k seen st → st.err = none → U st.src → cost fs last ≤ n →
      match inOrder (litStep env) fs last st.src with
      | .ub => parseLoop (runHandler env) n st (escapedFormat auto fs last) = none
      | .ok (vs, r) => ∃ st', parseLoop (runHandler env) n st (escapedFormat auto fs last) = some st' ∧ Midway auto k ((fs.map fun f => f.id).reverse ++ seen) st' ∧
          st'.err = none ∧ st'.src = r ∧ stored st'.events = stored st.events ++ vs
      | .err e => ∃ st' j, parseLoop (runHandler env) n st (escapedFormat auto fs last) = some st' ∧
          Midway auto k (((fs.take j).map fun f => f.id).reverse ++ seen) st' ∧
          (j = reached (litStep env) fs st.src ∨ (j < reached (litStep env) fs st.src ∧ ∃ f ∈ fs, 123 ∈ f.gap)) ∧
          (st'.err = some e ∨ st'.err = some .invalidFormatString) ∧ ((∀ f ∈ fs, env.argTy f.id ≠ .custom) → st'.err = some e) ∧
          stored st'.events = stored st.events ++ readBefore (litStep env) fs st.src := by
  induction fs with
  | nil =>
    intro n seen st _ _ _ hm he hs hn
    simp only [cost] at hn
    obtain ⟨st', h1, h2, h3 | h3⟩ := gap_end hU hl n st (by omega) hs he
    · simp only [inOrder, h3.1, Res.map_ok]
      rw [escapedFormat_nil]
      exact ⟨st', h1, midway_marks hm h2, h3.2, rfl, by rw [h2.stored]; simp⟩
    · simp only [inOrder, h3.1]
      rw [escapedFormat_nil]
      exact ⟨st', 0, h1, midway_marks hm h2, Or.inl rfl, Or.inl h3.2, fun _ => h3.2, by rw [h2.stored]; simp [readBefore]⟩
  | cons f fs ih =>
    intro n seen st hr hg hst hm he hs hn
    simp only [cost] at hn
    have hcost : 1 ≤ cost fs last := by cases fs <;> simp only [cost] <;> omega
    obtain ⟨hf, _, hid, hfresh, hauto, hr'⟩ := hr
    replace hf : FieldMeans env f := hf
    replace hid : f.id < env.count := hid
    replace hfresh : f.id ∉ seen := hfresh
    replace hauto : auto = true → f.id = seen.length := hauto
    replace hr' : Ready env auto (f.id :: seen) (fs.map bare) := hr'
    rw [escapedFormat_cons]
    rcases gap_field hU (hg f (by simp)) n st ((f.text auto).tail ++ escapedFormat auto fs last) (by omega) hs he with ⟨st', q1, q2, q3, q4, q5⟩ | ⟨m, st1, q1, q2, q3, ⟨q4, q5⟩ | ⟨q4, q5⟩, q6⟩
    · have hrch : reached (litStep env) (f :: fs) st.src = 1 := by simp [reached, q5, Res.bind]
      have hbef : readBefore (litStep env) (f :: fs) st.src = [] := by simp [readBefore, q5, Res.bind]
      simp only [inOrder, q5]
      rw [hrch, hbef]
      exact ⟨st', 0, q1, midway_marks hm q3, Or.inr ⟨by omega, f, by simp, q2⟩, Or.inl q4, fun _ => q4, by rw [q3.stored]; simp⟩
    · rw [q6]
      obtain ⟨st2, k1, k2, k3, k4, k5⟩ := callField_ok (midway_marks hm q2) q5 hf hid (by omega) (by omega) hfresh hauto (escapedFormat auto fs last)
      rw [k5]
      simp only [inOrder, q4, Res.bind_ok]
      cases hrd : f.read st1.src with
      | ub => simp [FH.onVisit, Res.bind]
      | err e =>
        have hrch : reached (litStep env) (f :: fs) st.src = 1 := by simp [reached, q4, hrd, Res.bind]
        have hbef : readBefore (litStep env) (f :: fs) st.src = [] := by simp [readBefore, q4, hrd, Res.bind]
        simp only [FH.onVisit, Option.map_some, Res.bind]
        rw [if_pos (by simp [runHandler, FH.onError]), hrch, hbef]
        refine ⟨_, 1, rfl, midway_same k1 _ rfl rfl rfl rfl, Or.inl rfl, Or.inl rfl, fun _ => rfl, ?_⟩
        rw [← q2.stored]
        simp [stored, FH.onError, k4]
      | ok a =>
        obtain ⟨v, s2⟩ := a
        rw [Res.bind_ok]
        simp only [FH.onVisit, Option.map_some]
        rw [if_neg (by simp [runHandler, k2])]
        have hrch : reached (litStep env) (f :: fs) st.src = reached (litStep env) fs s2 + 1 := by simp [reached, q4, hrd, Res.bind]
        have hbef : readBefore (litStep env) (f :: fs) st.src = (f.id, v) :: readBefore (litStep env) fs s2 := by simp [readBefore, q4, hrd, Res.bind]
        have hrec := ih m (f.id :: seen) { st2 with src := s2, events := st2.events ++ [Event.visit f.id st2.src (.ok (v, s2))] }
          hr' (fun g hx => hg g (by simp [hx])) (fun g hx => hst g (by simp [hx])) (midway_same k1 _ rfl rfl rfl rfl) k2
          (hst f (by simp) _ _ _ q3 hrd) (by omega)
        dsimp only at hrec ⊢
        cases hin : inOrder (litStep env) fs last s2 with
        | ub => rw [hin] at hrec; exact hrec
        | ok q =>
          rw [hin] at hrec
          obtain ⟨st', h1, h2, h3, h4, h5⟩ := hrec
          refine ⟨st', h1, by simpa using h2, h3, h4, ?_⟩
          rw [h5, ← q2.stored]
          simp [stored, k4]
        | err e =>
          rw [hin] at hrec
          obtain ⟨st', j, h1, h2, h3, h4, h5, h6⟩ := hrec
          refine ⟨st', j + 1, h1, by simpa using h2, ?_, h4, fun hc => h5 fun g hx => hc g (by simp [hx]), ?_⟩
          · rw [hrch]
            rcases h3 with h3 | ⟨h3, g, hx, hy⟩
            · exact Or.inl (by rw [h3])
            · exact Or.inr ⟨by omega, g, by simp [hx], hy⟩
          · rw [h6, hbef, ← q2.stored]
            simp [stored, k4]
    · rw [q6]
      have hrch : reached (litStep env) (f :: fs) st.src = 1 := by simp [reached, q4, Res.bind]
      have hbef : readBefore (litStep env) (f :: fs) st.src = [] := by simp [readBefore, q4, Res.bind]
      obtain ⟨st2, p, k1, k2, k3, k4, k5⟩ := callField_failed (midway_marks hm q2) q5 hf hid (by omega) (by omega) hfresh hauto (escapedFormat auto fs last)
      rw [k1]
      simp only [inOrder, q4]
      rw [if_pos (by rcases k3 with k3 | k3 <;> simp [runHandler, k3]), hrch, hbef]
      exact ⟨st2, 1, rfl, by simpa using k2, Or.inl rfl, k3, fun hc => k4 (hc f (by simp)), by rw [k5, q2.stored]; simp⟩

/-- The reader of a field does not go back, if no reader does. -/
theorem field_advances {env : Env V} (ha : Advancing env) {f : CallField V} (hf : FieldMeans env f) {s : List Nat} {v : V} {r : List Nat}
    (h : f.read s = .ok (v, r)) : r <:+ s := by
  unfold FieldMeans at hf
  cases hs : f.spec with
  | none =>
    rw [hs] at hf
    dsimp only at hf
    rw [hf] at h
    exact ha.dflt _ _ _ _ h
  | some t =>
    rw [hs] at hf
    dsimp only at hf
    split at hf
    · have := hf [] s
      exact ha.custom f.id (t ++ [125]) s v r (by rw [this]; exact h)
    · obtain ⟨sp, _, hr⟩ := hf
      rw [hr] at h
      exact ha.specs _ _ _ _ _ h

/-- Whitespace can be skipped wherever a scan may get to in the source. -/
def SkipsIn (env : Env V) (src : List Nat) : Prop := ∀ s, s <:+ src → env.skip s ≠ none

theorem skips_in {env : Env V} (ha : Advancing env) {src : List Nat} (h : SkipsIn env src) : Skips env (fun s => s <:+ src) where
  skip := by
    intro s hs
    cases hk : env.skip s with
    | none => exact absurd hk (h s hs)
    | some s' => exact ⟨s', rfl, (ha.skip s s' hk).trans hs⟩
  tail := fun d ds h => (List.suffix_cons d ds).trans h

theorem stays_in {env : Env V} (ha : Advancing env) {fs : List (CallField V)} (hf : ∀ f ∈ fs, FieldMeans env f) (src : List Nat) : Stays (fun s => s <:+ src) fs :=
  fun f hx _ _ _ hs h => (field_advances ha (hf f hx) h).trans hs

/-- A format string with doubled braces is `{}` only if it has none. -/
theorem escaped_braces {auto : Bool} {fs : List (CallField V)} {last : List Nat} (h : escapedFormat auto fs last = [123, 125]) :
    (∀ f ∈ fs, NoBrace f.gap) ∧ NoBrace last := by
  have key : ∀ t a b : List Nat, a ++ doubled t ++ b = [123, 125] → NoBrace t := by
    intro t a b h c hc
    cases hb : isBrace c with
    | false => rfl
    | true =>
      exfalso
      obtain ⟨t1, t2, rfl⟩ := List.append_of_mem hc
      have hd : doubled (t1 ++ c :: t2) = doubled t1 ++ [c, c] ++ doubled t2 := by
        rw [doubled_append]
        show doubled t1 ++ ((if c = 123 ∨ c = 125 then [c, c] else [c]) ++ doubled t2) = _
        rw [if_pos (brace_cases hb)]
        simp
      rw [hd] at h
      have hl := congrArg List.length h
      simp only [List.length_append, List.length_cons, List.length_nil] at hl
      have e1 : a = [] := List.length_eq_zero_iff.1 (by omega)
      have e2 : doubled t1 = [] := List.length_eq_zero_iff.1 (by omega)
      rw [e1, e2] at h
      simp at h
      omega
  have hmap : ∀ (fs : List (CallField V)) (a : List Nat), a ++ escapedFormat auto fs last = [123, 125] → (∀ f ∈ fs, NoBrace f.gap) ∧ NoBrace last := by
    intro fs
    induction fs with
    | nil =>
      intro a h
      rw [escapedFormat_nil] at h
      exact ⟨fun f hf => (by cases hf), key last a [] (by simpa using h)⟩
    | cons f fs ih =>
      intro a h
      rw [escapedFormat_cons] at h
      obtain ⟨h1, h2⟩ := ih (a ++ doubled f.gap ++ 123 :: (f.text auto).tail) (by simpa using h)
      refine ⟨fun g hg => ?_, h2⟩
      rcases List.mem_cons.1 hg with rfl | hg
      · exact key g.gap a _ (by rw [List.append_assoc]; exact h)
      · exact h1 g hg
  exact hmap fs [] h

theorem escaped_plain {auto : Bool} {fs : List (CallField V)} {last : List Nat} (h1 : ∀ f ∈ fs, NoBrace f.gap) (h2 : NoBrace last) :
    escapedFormat auto fs last = callFormat auto fs last := by
  unfold escapedFormat
  rw [doubled_noBrace h2]
  congr 1
  conv => rhs; rw [← List.map_id fs]
  refine List.map_congr_left fun f hf => ?_
  rw [doubled_noBrace (h1 f hf)]
  rfl

theorem ready_bare {env : Env V} {auto : Bool} {fs : List (CallField V)} (h1 : ∀ f ∈ fs, FieldMeans env f)
    (h2 : Numbered auto (fs.map fun f => f.id) env.count) : Ready env auto [] (fs.map bare) := by
  refine ready_numbered ?_ ?_
  · intro f hf
    obtain ⟨g, hg, rfl⟩ := List.mem_map.1 hf
    exact ⟨h1 g hg, fun _ hx => (by cases hx)⟩
  · rw [List.map_map]
    exact h2

theorem braces_fuel (auto : Bool) (fs : List (CallField V)) (last : List Nat) (count : Nat) : cost fs last ≤ parseFuel count (escapedFormat auto fs last) := by
  have := cost_le auto fs last
  unfold parseFuel
  calc cost fs last ≤ 1 * ((escapedFormat auto fs last).length + 2) := by omega
    _ ≤ _ := Nat.mul_le_mul_right _ (by omega)

/-- The call, without the shortcut for `{}`. -/
theorem braces_within {env : Env V} {U : List Nat → Prop} (hU : Skips env U) {auto : Bool} {fs : List (CallField V)} {last : List Nat} (hl : SimpleText env.enc last) (h64 : env.count < 64)
    (h1 : ∀ f ∈ fs, FieldMeans env f) (hg : ∀ f ∈ fs, SimpleText env.enc f.gap) (h2 : Numbered auto (fs.map fun f => f.id) env.count) {src : List Nat}
    (hst : Stays U fs) (hs : U src) :
    match inOrder (litStep env) fs last src with
    | .ub => vscanGeneral env (escapedFormat auto fs last) src = none
    | .ok (vs, r) => ∃ st, vscanGeneral env (escapedFormat auto fs last) src = some st ∧ st.err = none ∧ st.src = r ∧ stored st.events = vs
    | .err e => ∃ st e', vscanGeneral env (escapedFormat auto fs last) src = some st ∧ st.err = some e' ∧
        (e' = e ∨ e' = .invalidFormatString) ∧
        ((∀ f ∈ fs, env.argTy f.id ≠ .custom) → reached (litStep env) fs src = fs.length → (∀ f ∈ fs, 123 ∉ f.gap) → e' = e) ∧
        (reached (litStep env) fs src < fs.length → e' = .invalidFormatString) ∧
        stored st.events = readBefore (litStep env) fs src := by
  have hrun := braces_run hU (auto := auto) (k := (env.count - 64) / 8) hl (by omega) (by unfold intMax; omega) fs (parseFuel env.count (escapedFormat auto fs last)) []
    (FH.init env.count (escapedFormat auto fs last) src) (ready_bare h1 h2) hg hst (midway_init _ _ _ _) rfl hs
    (braces_fuel auto fs last env.count)
  rw [show (FH.init (V := V) env.count (escapedFormat auto fs last) src).src = src from rfl,
    show stored (FH.init (V := V) env.count (escapedFormat auto fs last) src).events = [] from rfl] at hrun
  have hall := h2.all
  simp only [List.length_map] at hall
  unfold vscanGeneral
  cases hin : inOrder (litStep env) fs last src with
  | ub => rw [hin] at hrun; dsimp only at hrun ⊢; rw [hrun]
  | ok q =>
    rw [hin] at hrun
    obtain ⟨st, k1, k2, k3, k4, k5⟩ := hrun
    dsimp only
    rw [k1]
    dsimp only
    rw [checkExhausted_midway h64 k2 (by simpa using nodup_rev h2.nodup) (by simpa using h2.below), if_pos (by simpa using hall)]
    exact ⟨st, rfl, k3, k4, by simpa using k5⟩
  | err e =>
    rw [hin] at hrun
    obtain ⟨st, j, k1, k2, k3, k4, k5, k6⟩ := hrun
    dsimp only
    rw [k1]
    dsimp only
    have hle := reached_le (litStep env) fs src
    have hj : j ≤ fs.length := by rcases k3 with k3 | ⟨k3, _⟩ <;> omega
    have hsub : List.Sublist ((fs.take j).map fun f => f.id) (fs.map fun f => f.id) := (List.take_sublist _ _).map _
    rw [checkExhausted_midway h64 k2 (by simpa using nodup_rev (h2.nodup.sublist hsub)) (by intro i hi; exact h2.below i (hsub.subset (by simpa using hi)))]
    simp only [List.length_append, List.length_reverse, List.length_map, List.length_take, List.length_nil, Nat.add_zero, Nat.min_eq_left hj]
    by_cases hc : j = env.count
    · rw [if_pos hc]
      obtain ⟨e', he'⟩ : ∃ e', st.err = some e' := by rcases k4 with k4 | k4 <;> exact ⟨_, k4⟩
      refine ⟨st, e', rfl, he', ?_, fun hn _ _ => ?_, fun hlt => ?_, by simpa using k6⟩
      · rcases k4 with k4 | k4 <;> rw [he'] at k4 <;> cases k4 <;> simp
      · have := k5 hn; rw [he'] at this; cases this; rfl
      · exfalso; rcases k3 with k3 | ⟨k3, _⟩ <;> omega
    · rw [if_neg hc]
      refine ⟨_, _, rfl, rfl, Or.inr rfl, fun _ hr hno => ?_, fun _ => rfl, by simpa [FH.onError] using k6⟩
      rcases k3 with k3 | ⟨_, f, hf, hx⟩
      · omega
      · exact absurd hx (hno f hf)

theorem braces_general {env : Env V} (ha : Advancing env) {auto : Bool} {fs : List (CallField V)} {last : List Nat} (hl : SimpleText env.enc last) (h64 : env.count < 64)
    (h1 : ∀ f ∈ fs, FieldMeans env f) (hg : ∀ f ∈ fs, SimpleText env.enc f.gap) (h2 : Numbered auto (fs.map fun f => f.id) env.count) {src : List Nat}
    (hsk : SkipsIn env src) :
    match inOrder (litStep env) fs last src with
    | .ub => vscanGeneral env (escapedFormat auto fs last) src = none
    | .ok (vs, r) => ∃ st, vscanGeneral env (escapedFormat auto fs last) src = some st ∧ st.err = none ∧ st.src = r ∧ stored st.events = vs
    | .err e => ∃ st e', vscanGeneral env (escapedFormat auto fs last) src = some st ∧ st.err = some e' ∧
        (e' = e ∨ e' = .invalidFormatString) ∧
        ((∀ f ∈ fs, env.argTy f.id ≠ .custom) → reached (litStep env) fs src = fs.length → (∀ f ∈ fs, 123 ∉ f.gap) → e' = e) ∧
        (reached (litStep env) fs src < fs.length → e' = .invalidFormatString) ∧
        stored st.events = readBefore (litStep env) fs src :=
  braces_within (skips_in ha hsk) hl h64 h1 hg h2 (stays_in ha h1 src) (List.suffix_refl _)

end Scn
