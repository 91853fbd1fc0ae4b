import Verif.Spec.Braces
import Verif.Lemmas.Continued
/-
Doubled braces in the literal texts of a format string.
-/
namespace Scn
open Spec

variable {V : Type}

/-- A set of texts on which whitespace can be skipped, and which the steps of a call do not leave. -/
structure Skips (env : Env V) (U : List Nat → Prop) : Prop where
  skip : ∀ s, U s → ∃ s', env.skip s = some s' ∧ U s'
  tail : ∀ d ds, U (d :: ds) → U ds

theorem litStep_simple {env : Env V} {U : List Nat → Prop} (hU : Skips env U) (n : Nat) : ∀ (w s : List Nat), (encodes env.enc w).length ≤ n →
    (∀ c ∈ w, Simple env.enc c) → U s →
    ∃ r f, litLoop env n s (encodes env.enc w) = some (r, f) ∧ U r ∧ (f = none ∨ f = some .invalidLiteral) := by
  induction n with
  | zero =>
    intro w s hn hw hs
    have : encodes env.enc w = [] := List.length_eq_zero_iff.1 (Nat.le_zero.1 hn)
    rw [this]
    exact ⟨s, none, by simp [litLoop], hs, Or.inl rfl⟩
  | succ n ih =>
    intro w s hn hw hs
    cases w with
    | nil => exact ⟨s, none, by simp [litLoop, encodes_nil], hs, Or.inl rfl⟩
    | cons a t =>
      have haS := hw a (by simp)
      have htS : ∀ cp ∈ t, Simple env.enc cp := fun cp hcp => hw cp (by simp [hcp])
      obtain ⟨c, cs, hc, _, _⟩ := encode_head env.enc a haS.1
      have htext : encodes env.enc (a :: t) = c :: (cs ++ encodes env.enc t) := by
        rw [encodes_cons, hc]; rfl
      rw [htext] at hn ⊢
      simp only [List.length_cons, List.length_append] at hn
      cases s with
      | nil => exact ⟨[], some .invalidLiteral, by simp [litLoop], hs, Or.inr rfl⟩
      | cons d ds =>
        have hgn : getNext env.enc (c :: (cs ++ encodes env.enc t)) = some (encodes env.enc t, a) := by
          have := getNext_encode env.enc a haS.1 (encodes env.enc t)
          rw [hc] at this
          rw [← this, List.cons_append]
        rw [litLoop, hgn]
        dsimp only
        rw [if_neg (scalar_ne_invalid haS.1), isSpace_eq]
        by_cases hsp : isSpace a = true
        · rw [if_pos hsp, readWhileSpace_encodes env.enc .contiguous t (fun c hc => (htS c hc).1) (by cases env.enc <;> trivial)]
          obtain ⟨s', h1, h2⟩ := hU.skip _ hs
          rw [h1]
          dsimp only
          refine ih _ _ ?_ (fun cp hcp => htS cp ((List.dropWhile_suffix _).subset hcp)) h2
          have h2 : encodes env.enc t = encodes env.enc (t.takeWhile isSpace) ++ encodes env.enc (t.dropWhile isSpace) := by
            rw [← encodes_append, List.takeWhile_append_dropWhile]
          rw [h2, List.length_append] at hn
          omega
        · rw [if_neg hsp]
          obtain ⟨c', hc', _⟩ := encode_single haS.1 (haS.2.resolve_left hsp)
          rw [hc] at hc'
          simp only [List.cons.injEq] at hc'
          obtain ⟨-, rfl⟩ := hc'
          by_cases hdc : d = c
          · rw [if_neg (by simp [hdc]), List.nil_append]
            exact ih _ _ (by omega) htS (hU.tail _ _ hs)
          · rw [if_pos hdc]
            exact ⟨_, _, rfl, hs, Or.inr rfl⟩

/-- Only the source, the history of literal texts and the error have changed. -/
structure SameMarks (st st1 : FH V) : Prop where
  lower : st1.lower = st.lower
  upper : st1.upper = st.upper
  next : st1.nextId = st.nextId
  mixed : st1.mixed = st.mixed
  stored : stored st1.events = stored st.events

theorem SameMarks.trans {a b c : FH V} (h : SameMarks a b) (k : SameMarks b c) : SameMarks a c :=
  ⟨k.lower.trans h.lower, k.upper.trans h.upper, k.next.trans h.next, k.mixed.trans h.mixed, k.stored.trans h.stored⟩

/-- What matching the text `y` has led to. -/
structure Matched (env : Env V) (U : List Nat → Prop) (y : List Nat) (st st1 : FH V) : Prop where
  same : SameMarks st st1
  mem : U st1.src
  out : (litStep env (encodes env.enc y) st.src = .ok st1.src ∧ st1.err = st.err) ∨
    (st1.err = some .invalidLiteral ∧ (st.err = some .invalidLiteral ∨ litStep env (encodes env.enc y) st.src = .err .invalidLiteral))

theorem matched_simple {env : Env V} {U : List Nat → Prop} (hU : Skips env U) {y : List Nat} (hy : ∀ c ∈ y, Simple env.enc c) {st : FH V} (hs : U st.src) :
    ∃ st1, FH.onLiteral env st (encodes env.enc y) = some st1 ∧ Matched env U y st st1 := by
  obtain ⟨r, f, h1, h2, h3⟩ := litStep_simple hU _ y st.src (Nat.le_refl _) hy hs
  unfold FH.onLiteral
  rw [h1]
  rcases h3 with rfl | rfl
  · exact ⟨_, rfl, ⟨rfl, rfl, rfl, rfl, by simp [stored]⟩, h2, Or.inl ⟨by unfold litStep; rw [h1], rfl⟩⟩
  · exact ⟨_, rfl, ⟨rfl, rfl, rfl, rfl, by simp [stored, FH.onError]⟩, h2, Or.inr ⟨rfl, Or.inr (by unfold litStep; rw [h1])⟩⟩

theorem litStep_meet {env : Env V} {y1 y2 : List Nat} (h1 : ∀ c ∈ y1, Simple env.enc c) (h2 : ∀ c ∈ y2, Simple env.enc c)
    (hm : ∀ c d, y1.getLast? = some c → y2.head? = some d → isSpace c = true → isSpace d = false) (s : List Nat) :
    litStep env (encodes env.enc (y1 ++ y2)) s = (litStep env (encodes env.enc y1) s).bind fun r => litStep env (encodes env.enc y2) r := by
  rw [encodes_append]
  exact litStep_append_encodes env y2 (fun c hc => (h2 c hc).1) _ y1 s (Nat.le_refl _) h1 hm

theorem Matched.append {env : Env V} {U : List Nat → Prop} {y1 y2 : List Nat} {a b c : FH V} (h1 : ∀ c ∈ y1, Simple env.enc c) (h2 : ∀ c ∈ y2, Simple env.enc c)
    (hm : ∀ c d, y1.getLast? = some c → y2.head? = some d → isSpace c = true → isSpace d = false) (h : Matched env U y1 a b) (k : Matched env U y2 b c) :
    Matched env U (y1 ++ y2) a c := by
  refine ⟨h.same.trans k.same, k.mem, ?_⟩
  rw [litStep_meet h1 h2 hm]
  rcases h.out with ⟨p1, p2⟩ | ⟨p1, p2 | p2⟩
  · rw [p1, Res.bind_ok]
    rcases k.out with ⟨q1, q2⟩ | ⟨q1, q2 | q2⟩
    · exact Or.inl ⟨q1, q2.trans p2⟩
    · exact Or.inr ⟨q1, Or.inl (p2 ▸ q2)⟩
    · exact Or.inr ⟨q1, Or.inr q2⟩
  · have : c.err = some .invalidLiteral := by
      rcases k.out with ⟨_, q2⟩ | ⟨q1, _⟩
      · exact q2.trans p1
      · exact q1
    exact Or.inr ⟨this, Or.inl p2⟩
  · have : c.err = some .invalidLiteral := by
      rcases k.out with ⟨_, q2⟩ | ⟨q1, _⟩
      · exact q2.trans p1
      · exact q1
    exact Or.inr ⟨this, Or.inr (by rw [p2]; rfl)⟩

theorem doubled_append (a b : List Nat) : doubled (a ++ b) = doubled a ++ doubled b := by simp [doubled]

theorem doubled_noBrace {t : List Nat} (h : NoBrace t) : doubled t = t := by
  induction t with
  | nil => rfl
  | cons c t ih =>
    have hc := h c (by simp)
    have : ¬ (c = 123 ∨ c = 125) := by rintro (rfl | rfl) <;> simp [isBrace] at hc
    show (if c = 123 ∨ c = 125 then [c, c] else [c]) ++ doubled t = _
    rw [if_neg this, ih fun x hx => h x (by simp [hx])]
    rfl

theorem brace_cases {c : Nat} (h : isBrace c = true) : c = 123 ∨ c = 125 := by
  unfold isBrace at h
  simpa using h

theorem brace_simple (e : Enc) {c : Nat} (h : c = 123 ∨ c = 125) : Simple e c := by
  have h1 : encode e c = [c] := encode_ascii e c (by omega)
  refine ⟨by unfold IsScalar; omega, Or.inr (by rw [h1]; rfl)⟩

theorem brace_not_space {c : Nat} (h : c = 123 ∨ c = 125) : isSpace c = false := by rcases h with rfl | rfl <;> decide

/-- The text up to and including the first brace. -/
theorem first_brace (y : List Nat) : NoBrace y ∨ ∃ y1 b y2, y = y1 ++ b :: y2 ∧ NoBrace y1 ∧ (b = 123 ∨ b = 125) := by
  induction y with
  | nil => exact Or.inl (fun _ h => by cases h)
  | cons c y ih =>
    by_cases hc : isBrace c = true
    · exact Or.inr ⟨[], c, y, rfl, fun _ h => (by cases h), brace_cases hc⟩
    · have hc' : isBrace c = false := by simpa using hc
      rcases ih with h | ⟨y1, b, y2, rfl, h1, h2⟩
      · refine Or.inl fun x hx => ?_
        rcases List.mem_cons.1 hx with rfl | hx
        · exact hc'
        · exact h x hx
      · refine Or.inr ⟨c :: y1, b, y2, rfl, fun x hx => ?_, h2⟩
        rcases List.mem_cons.1 hx with rfl | hx
        · exact hc'
        · exact h1 x hx

/-- The parser over a literal text with doubled braces: it stops at an opening brace, or all but what follows the last brace has been
    matched. -/
theorem gap_run {env : Env V} {U : List Nat → Prop} (hU : Skips env U) (k : Nat) : ∀ (y : List Nat), y.length ≤ k → ∀ (n : Nat) (st : FH V) (s : List Nat),
    y.length ≤ n → (∀ c ∈ y, Simple env.enc c) → U st.src → (st.err = none ∨ st.err = some .invalidLiteral) →
    (∃ st', parseLoop (runHandler env) n st (doubled (encodes env.enc y) ++ s) = some st' ∧ 123 ∈ y ∧ SameMarks st st' ∧
      st'.err = some .invalidLiteral ∧ (st.err = some .invalidLiteral ∨ litStep env (encodes env.enc y) st.src = .err .invalidLiteral)) ∨
    ∃ m y1 y2 st1, y = y1 ++ y2 ∧ NoBrace y2 ∧ Matched env U y1 st st1 ∧ (∀ c, y1.getLast? = some c → isSpace c = false) ∧ n ≤ m + y1.length ∧
      parseLoop (runHandler env) n st (doubled (encodes env.enc y) ++ s) = parseLoop (runHandler env) m st1 (encodes env.enc y2 ++ s) := by
  induction k with
  | zero =>
    intro y hk n st s hn hy hs he
    have : y = [] := List.length_eq_zero_iff.1 (Nat.le_zero.1 hk)
    subst this
    exact Or.inr ⟨n, [], [], st, rfl, fun _ h => (by cases h), ⟨⟨rfl, rfl, rfl, rfl, rfl⟩, hs, Or.inl ⟨litStep_nil _ _, rfl⟩⟩, by simp, by simp, rfl⟩
  | succ k ih =>
    intro y hk n st s hn hy hs he
    rcases first_brace y with hnb | ⟨y1, b, y2, rfl, h1, hb⟩
    · refine Or.inr ⟨n, [], y, st, rfl, hnb, ⟨⟨rfl, rfl, rfl, rfl, rfl⟩, hs, Or.inl ⟨litStep_nil _ _, rfl⟩⟩, by simp, by simp, ?_⟩
      rw [doubled_noBrace (encodes_noBrace (fun c hc => (hy c hc).1) hnb)]
    · have hy1 : ∀ c ∈ y1, Simple env.enc c := fun c hc => hy c (by simp [hc])
      have hy2 : ∀ c ∈ y2, Simple env.enc c := fun c hc => hy c (by simp [hc])
      have hyb : ∀ c ∈ y1 ++ [b], Simple env.enc c := fun c hc => hy c (by
        rcases List.mem_append.1 hc with h | h
        · simp [h]
        · simp at h; simp [h])
      have hnb1 : NoBrace (encodes env.enc y1) := encodes_noBrace (fun c hc => (hy1 c hc).1) h1
      have hbe : encodes env.enc [b] = [b] := by rw [encodes_cons, encode_ascii _ _ (by omega), encodes_nil]; rfl
      simp only [List.length_append, List.length_cons] at hk hn
      have hmeet2 : ∀ (z : List Nat) (c d : Nat), (y1 ++ [b]).getLast? = some c → z.head? = some d → isSpace c = true → isSpace d = false := by
        intro z c d hc _ hsp
        rw [List.getLast?_append] at hc
        simp at hc
        subst hc
        rw [brace_not_space hb] at hsp
        cases hsp
      have hsplit : y1 ++ b :: y2 = (y1 ++ [b]) ++ y2 := by simp
      -- the rest after the brace
      have rest : ∀ (n' : Nat) (st2 : FH V), n ≤ n' + 1 → Matched env U (y1 ++ [b]) st st2 → (st2.err = none ∨ st2.err = some .invalidLiteral) →
          (∃ st', parseLoop (runHandler env) n' st2 (doubled (encodes env.enc y2) ++ s) = some st' ∧ 123 ∈ y1 ++ b :: y2 ∧ SameMarks st st' ∧
            st'.err = some .invalidLiteral ∧ (st.err = some .invalidLiteral ∨ litStep env (encodes env.enc (y1 ++ b :: y2)) st.src = .err .invalidLiteral)) ∨
          ∃ m z1 z2 st1, y1 ++ b :: y2 = z1 ++ z2 ∧ NoBrace z2 ∧ Matched env U z1 st st1 ∧ (∀ c, z1.getLast? = some c → isSpace c = false) ∧ n ≤ m + z1.length ∧
            parseLoop (runHandler env) n' st2 (doubled (encodes env.enc y2) ++ s) = parseLoop (runHandler env) m st1 (encodes env.enc z2 ++ s) := by
        intro n' st2 hn' hm he2
        rcases ih y2 (by omega) n' st2 s (by omega) hy2 hm.mem he2 with ⟨st', q1, q2, q3, q4, q5⟩ | ⟨m, z1, z2, st1, rfl, q2, q3, q4, q5, q6⟩
        · refine Or.inl ⟨st', q1, by simp [q2], hm.same.trans q3, q4, ?_⟩
          rw [hsplit, litStep_meet hyb hy2 (hmeet2 y2)]
          rcases hm.out with ⟨p1, p2⟩ | ⟨p1, p2 | p2⟩
          · rcases q5 with q5 | q5
            · exact Or.inl (p2 ▸ q5)
            · exact Or.inr (by rw [p1, Res.bind_ok]; exact q5)
          · exact Or.inl p2
          · exact Or.inr (by rw [p2]; rfl)
        · have hz1 : ∀ c ∈ z1, Simple env.enc c := fun c hc => hy2 c (by simp [hc])
          refine Or.inr ⟨m, (y1 ++ [b]) ++ z1, z2, st1, by simp, q2, hm.append hyb hz1 (hmeet2 z1) q3, ?_, by simp; omega, q6⟩
          intro c hc
          rw [List.getLast?_append] at hc
          cases hz : z1.getLast? with
          | none => rw [hz] at hc; simp at hc; subst hc; exact brace_not_space hb
          | some c' => rw [hz] at hc; simp at hc; subst hc; exact q4 c' hz
      obtain ⟨n, rfl⟩ : ∃ j, n = j + 1 := ⟨n - 1, by omega⟩
      have hgood : ∀ {z : List Nat} {a : FH V}, Matched env U z st a → (a.err = none ∨ a.err = some .invalidLiteral) := by
        intro z a ha
        rcases ha.out with ⟨_, p⟩ | ⟨p, _⟩
        · rw [p]; exact he
        · exact Or.inr p
      rcases hb with rfl | rfl
      · have hfmt : doubled (encodes env.enc (y1 ++ 123 :: y2)) ++ s = encodes env.enc y1 ++ 123 :: (123 :: (doubled (encodes env.enc y2) ++ s)) := by
          rw [hsplit, encodes_append, encodes_append, hbe, doubled_append, doubled_append, doubled_noBrace hnb1]
          simp [doubled]
        rw [hfmt, parseLoop_open _ _ _ hnb1]
        obtain ⟨st1, k1, k2⟩ := matched_simple hU hy1 hs
        rw [show (runHandler env).onLiteral st (encodes env.enc y1) = some st1 from k1]
        dsimp only
        obtain ⟨st2, k3, k4⟩ := matched_simple hU (y := [123]) (fun c hc => hyb c (by simp at hc; simp [hc])) k2.mem
        rw [hbe] at k3
        have hpf : parseField (runHandler env) st1 (123 :: (doubled (encodes env.enc y2) ++ s)) = some (st2, doubled (encodes env.enc y2) ++ s) := by
          show ((runHandler env).onLiteral st1 [123]).map _ = _
          rw [show (runHandler env).onLiteral st1 [123] = some st2 from k3]
          rfl
        rw [hpf]
        dsimp only
        have hm := k2.append hy1 (fun c hc => hyb c (by simp at hc; simp [hc])) (by intro c d _ hd _; simp at hd; subst hd; decide) k4
        by_cases her : (runHandler env).hasError st2 = true
        · rw [if_pos her]
          have hst2 : st2.err = some .invalidLiteral := by
            rcases hgood hm with h | h
            · simp [runHandler, h] at her
            · exact h
          refine Or.inl ⟨st2, rfl, by simp, hm.same, hst2, ?_⟩
          rw [hsplit, litStep_meet hyb hy2 (hmeet2 y2)]
          rcases hm.out with ⟨p1, p2⟩ | ⟨p1, p2 | p2⟩
          · exact Or.inl (p2 ▸ hst2)
          · exact Or.inl p2
          · exact Or.inr (by rw [p2]; rfl)
        · rw [if_neg her]
          exact rest n st2 (Nat.le_refl _) hm (hgood hm)
      · have hfmt : doubled (encodes env.enc (y1 ++ 125 :: y2)) ++ s = encodes env.enc y1 ++ 125 :: 125 :: (doubled (encodes env.enc y2) ++ s) := by
          rw [hsplit, encodes_append, encodes_append, hbe, doubled_append, doubled_append, doubled_noBrace hnb1]
          simp [doubled]
        rw [hfmt, parseLoop_close _ _ _ hnb1]
        obtain ⟨st2, k3, hm⟩ := matched_simple hU hyb hs
        rw [encodes_append, hbe] at k3
        rw [show (runHandler env).onLiteral st (encodes env.enc y1 ++ [125]) = some st2 from k3]
        dsimp only
        exact rest n st2 (Nat.le_refl _) hm (hgood hm)

end Scn
