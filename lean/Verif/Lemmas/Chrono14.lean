import Verif.Lemmas.Chrono13
/-
The shape of the calls of a format, and the format string that a scanner keeps.
-/
namespace Scn
open Spec

/-- What can come between the beginning and the end of a format. -/
def Inner (p : List Nat) (y : ChronoCall) : Prop :=
  (∃ t, y = .text t) ∨ y = .whitespace ∨ ∃ q r, chronoConversion q = (some y, r) ∧ 37 :: q <:+ p

theorem Inner.mono {p q : List Nat} {y : ChronoCall} (h : Inner q y) (hs : q <:+ p) : Inner p y := by
  rcases h with h | h | ⟨a, r, h1, h2⟩
  · exact Or.inl h
  · exact Or.inr (Or.inl h)
  · exact Or.inr (Or.inr ⟨a, r, h1, h2.trans hs⟩)

/-- How the calls of a format end. -/
def Shape (p : List Nat) (xs : List ChronoCall) (p' : List Nat) : Prop :=
  ∃ ys, (∀ y ∈ ys, Inner p y) ∧ ((xs = ys ++ [.verify] ∧ (p' = [] ∨ ∃ r, p' = 125 :: r)) ∨ xs = ys ++ [.error])

theorem Shape.pre {p q : List Nat} {xs : List ChronoCall} {p' : List Nat} (h : Shape q xs p') (hs : q <:+ p) (zs : List ChronoCall) (hz : ∀ z ∈ zs, Inner p z) :
    Shape p (zs ++ xs) p' := by
  obtain ⟨ys, h1, h2⟩ := h
  refine ⟨zs ++ ys, ?_, ?_⟩
  · intro y hy
    rcases List.mem_append.1 hy with hy | hy
    · exact hz y hy
    · exact (h1 y hy).mono hs
  · rcases h2 with ⟨rfl, h2⟩ | rfl
    · exact Or.inl ⟨by simp, h2⟩
    · exact Or.inr (by simp)

theorem loop_shape (e : Enc) (n : Nat) : ∀ acc p xs p', chronoLoop e recorder n [] acc p = some (xs, p') → Shape p xs p' := by
  have key : ∀ (acc : List Nat) (tr : List ChronoCall), (if acc = [] then some tr else recorder.call tr (.text acc)) = some (tr ++ if acc = [] then [] else [.text acc]) := by
    intro acc tr; split <;> simp [recorder_call]
  have flush : ∀ (p acc : List Nat), ∀ z ∈ (if acc = [] then [] else [ChronoCall.text acc]), Inner p z := by
    intro p acc z hz
    split at hz
    · cases hz
    · simp at hz; exact Or.inl ⟨acc, hz⟩
  have fin : ∀ acc p xs p', (p = [] ∨ ∃ r, p = 125 :: r) → chronoFinish recorder [] acc p = some (xs, p') → Shape p xs p' := by
    intro acc p xs p' hp hr
    unfold chronoFinish at hr
    rw [key] at hr
    simp only [recorder_call, Option.bind_some, Option.map_some, Option.some.injEq, Prod.mk.injEq, List.nil_append] at hr
    obtain ⟨rfl, rfl⟩ := hr
    exact ⟨_, flush _ acc, Or.inl ⟨rfl, hp⟩⟩
  have err : ∀ p q xs p', ((recorder.call [] .error).map fun st => (st, q)) = some (xs, p') → Shape p xs p' := by
    intro p q xs p' hr
    cases hr
    exact ⟨[], by simp, Or.inr rfl⟩
  induction n with
  | zero => intro acc p xs p' hr; cases hr
  | succ n ih =>
    have sp : ∀ (acc q p xs p' : List _), q <:+ p →
        ((recorder.call [] (.text acc)).bind fun st => (recorder.call st .whitespace).bind fun st => chronoLoop e recorder n st [] q) = some (xs, p') → Shape p xs p' := by
      intro acc q p xs p' hq hr
      simp only [recorder_call, Option.bind_some] at hr
      rw [loop_shift] at hr
      obtain ⟨b, hb, heq⟩ := Option.map_eq_some_iff.1 hr
      cases heq
      refine (ih _ _ _ _ hb).pre hq _ ?_
      intro z hz
      simp at hz
      rcases hz with rfl | rfl
      · exact Or.inl ⟨_, rfl⟩
      · exact Or.inr (Or.inl rfl)
    intro acc p xs p' hr
    cases p with
    | nil => exact fin _ _ _ _ (Or.inl rfl) hr
    | cons ch q =>
      have hq : q <:+ ch :: q := List.suffix_cons _ _
      rw [chronoLoop] at hr
      by_cases h1 : ch = 125
      · rw [if_pos h1] at hr; exact fin _ _ _ _ (Or.inr ⟨q, by rw [h1]⟩) hr
      rw [if_neg h1] at hr
      by_cases h2 : ch ≠ 37
      · rw [if_pos h2] at hr
        by_cases h3 : ch = 32 ∨ 9 ≤ ch ∧ ch ≤ 13
        · rw [if_pos h3] at hr; exact sp _ _ _ _ _ hq hr
        rw [if_neg h3] at hr
        by_cases h4 : cpLength e ch = 0
        · rw [if_pos h4] at hr; exact err _ _ _ _ hr
        rw [if_neg h4] at hr
        by_cases h5 : cpLength e ch = 1
        · rw [if_pos h5] at hr; exact (ih _ _ _ _ hr).pre hq [] (by simp)
        rw [if_neg h5] at hr
        by_cases h6 : (ch :: q).length < cpLength e ch
        · rw [if_pos h6] at hr; exact err _ _ _ _ hr
        rw [if_neg h6] at hr
        obtain ⟨cp, hcp, hr⟩ := bind_some_iff.1 hr
        have hd := List.drop_suffix (cpLength e ch) (ch :: q)
        by_cases h7 : isCpSpace cp = true
        · rw [if_pos h7] at hr; exact sp _ _ _ _ _ hd hr
        rw [if_neg h7] at hr
        cases hdr : List.drop (cpLength e ch) (ch :: q) with
        | nil => rw [hdr] at hr; cases hr
        | cons d r =>
          rw [hdr] at hr hd
          exact (ih _ _ _ _ hr).pre ((List.suffix_cons _ _).trans hd) [] (by simp)
      · rw [if_neg h2] at hr
        rw [key, Option.bind_some] at hr
        have hch : ch = 37 := by omega
        cases hcv : chronoConversion q with
        | mk c r =>
          rw [hcv] at hr
          cases c with
          | none =>
            simp only [recorder_call, Option.map_some, Option.some.injEq, Prod.mk.injEq, List.nil_append] at hr
            obtain ⟨rfl, rfl⟩ := hr
            exact ⟨_, flush _ acc, Or.inr rfl⟩
          | some c =>
            simp only [recorder_call, Option.bind_some, recorder_ok, if_true] at hr
            rw [loop_shift] at hr
            obtain ⟨b, hb, heq⟩ := Option.map_eq_some_iff.1 hr
            cases heq
            have hs := conversion_suffix q
            rw [hcv] at hs
            refine (ih _ _ _ _ hb).pre (hs.trans hq) _ ?_
            intro z hz
            rw [List.nil_append] at hz
            rcases List.mem_append.1 hz with hz | hz
            · exact flush _ acc z hz
            · simp at hz
              subst hz
              exact Or.inr (Or.inr ⟨q, r, hcv, by rw [hch]; exact List.suffix_refl _⟩)

/-- A conversion depends on its own characters only. -/
theorem conversion_prefix {q r : List Nat} {y : ChronoCall} (h : chronoConversion q = (some y, r)) :
    ∃ c, c ≠ [] ∧ q = c ++ r ∧ ∀ r', chronoConversion (c ++ r') = (some y, r') := by
  unfold chronoConversion at h
  split at h
  · cases h
  · cases h
  · rename_i d r'
    split at h
    · rename_i hd
      split at h
      · cases h
      · cases h
        refine ⟨[46, d, 83], by simp, rfl, ?_⟩
        intro r'; simp [chronoConversion, hd]
      · cases h
    · split at h
      · rename_i hd
        cases h
        exact ⟨[46, d], by simp, rfl, by intro r'; subst hd; simp [chronoConversion]⟩
      · cases h
  · cases h
  · rename_i d r'
    have h1 := congrArg Prod.fst h
    have h2 := congrArg Prod.snd h
    dsimp only at h1 h2
    exact ⟨[69, d], by simp, by rw [← h2]; rfl, by intro r'; simp [chronoConversion, h1]⟩
  · cases h
  · rename_i d r'
    have h1 := congrArg Prod.fst h
    have h2 := congrArg Prod.snd h
    dsimp only at h1 h2
    exact ⟨[79, d], by simp, by rw [← h2]; rfl, by intro r'; simp [chronoConversion, h1]⟩
  · rename_i d r' _ _ _ _ _ _
    have h1 := congrArg Prod.fst h
    have h2 := congrArg Prod.snd h
    dsimp only at h1 h2
    have hd : d ≠ 46 ∧ d ≠ 69 ∧ d ≠ 79 := by
      refine ⟨?_, ?_, ?_⟩ <;> (intro hd; subst hd; simp [chronoSpecifier] at h1)
    refine ⟨[d], by simp, by rw [← h2]; rfl, fun r' => ?_⟩
    show chronoConversion (d :: r') = _
    unfold chronoConversion
    split <;> rename_i heq <;> cases heq <;> first | (simp at hd; done) | rw [h1]

theorem specifier_calls {c : Nat} {x : ChronoCall} (h : chronoSpecifier c = some x ∨ chronoSpecifierE c = some x ∨ chronoSpecifierO c = some x) :
    x ≠ .verify ∧ x ≠ .localized ∧ x ≠ .error ∧ (∀ s, x ≠ .subsecond s) ∧ (x = .tzName → chronoSpecifier c = some x ∧ c = 90) := by
  rcases h with h | h | h
  · unfold chronoSpecifier at h
    split at h <;> first | (cases h; simp [chronoSpecifier]; done) | cases h
  · unfold chronoSpecifierE at h
    split at h <;> first | (cases h; simp; done) | cases h
  · unfold chronoSpecifierO at h
    split at h <;> first | (cases h; simp; done) | cases h

theorem conversion_calls {q r : List Nat} {y : ChronoCall} (h : chronoConversion q = (some y, r)) :
    y ≠ .verify ∧ y ≠ .localized ∧ y ≠ .error ∧ (∀ s, y = .subsecond s → ∃ q', q = 46 :: q') ∧ (y = .tzName → ∃ q', q = 90 :: q') := by
  unfold chronoConversion at h
  split at h
  · cases h
  · cases h
  · rename_i d r'
    split at h
    · split at h
      · cases h
      · cases h; simp
      · cases h
    · split at h
      · cases h; simp
      · cases h
  · cases h
  · rename_i d r'
    have h1 := congrArg Prod.fst h
    dsimp only at h1
    obtain ⟨a, b, c, f, g⟩ := specifier_calls (Or.inr (Or.inl h1))
    refine ⟨a, b, c, fun s hs => absurd hs (f s), fun ht => ?_⟩
    have := (g ht).2
    subst this; simp [chronoSpecifierE] at h1
  · cases h
  · rename_i d r'
    have h1 := congrArg Prod.fst h
    dsimp only at h1
    obtain ⟨a, b, c, f, g⟩ := specifier_calls (Or.inr (Or.inr h1))
    refine ⟨a, b, c, fun s hs => absurd hs (f s), fun ht => ?_⟩
    have := (g ht).2
    subst this; simp [chronoSpecifierO] at h1
  · rename_i d r' _ _ _ _ _ _
    have h1 := congrArg Prod.fst h
    dsimp only at h1
    obtain ⟨a, b, c, f, g⟩ := specifier_calls (Or.inl h1)
    refine ⟨a, b, c, fun s hs => absurd hs (f s), fun ht => ⟨r', ?_⟩⟩
    rw [(g ht).2]

theorem Inner.calls {p : List Nat} {y : ChronoCall} (h : Inner p y) :
    y ≠ .verify ∧ y ≠ .localized ∧ y ≠ .error ∧ (∀ s, y = .subsecond s → [37, 46] <:+: p) ∧ (y = .tzName → [37, 90] <:+: p) := by
  rcases h with ⟨t, rfl⟩ | rfl | ⟨q, r, h, hs⟩
  · simp
  · simp
  · obtain ⟨a, b, c, f, g⟩ := conversion_calls h
    refine ⟨a, b, c, fun s hs' => ?_, fun ht => ?_⟩
    · obtain ⟨q', rfl⟩ := f s hs'
      obtain ⟨u, hu⟩ := hs
      exact ⟨u, q', by rw [← hu]; simp⟩
    · obtain ⟨q', rfl⟩ := g ht
      obtain ⟨u, hu⟩ := hs
      exact ⟨u, q', by rw [← hu]; simp⟩

/-- The same calls are made for the part of the format that was read. -/
theorem loop_cut (e : Enc) (t : List Nat) (ht : t = [] ∨ ∃ r, t = 125 :: r) (n : Nat) : ∀ m acc a xs, a.length < m → .error ∉ xs →
    chronoLoop e recorder n [] acc (a ++ t) = some (xs, t) → chronoLoop e recorder m [] acc a = some (xs, []) := by
  have key : ∀ (acc : List Nat) (tr : List ChronoCall), (if acc = [] then some tr else recorder.call tr (.text acc)) = some (tr ++ if acc = [] then [] else [.text acc]) := by
    intro acc tr; split <;> simp [recorder_call]
  have fin : ∀ acc xs p, chronoFinish recorder [] acc p = some (xs, p) → chronoFinish recorder [] acc [] = some (xs, []) := by
    intro acc xs p hr
    unfold chronoFinish at hr ⊢
    rw [key] at hr ⊢
    simp only [recorder_call, Option.bind_some, Option.map_some, Option.some.injEq, Prod.mk.injEq, List.nil_append, and_true] at hr ⊢
    exact hr
  have finp : ∀ acc xs p p', chronoFinish recorder [] acc p = some (xs, p') → p' = p := by
    intro acc xs p p' hr
    unfold chronoFinish at hr
    rw [key] at hr
    simp only [recorder_call, Option.bind_some, Option.map_some, Option.some.injEq, Prod.mk.injEq, List.nil_append] at hr
    exact hr.2.symm
  have err : ∀ (q : List Nat) (xs tr : List ChronoCall) (p' : List Nat), .error ∉ xs → ((recorder.call tr .error).map fun st => (st, q)) = some (xs, p') → False := by
    intro q xs tr p' hx hr
    cases hr
    simp at hx
  induction n with
  | zero => intro m acc a xs _ _ hr; cases hr
  | succ n ih =>
    intro m acc a xs hm hx hr
    obtain ⟨m, rfl⟩ : ∃ k, m = k + 1 := ⟨m - 1, by omega⟩
    have sp : ∀ (acc b : List Nat) xs, b.length < m → .error ∉ xs →
        ((recorder.call [] (.text acc)).bind fun st => (recorder.call st .whitespace).bind fun st => chronoLoop e recorder n st [] (b ++ t)) = some (xs, t) →
        ((recorder.call [] (.text acc)).bind fun st => (recorder.call st .whitespace).bind fun st => chronoLoop e recorder m st [] b) = some (xs, []) := by
      intro acc b xs hb hx hr
      simp only [recorder_call, Option.bind_some] at hr ⊢
      rw [loop_shift] at hr ⊢
      obtain ⟨v, hv, heq⟩ := Option.map_eq_some_iff.1 hr
      obtain ⟨v1, v2⟩ := v
      simp only [Prod.mk.injEq] at heq
      obtain ⟨rfl, rfl⟩ := heq
      rw [ih m [] b v1 hb (by intro h; apply hx; simp [h]) hv]
      rfl
    cases a with
    | nil =>
      rw [List.nil_append] at hr
      rcases ht with rfl | ⟨r, rfl⟩
      · exact fin _ _ _ hr
      · rw [chronoLoop, if_pos rfl] at hr
        exact fin _ _ _ hr
    | cons ch a =>
      rw [List.cons_append, chronoLoop] at hr
      rw [chronoLoop]
      rw [List.length_cons] at hm
      have notsame : ∀ {b : List Nat}, b.length ≤ t.length → b ≠ ch :: (a ++ t) := by
        intro b hb h
        rw [h] at hb
        simp at hb
        omega
      by_cases h1 : ch = 125
      · rw [if_pos h1] at hr
        exact absurd (finp _ _ _ _ hr) (notsame (Nat.le_refl _))
      rw [if_neg h1] at hr ⊢
      by_cases h2 : ch ≠ 37
      · rw [if_pos h2] at hr ⊢
        by_cases h3 : ch = 32 ∨ 9 ≤ ch ∧ ch ≤ 13
        · rw [if_pos h3] at hr ⊢; exact sp _ _ _ (by omega) hx hr
        rw [if_neg h3] at hr ⊢
        by_cases h4 : cpLength e ch = 0
        · rw [if_pos h4] at hr; exact (err _ _ _ _ hx hr).elim
        rw [if_neg h4] at hr ⊢
        by_cases h5 : cpLength e ch = 1
        · rw [if_pos h5] at hr ⊢; exact ih _ _ _ _ (by omega) hx hr
        rw [if_neg h5] at hr ⊢
        by_cases h6 : (ch :: (a ++ t)).length < cpLength e ch
        · rw [if_pos h6] at hr; exact (err _ _ _ _ hx hr).elim
        rw [if_neg h6] at hr
        obtain ⟨cp, hcp, hr⟩ := bind_some_iff.1 hr
        -- what is left of the longer text ends with `t`, so the character is inside `a`
        have inside : ∀ {u : List Nat}, t <:+ u → u <:+ (ch :: (a ++ t)).drop (cpLength e ch) → cpLength e ch ≤ (ch :: a).length := by
          intro u h1 h2
          have h3 := (h1.trans h2).length_le
          simp only [List.length_drop, List.length_cons, List.length_append] at h3 ⊢
          simp only [List.length_cons, List.length_append] at h6
          omega
        have cutTake : cpLength e ch ≤ (ch :: a).length → (ch :: (a ++ t)).take (cpLength e ch) = (ch :: a).take (cpLength e ch) := by
          intro hl
          rw [← List.cons_append, List.take_append_of_le_length hl]
        have cutDrop : cpLength e ch ≤ (ch :: a).length → (ch :: (a ++ t)).drop (cpLength e ch) = (ch :: a).drop (cpLength e ch) ++ t := by
          intro hl
          rw [← List.cons_append, List.drop_append_of_le_length hl]
        by_cases h7 : isCpSpace cp = true
        · rw [if_pos h7] at hr
          have hr' := hr
          simp only [recorder_call, Option.bind_some] at hr'
          have hl := inside (loop_suffix e recorder _ _ _ _ _ _ hr') (List.suffix_refl _)
          rw [if_neg (by omega), ← cutTake hl, hcp, Option.bind_some, if_pos h7]
          rw [cutDrop hl] at hr
          exact sp _ _ _ (by rw [List.length_drop, List.length_cons]; omega) hx hr
        rw [if_neg h7] at hr
        cases hdr : List.drop (cpLength e ch) (ch :: (a ++ t)) with
        | nil => rw [hdr] at hr; cases hr
        | cons d r =>
          rw [hdr] at hr
          have hsuf := loop_suffix e recorder _ _ _ _ _ _ hr
          have hl := inside hsuf (by rw [hdr]; exact List.suffix_cons _ _)
          rw [if_neg (by omega), ← cutTake hl, hcp, Option.bind_some, if_neg h7]
          rw [cutDrop hl] at hdr
          obtain ⟨b, rfl⟩ := hsuf
          have hb : List.drop (cpLength e ch) (ch :: a) = d :: b := by
            apply List.append_cancel_right (bs := t)
            rw [hdr]; rfl
          rw [hb]
          have hlen := congrArg List.length hb
          rw [List.length_drop, List.length_cons, List.length_cons] at hlen
          exact ih _ _ _ _ (by omega) hx hr
      · rw [if_neg h2] at hr ⊢
        rw [key, Option.bind_some] at hr ⊢
        cases hcv : chronoConversion (a ++ t) with
        | mk c r =>
          rw [hcv] at hr
          cases c with
          | none => exact (err _ _ _ _ hx hr).elim
          | some c =>
            simp only [recorder_call, Option.bind_some, recorder_ok, if_true] at hr
            have hsuf := loop_suffix e recorder _ _ _ _ _ _ hr
            rw [loop_shift] at hr
            obtain ⟨v, hv, heq⟩ := Option.map_eq_some_iff.1 hr
            obtain ⟨v1, v2⟩ := v
            simp only [Prod.mk.injEq] at heq
            obtain ⟨rfl, rfl⟩ := heq
            obtain ⟨k, hk, hq, hall⟩ := conversion_prefix hcv
            obtain ⟨b, rfl⟩ := hsuf
            rw [← List.append_assoc] at hq
            have ha := List.append_cancel_right hq
            subst ha
            rw [hall b]
            simp only [recorder_call, Option.bind_some, recorder_ok, if_true]
            rw [loop_shift, ih m [] b v1 (by have := List.length_pos_iff.2 hk; rw [List.length_append] at hm; omega) (by intro h; apply hx; simp [h]) hv]
            rfl

/-- The calls of an accepted format: no error, `verify` at the end; and the part of it that is kept has the same calls. -/
theorem calls_cut (e : Enc) {a t : List Nat} {xs : List ChronoCall} (h : formatCalls e (a ++ t) = some (xs, t)) (hx : .error ∉ xs) :
    formatCalls e a = some (xs, []) ∧
      ∃ l ys, xs = l ++ ys ++ [.verify] ∧ (∀ y ∈ ys, Inner a y) ∧ ((l = [] ∧ ∃ r, a = 37 :: r) ∨ (l = [.localized] ∧ ∃ r, a = 76 :: r)) := by
  have err : ∀ (q : List Nat) (xs tr : List ChronoCall) (p' : List Nat), .error ∉ xs → ((recorder.call tr .error).map fun st => (st, q)) = some (xs, p') → False := by
    intro q xs tr p' hx hr
    cases hr
    simp at hx
  have shape : ∀ {n p xs} {acc p' : List Nat}, .error ∉ xs → chronoLoop e recorder n [] acc p = some (xs, p') →
      (p' = [] ∨ ∃ r, p' = 125 :: r) ∧ ∃ ys, (∀ y ∈ ys, Inner p y) ∧ xs = ys ++ [.verify] := by
    intro n p xs acc p' hx h
    obtain ⟨ys, h1, h2⟩ := loop_shape e _ _ _ _ _ h
    rcases h2 with ⟨rfl, h2⟩ | rfl
    · exact ⟨h2, ys, h1, rfl⟩
    · simp at hx
  -- the characters that the calls stand for are in the part that is kept
  have loop : ∀ {n q xs} , .error ∉ xs → chronoLoop e recorder n [] [] (37 :: q) = some (xs, t) → ∃ b, 37 :: q = 37 :: b ++ t ∧
      ∀ m, b.length + 1 < m → chronoLoop e recorder m [] [] (37 :: b) = some (xs, []) := by
    intro n q xs hx h
    have hsuf := loop_suffix e recorder _ _ _ _ _ _ h
    obtain ⟨b, hb⟩ := hsuf
    cases b with
    | nil =>
      have hp := (shape hx h).1
      rw [List.nil_append] at hb
      rw [hb] at hp
      rcases hp with hp | ⟨_, hp⟩ <;> cases hp
    | cons c b =>
      rw [List.cons_append] at hb
      cases hb
      exact ⟨b, rfl, fun m hm => loop_cut e t (shape hx h).1 _ m [] (37 :: b) xs (by simpa using hm) hx h⟩
  unfold formatCalls parseChrono at h
  cases hat : a ++ t with
  | nil => rw [hat] at h; exact (err _ _ _ _ hx h).elim
  | cons c r =>
    rw [hat] at h
    dsimp only at h
    by_cases h1 : c = 125
    · rw [if_pos h1] at h; exact (err _ _ _ _ hx h).elim
    rw [if_neg h1] at h
    by_cases h2 : c = 76
    · rw [if_pos h2, recorder_call, Option.bind_some] at h
      subst h2
      cases r with
      | nil => exact (err _ _ _ _ hx h).elim
      | cons d r =>
        dsimp only at h
        by_cases h3 : d ≠ 37
        · rw [if_pos h3] at h; exact (err _ _ _ _ hx h).elim
        rw [if_neg h3] at h
        have h3 : d = 37 := by omega
        subst h3
        rw [loop_shift] at h
        obtain ⟨v, hv, heq⟩ := Option.map_eq_some_iff.1 h
        obtain ⟨v1, v2⟩ := v
        simp only [Prod.mk.injEq] at heq
        obtain ⟨rfl, rfl⟩ := heq
        have hx' : .error ∉ v1 := by intro h; apply hx; simp [h]
        obtain ⟨b, hb, hl⟩ := loop hx' hv
        have ha : a = 76 :: 37 :: b := by
          apply List.append_cancel_right (bs := v2)
          rw [hat, hb]; rfl
        subst ha
        refine ⟨?_, ?_⟩
        · unfold formatCalls parseChrono
          dsimp only
          rw [if_neg (by decide), if_pos rfl, recorder_call, Option.bind_some, if_neg (by decide), loop_shift, hl _ (by simp)]
          rfl
        · obtain ⟨_, ys, h4, h5⟩ := shape hx' (hl (b.length + 2) (by omega))
          exact ⟨[.localized], ys, by rw [h5]; simp, fun y hy => (h4 y hy).mono (List.suffix_cons _ _), Or.inr ⟨rfl, _, rfl⟩⟩
    · rw [if_neg h2] at h
      by_cases h3 : c ≠ 37
      · rw [if_pos h3] at h; exact (err _ _ _ _ hx h).elim
      rw [if_neg h3] at h
      have h3 : c = 37 := by omega
      subst h3
      obtain ⟨b, hb, hl⟩ := loop hx h
      have ha : a = 37 :: b := by
        apply List.append_cancel_right (bs := t)
        rw [hat, hb]
      subst ha
      refine ⟨?_, ?_⟩
      · unfold formatCalls parseChrono
        dsimp only
        rw [if_neg (by decide), if_neg (by decide), if_neg (by decide), hl _ (by simp)]
      · obtain ⟨_, ys, h4, h5⟩ := shape hx (hl (b.length + 2) (by omega))
        exact ⟨[], ys, by rw [h5]; simp, h4, Or.inl ⟨rfl, _, rfl⟩⟩

end Scn
