import Verif.Lemmas.Chrono5
/-
The chrono format parser on any format: invariants, the calls it makes whatever the handler, where it stops.
-/
namespace Scn
open Spec
variable {σ : Type}

/-! ### Invariants -/

theorem bind_some_iff {α β : Type} {o : Option α} {f : α → Option β} {b : β} : o.bind f = some b ↔ ∃ a, o = some a ∧ f a = some b := by
  cases o <;> simp

theorem loop_invariant (e : Enc) (h : ChronoHandler σ) (P : σ → Prop) (hP : ∀ st x st', P st → h.call st x = some st' → P st') (n : Nat) :
    ∀ st acc p st' p', P st → chronoLoop e h n st acc p = some (st', p') → P st' := by
  have fin : ∀ st acc p st' p', P st → chronoFinish h st acc p = some (st', p') → P st' := by
    intro st acc p st' p' hst hf
    unfold chronoFinish at hf
    obtain ⟨a, ha, hf⟩ := bind_some_iff.1 hf
    obtain ⟨b, hb, heq⟩ := Option.map_eq_some_iff.1 hf
    cases heq
    refine hP _ _ _ ?_ hb
    split at ha
    · cases ha; exact hst
    · exact hP _ _ _ hst ha
  induction n with
  | zero => intro st acc p st' p' _ hf; cases hf
  | succ n ih =>
    intro st acc p st' p' hst hf
    cases p with
    | nil => exact fin _ _ _ _ _ hst hf
    | cons ch q =>
      rw [chronoLoop] at hf
      split at hf
      · exact fin _ _ _ _ _ hst hf
      · split at hf
        · split at hf
          · obtain ⟨a, ha, hf⟩ := bind_some_iff.1 hf
            obtain ⟨b, hb, hf⟩ := bind_some_iff.1 hf
            exact ih _ _ _ _ _ (hP _ _ _ (hP _ _ _ hst ha) hb) hf
          · split at hf
            · obtain ⟨b, hb, heq⟩ := Option.map_eq_some_iff.1 hf
              cases heq; exact hP _ _ _ hst hb
            · split at hf
              · exact ih _ _ _ _ _ hst hf
              · split at hf
                · obtain ⟨b, hb, heq⟩ := Option.map_eq_some_iff.1 hf
                  cases heq; exact hP _ _ _ hst hb
                · obtain ⟨cp, _, hf⟩ := bind_some_iff.1 hf
                  split at hf
                  · obtain ⟨a, ha, hf⟩ := bind_some_iff.1 hf
                    obtain ⟨b, hb, hf⟩ := bind_some_iff.1 hf
                    exact ih _ _ _ _ _ (hP _ _ _ (hP _ _ _ hst ha) hb) hf
                  · split at hf
                    · cases hf
                    · exact ih _ _ _ _ _ hst hf
        · obtain ⟨a, ha, hf⟩ := bind_some_iff.1 hf
          have hPa : P a := by
            split at ha
            · cases ha; exact hst
            · exact hP _ _ _ hst ha
          split at hf
          · obtain ⟨b, hb, heq⟩ := Option.map_eq_some_iff.1 hf
            cases heq; exact hP _ _ _ hPa hb
          · obtain ⟨b, hb, hf⟩ := bind_some_iff.1 hf
            split at hf
            · exact ih _ _ _ _ _ (hP _ _ _ hPa hb) hf
            · cases hf; exact hP _ _ _ hPa hb

theorem parse_invariant (e : Enc) (h : ChronoHandler σ) (P : σ → Prop) (hP : ∀ st x st', P st → h.call st x = some st' → P st')
    {st : σ} {fmt : List Nat} {st' : σ} {p' : List Nat} (hst : P st) (hf : parseChrono e h st fmt = some (st', p')) : P st' := by
  unfold parseChrono at hf
  cases fmt with
  | nil =>
    obtain ⟨b, hb, heq⟩ := Option.map_eq_some_iff.1 hf
    cases heq; exact hP _ _ _ hst hb
  | cons c r =>
    dsimp only at hf
    split at hf
    · obtain ⟨b, hb, heq⟩ := Option.map_eq_some_iff.1 hf
      cases heq; exact hP _ _ _ hst hb
    · split at hf
      · obtain ⟨a, ha, hf⟩ := bind_some_iff.1 hf
        have hPa := hP _ _ _ hst ha
        cases r with
        | nil =>
          obtain ⟨b, hb, heq⟩ := Option.map_eq_some_iff.1 hf
          cases heq; exact hP _ _ _ hPa hb
        | cons d r =>
          dsimp only at hf
          split at hf
          · obtain ⟨b, hb, heq⟩ := Option.map_eq_some_iff.1 hf
            cases heq; exact hP _ _ _ hPa hb
          · exact loop_invariant e h P hP _ _ _ _ _ _ hPa hf
      · split at hf
        · obtain ⟨b, hb, heq⟩ := Option.map_eq_some_iff.1 hf
          cases heq; exact hP _ _ _ hst hb
        · exact loop_invariant e h P hP _ _ _ _ _ _ hst hf

/-! ### The calls of a format -/

/-- A handler that records its calls. -/
def recorder : ChronoHandler (List ChronoCall) := ⟨fun st x => some (st ++ [x]), fun _ => true⟩

theorem recorder_call (tr : List ChronoCall) (x : ChronoCall) : recorder.call tr x = some (tr ++ [x]) := rfl

theorem recorder_ok (tr : List ChronoCall) : recorder.ok tr = true := rfl

theorem loop_shift (e : Enc) (n : Nat) : ∀ tr acc p,
    chronoLoop e recorder n tr acc p = (chronoLoop e recorder n [] acc p).map fun r => (tr ++ r.1, r.2) := by
  have fin : ∀ tr acc p, chronoFinish recorder tr acc p = (chronoFinish recorder [] acc p).map fun r => (tr ++ r.1, r.2) := by
    intro tr acc p
    unfold chronoFinish
    split <;> simp [recorder_call]
  induction n with
  | zero => intro tr acc p; rfl
  | succ n ih =>
    intro tr acc p
    cases p with
    | nil => exact fin _ _ _
    | cons ch q =>
      rw [chronoLoop, chronoLoop]
      split
      · exact fin _ _ _
      · split
        · split
          · simp only [recorder_call, Option.bind_some]
            rw [ih (tr ++ [ChronoCall.text acc] ++ [ChronoCall.whitespace]), ih ([] ++ [ChronoCall.text acc] ++ [ChronoCall.whitespace])]
            simp [Option.map_map, Function.comp_def]
          · split
            · simp [recorder_call]
            · split
              · exact ih _ _ _
              · split
                · simp [recorder_call]
                · cases decodeCp e (List.take (cpLength e ch) (ch :: q)) with
                  | none => rfl
                  | some cp =>
                    simp only [Option.bind_some]
                    split
                    · simp only [recorder_call, Option.bind_some]
                      rw [ih (tr ++ [ChronoCall.text acc] ++ [ChronoCall.whitespace]), ih ([] ++ [ChronoCall.text acc] ++ [ChronoCall.whitespace])]
                      simp [Option.map_map, Function.comp_def]
                    · cases List.drop (cpLength e ch) (ch :: q) with
                      | nil => rfl
                      | cons d r => exact ih _ _ _
        · have key : ∀ tr : List ChronoCall, (if acc = [] then some tr else recorder.call tr (.text acc)) = some (tr ++ if acc = [] then [] else [.text acc]) := by
            intro tr; split <;> simp [recorder_call]
          rw [key tr, key []]
          simp only [Option.bind_some]
          cases chronoConversion q with
          | mk c r =>
            cases c with
            | none => simp [recorder_call]
            | some c =>
              simp only [recorder_call, Option.bind_some, recorder_ok, if_true]
              rw [ih (tr ++ _ ++ [c]), ih ([] ++ _ ++ [c])]
              simp [Option.map_map, Function.comp_def]

/-- The calls a handler can get for a format if none of them reports an error, and where the parser stops then; `none`:
    undefined behaviour of the parser itself. -/
def formatCalls (e : Enc) (fmt : List Nat) : Option (List ChronoCall × List Nat) := parseChrono e recorder [] fmt

/-- Errors are not forgotten. -/
def Sticky (h : ChronoHandler σ) : Prop := ∀ st x st', h.ok st = false → h.call st x = some st' → h.ok st' = false


theorem sticky_loop {e : Enc} {h : ChronoHandler σ} (hs : Sticky h) {n : Nat} {st : σ} {acc p : List Nat} {st' : σ} {p' : List Nat}
    (hf : chronoLoop e h n st acc p = some (st', p')) (hok : h.ok st' = true) : h.ok st = true := by
  cases hst : h.ok st with
  | true => rfl
  | false =>
    have := loop_invariant e h (fun s => h.ok s = false) (fun a x b ha hb => hs a x b ha hb) n _ _ _ _ _ hst hf
    rw [hok] at this; cases this

theorem sticky_call {h : ChronoHandler σ} (hs : Sticky h) {st : σ} {x : ChronoCall} {st' : σ} (hc : h.call st x = some st') (hok : h.ok st' = true) :
    h.ok st = true := by
  cases hst : h.ok st with
  | true => rfl
  | false => rw [hs _ _ _ hst hc] at hok; cases hok

/-- The text before a conversion. -/
theorem flush_success {h : ChronoHandler σ} {st a : σ} {acc : List Nat} (ha : (if acc = [] then some st else h.call st (.text acc)) = some a)
    (hok : h.ok a = true) : Calls h st (if acc = [] then [] else [.text acc]) a := by
  by_cases hacc : acc = []
  · rw [if_pos hacc] at ha ⊢; cases ha; exact .nil _
  · rw [if_neg hacc] at ha ⊢; exact .cons _ _ _ _ _ ha hok (.nil _)

theorem loop_success (e : Enc) (h : ChronoHandler σ) (hs : Sticky h) (n : Nat) : ∀ st acc p st' p',
    chronoLoop e h n st acc p = some (st', p') → h.ok st' = true →
      ∃ xs, chronoLoop e recorder n [] acc p = some (xs, p') ∧ Calls h st xs st' := by
  have key : ∀ (acc : List Nat) (tr : List ChronoCall), (if acc = [] then some tr else recorder.call tr (.text acc)) = some (tr ++ if acc = [] then [] else [.text acc]) := by
    intro acc tr; split <;> simp [recorder_call]
  have fin : ∀ st acc p st' p', chronoFinish h st acc p = some (st', p') → h.ok st' = true →
      ∃ xs, chronoFinish recorder [] acc p = some (xs, p') ∧ Calls h st xs st' := by
    intro st acc p st' p' hf hok
    unfold chronoFinish at hf
    obtain ⟨a, ha, hf⟩ := bind_some_iff.1 hf
    obtain ⟨b, hb, heq⟩ := Option.map_eq_some_iff.1 hf
    cases heq
    refine ⟨(if acc = [] then [] else [.text acc]) ++ [.verify], ?_, ?_⟩
    · unfold chronoFinish
      rw [key]; simp [recorder_call]
    · exact (flush_success ha (sticky_call hs hb hok)).append (.cons _ _ _ _ _ hb hok (.nil _))
  have err : ∀ (st st' : σ) (p' q : List Nat), ((h.call st .error).map fun st => (st, q)) = some (st', p') → h.ok st' = true →
      ∃ xs, ((recorder.call [] .error).map fun st => (st, q)) = some (xs, p') ∧ Calls h st xs st' := by
    intro st st' p' q hf hok
    obtain ⟨b, hb, heq⟩ := Option.map_eq_some_iff.1 hf
    cases heq
    exact ⟨[.error], rfl, .cons _ _ _ _ _ hb hok (.nil _)⟩
  induction n with
  | zero => intro st acc p st' p' hf; cases hf
  | succ n ih =>
    have sp : ∀ (st : σ) (acc : List Nat) (st' : σ) (p' q : List Nat),
        ((h.call st (.text acc)).bind fun st => (h.call st .whitespace).bind fun st => chronoLoop e h n st [] q) = some (st', p') → h.ok st' = true →
        ∃ xs, ((recorder.call [] (.text acc)).bind fun st => (recorder.call st .whitespace).bind fun st => chronoLoop e recorder n st [] q) = some (xs, p') ∧
          Calls h st xs st' := by
      intro st acc st' p' q hf hok
      obtain ⟨a, ha, hf⟩ := bind_some_iff.1 hf
      obtain ⟨b, hb, hf⟩ := bind_some_iff.1 hf
      obtain ⟨xs, h1, h2⟩ := ih _ _ _ _ _ hf hok
      have hbok := sticky_loop hs hf hok
      refine ⟨[.text acc, .whitespace] ++ xs, ?_, .cons _ _ _ _ _ ha (sticky_call hs hb hbok) (.cons _ _ _ _ _ hb hbok h2)⟩
      simp only [recorder_call, Option.bind_some]
      rw [loop_shift, h1]; rfl
    intro st acc p st' p' hf hok
    cases p with
    | nil => exact fin _ _ _ _ _ hf hok
    | cons ch q =>
      rw [chronoLoop] at hf
      rw [chronoLoop]
      split
      · rename_i hc
        rw [if_pos hc] at hf
        exact fin _ _ _ _ _ hf hok
      · rename_i hc
        rw [if_neg hc] at hf
        split
        · rename_i hc
          rw [if_pos hc] at hf
          split
          · rename_i hc
            rw [if_pos hc] at hf
            exact sp _ _ _ _ _ hf hok
          · rename_i hc
            rw [if_neg hc] at hf
            split
            · rename_i hc
              rw [if_pos hc] at hf
              exact err _ _ _ _ hf hok
            · rename_i hc
              rw [if_neg hc] at hf
              split
              · rename_i hc
                rw [if_pos hc] at hf
                exact ih _ _ _ _ _ hf hok
              · rename_i hc
                rw [if_neg hc] at hf
                split
                · rename_i hc
                  rw [if_pos hc] at hf
                  exact err _ _ _ _ hf hok
                · rename_i hc
                  rw [if_neg hc] at hf
                  cases hd : decodeCp e (List.take (cpLength e ch) (ch :: q)) with
                  | none => rw [hd] at hf; cases hf
                  | some cp =>
                    rw [hd, Option.bind_some] at hf
                    rw [Option.bind_some]
                    split
                    · rename_i hc
                      rw [if_pos hc] at hf
                      exact sp _ _ _ _ _ hf hok
                    · rename_i hc
                      rw [if_neg hc] at hf
                      cases hdr : List.drop (cpLength e ch) (ch :: q) with
                      | nil => rw [hdr] at hf; cases hf
                      | cons d r =>
                        rw [hdr] at hf
                        exact ih _ _ _ _ _ hf hok
        · rename_i hc
          rw [if_neg hc] at hf
          obtain ⟨a, ha, hf⟩ := bind_some_iff.1 hf
          rw [key, Option.bind_some]
          cases hcv : chronoConversion q with
          | mk c r =>
            rw [hcv] at hf
            cases c with
            | none =>
              obtain ⟨b, hb, heq⟩ := Option.map_eq_some_iff.1 hf
              cases heq
              refine ⟨(if acc = [] then [] else [.text acc]) ++ [.error], ?_, (flush_success ha (sticky_call hs hb hok)).append (.cons _ _ _ _ _ hb hok (.nil _))⟩
              simp [recorder_call]
            | some c =>
              obtain ⟨b, hb, hf⟩ := bind_some_iff.1 hf
              simp only [recorder_call, Option.bind_some, recorder_ok, if_true]
              split at hf
              · rename_i hbok
                obtain ⟨xs, h1, h2⟩ := ih _ _ _ _ _ hf hok
                refine ⟨(if acc = [] then [] else [.text acc]) ++ (c :: xs), ?_, (flush_success ha (sticky_call hs hb hbok)).append (.cons _ _ _ _ _ hb hbok h2)⟩
                rw [loop_shift, h1]; simp
              · rename_i hbok
                cases hf
                exact absurd hok hbok

/-- A successful parse has made the calls of the format one after the other. -/
theorem parse_success (e : Enc) (h : ChronoHandler σ) (hs : Sticky h) {st : σ} {fmt : List Nat} {st' : σ} {p' : List Nat}
    (hf : parseChrono e h st fmt = some (st', p')) (hok : h.ok st' = true) :
    ∃ xs, formatCalls e fmt = some (xs, p') ∧ Calls h st xs st' := by
  have err : ∀ (st st' : σ) (p' q : List Nat) (tr : List ChronoCall), ((h.call st .error).map fun st => (st, q)) = some (st', p') → h.ok st' = true →
      ((recorder.call tr .error).map fun st => (st, q)) = some (tr ++ [.error], p') ∧ Calls h st [.error] st' := by
    intro st st' p' q tr hf hok
    obtain ⟨b, hb, heq⟩ := Option.map_eq_some_iff.1 hf
    cases heq
    exact ⟨rfl, .cons _ _ _ _ _ hb hok (.nil _)⟩
  unfold parseChrono at hf
  unfold formatCalls parseChrono
  cases fmt with
  | nil => exact ⟨_, err _ _ _ _ [] hf hok⟩
  | cons c r =>
    dsimp only at hf ⊢
    split
    · rename_i hc
      rw [if_pos hc] at hf
      exact ⟨_, err _ _ _ _ [] hf hok⟩
    · rename_i hc
      rw [if_neg hc] at hf
      split
      · rename_i hc
        rw [if_pos hc] at hf
        obtain ⟨a, ha, hf⟩ := bind_some_iff.1 hf
        rw [recorder_call, Option.bind_some]
        cases r with
        | nil =>
          obtain ⟨h1, h2⟩ := err _ _ _ _ ([] ++ [.localized]) hf hok
          obtain ⟨b, hb, heq⟩ := Option.map_eq_some_iff.1 hf
          cases heq
          exact ⟨_, h1, .cons _ _ _ _ _ ha (sticky_call hs hb hok) h2⟩
        | cons d r =>
          dsimp only at hf ⊢
          split
          · rename_i hc
            rw [if_pos hc] at hf
            obtain ⟨h1, h2⟩ := err _ _ _ _ ([] ++ [.localized]) hf hok
            obtain ⟨b, hb, heq⟩ := Option.map_eq_some_iff.1 hf
            cases heq
            exact ⟨_, h1, .cons _ _ _ _ _ ha (sticky_call hs hb hok) h2⟩
          · rename_i hc
            rw [if_neg hc] at hf
            obtain ⟨xs, h1, h2⟩ := loop_success e h hs _ _ _ _ _ _ hf hok
            exact ⟨.localized :: xs, by rw [loop_shift, h1]; rfl, .cons _ _ _ _ _ ha (sticky_loop hs hf hok) h2⟩
      · rename_i hc
        rw [if_neg hc] at hf
        split
        · rename_i hc
          rw [if_pos hc] at hf
          exact ⟨_, err _ _ _ _ [] hf hok⟩
        · rename_i hc
          rw [if_neg hc] at hf
          exact loop_success e h hs _ _ _ _ _ _ hf hok

/-! ### Undefined behaviour -/

/-- A run of calls, with errors or without. -/
inductive Steps (h : ChronoHandler σ) : σ → List ChronoCall → σ → Prop where
  | nil (st) : Steps h st [] st
  | cons (st c st' cs st'') (hc : h.call st c = some st') (hs : Steps h st' cs st'') : Steps h st (c :: cs) st''

/-- The handler does something undefined during the calls. -/
def Breaks (h : ChronoHandler σ) (st : σ) (xs : List ChronoCall) : Prop :=
  ∃ ys x zs st', xs = ys ++ x :: zs ∧ Steps h st ys st' ∧ h.call st' x = none

theorem Breaks.cons {h : ChronoHandler σ} {st st' : σ} {x : ChronoCall} {xs : List ChronoCall} (hc : h.call st x = some st') (hb : Breaks h st' xs) :
    Breaks h st (x :: xs) := by
  obtain ⟨ys, y, zs, s, rfl, h1, h2⟩ := hb
  exact ⟨x :: ys, y, zs, s, rfl, .cons _ _ _ _ _ hc h1, h2⟩

theorem Breaks.head {h : ChronoHandler σ} {st : σ} {x : ChronoCall} {xs : List ChronoCall} (hc : h.call st x = none) : Breaks h st (x :: xs) :=
  ⟨[], x, xs, st, rfl, .nil _, hc⟩

theorem loop_none (e : Enc) (h : ChronoHandler σ) (n : Nat) : ∀ st acc p, chronoLoop e h n st acc p = none →
    ∀ xs p', chronoLoop e recorder n [] acc p = some (xs, p') → Breaks h st xs := by
  have key : ∀ (acc : List Nat) (tr : List ChronoCall), (if acc = [] then some tr else recorder.call tr (.text acc)) = some (tr ++ if acc = [] then [] else [.text acc]) := by
    intro acc tr; split <;> simp [recorder_call]
  have flush : ∀ (st : σ) (acc : List Nat) (f : σ → Option (σ × List Nat)) (xs : List ChronoCall),
      ((if acc = [] then some st else h.call st (.text acc)).bind f) = none → (∀ a, f a = none → Breaks h a xs) →
      Breaks h st ((if acc = [] then [] else [.text acc]) ++ xs) := by
    intro st acc f xs hf hfa
    by_cases hacc : acc = []
    · rw [if_pos hacc] at hf ⊢
      exact hfa st hf
    · rw [if_neg hacc] at hf ⊢
      cases hc : h.call st (.text acc) with
      | none => exact .head hc
      | some a => rw [hc, Option.bind_some] at hf; exact .cons hc (hfa a hf)
  have fin : ∀ st acc p, chronoFinish h st acc p = none → ∀ xs p', chronoFinish recorder [] acc p = some (xs, p') → Breaks h st xs := by
    intro st acc p hf xs p' hr
    unfold chronoFinish at hf hr
    rw [key] at hr
    simp only [recorder_call, Option.bind_some, Option.map_some, Option.some.injEq, Prod.mk.injEq, List.nil_append] at hr
    obtain ⟨rfl, rfl⟩ := hr
    refine flush st acc _ _ hf fun a ha => .head ?_
    cases hv : h.call a .verify with
    | none => rfl
    | some b => rw [hv] at ha; cases ha
  have err : ∀ (st : σ) (q : List Nat), ((h.call st .error).map fun st => (st, q)) = none → ∀ xs p',
      ((recorder.call [] .error).map fun st => (st, q)) = some (xs, p') → Breaks h st xs := by
    intro st q hf xs p' hr
    cases hr
    refine .head ?_
    cases hv : h.call st .error with
    | none => rfl
    | some b => rw [hv] at hf; cases hf
  induction n with
  | zero => intro st acc p _ xs p' hr; cases hr
  | succ n ih =>
    have sp : ∀ (st : σ) (acc q : List Nat),
        ((h.call st (.text acc)).bind fun st => (h.call st .whitespace).bind fun st => chronoLoop e h n st [] q) = none → ∀ xs p',
        ((recorder.call [] (.text acc)).bind fun st => (recorder.call st .whitespace).bind fun st => chronoLoop e recorder n st [] q) = some (xs, p') →
          Breaks h st xs := by
      intro st acc q hf xs p' hr
      simp only [recorder_call, Option.bind_some] at hr
      rw [loop_shift] at hr
      obtain ⟨b, hb, heq⟩ := Option.map_eq_some_iff.1 hr
      cases heq
      cases hc : h.call st (.text acc) with
      | none => exact .head hc
      | some a =>
        rw [hc, Option.bind_some] at hf
        refine .cons hc ?_
        cases hc' : h.call a .whitespace with
        | none => exact .head hc'
        | some a' =>
          rw [hc', Option.bind_some] at hf
          exact .cons hc' (ih _ _ _ hf _ _ hb)
    intro st acc p hf xs p' hr
    cases p with
    | nil => exact fin _ _ _ hf _ _ hr
    | cons ch q =>
      rw [chronoLoop] at hf hr
      by_cases h1 : ch = 125
      · rw [if_pos h1] at hf hr; exact fin _ _ _ hf _ _ hr
      rw [if_neg h1] at hf hr
      by_cases h2 : ch ≠ 37
      · rw [if_pos h2] at hf hr
        by_cases h3 : ch = 32 ∨ 9 ≤ ch ∧ ch ≤ 13
        · rw [if_pos h3] at hf hr; exact sp _ _ _ hf _ _ hr
        rw [if_neg h3] at hf hr
        by_cases h4 : cpLength e ch = 0
        · rw [if_pos h4] at hf hr; exact err _ _ hf _ _ hr
        rw [if_neg h4] at hf hr
        by_cases h5 : cpLength e ch = 1
        · rw [if_pos h5] at hf hr; exact ih _ _ _ hf _ _ hr
        rw [if_neg h5] at hf hr
        by_cases h6 : (ch :: q).length < cpLength e ch
        · rw [if_pos h6] at hf hr; exact err _ _ hf _ _ hr
        rw [if_neg h6] at hf hr
        obtain ⟨cp, hcp, hr⟩ := bind_some_iff.1 hr
        rw [hcp, Option.bind_some] at hf
        by_cases h7 : isCpSpace cp = true
        · rw [if_pos h7] at hf hr; exact sp _ _ _ hf _ _ hr
        rw [if_neg h7] at hf hr
        cases hd : List.drop (cpLength e ch) (ch :: q) with
        | nil => rw [hd] at hr; cases hr
        | cons d r => rw [hd] at hf hr; exact ih _ _ _ hf _ _ hr
      · rw [if_neg h2] at hf hr
        rw [key, Option.bind_some] at hr
        cases hcv : chronoConversion q with
        | mk c r =>
          rw [hcv] at hf hr
          cases c with
          | none =>
            simp only [recorder_call, Option.map_some, Option.some.injEq, Prod.mk.injEq, List.nil_append] at hr
            obtain ⟨rfl, rfl⟩ := hr
            refine flush st acc _ _ hf fun a ha => .head ?_
            cases hv : h.call a .error with
            | none => rfl
            | some b => dsimp only at ha; rw [hv] at ha; cases ha
          | some c =>
            simp only [recorder_call, Option.bind_some, recorder_ok, if_true] at hr
            rw [loop_shift] at hr
            obtain ⟨b, hb, heq⟩ := Option.map_eq_some_iff.1 hr
            cases heq
            rw [List.nil_append, List.append_assoc]
            refine flush st acc _ _ hf fun a ha => ?_
            dsimp only at ha
            cases hv : h.call a c with
            | none => exact .head hv
            | some a' =>
              rw [hv, Option.bind_some] at ha
              split at ha
              · exact .cons hv (ih _ _ _ ha _ _ hb)
              · cases ha

/-- If the parser has undefined behaviour, then already on its own or because a call has. -/
theorem parse_none (e : Enc) (h : ChronoHandler σ) {st : σ} {fmt : List Nat} (hf : parseChrono e h st fmt = none) {xs : List ChronoCall} {p' : List Nat}
    (hr : formatCalls e fmt = some (xs, p')) : Breaks h st xs := by
  have err : ∀ (st : σ) (q : List Nat) (tr : List ChronoCall), ((h.call st .error).map fun st => (st, q)) = none → ∀ xs p',
      ((recorder.call tr .error).map fun st => (st, q)) = some (xs, p') → ∃ ys, xs = tr ++ ys ∧ Breaks h st ys := by
    intro st q tr hf xs p' hr
    cases hr
    refine ⟨[.error], rfl, .head ?_⟩
    cases hv : h.call st .error with
    | none => rfl
    | some b => rw [hv] at hf; cases hf
  unfold parseChrono at hf
  unfold formatCalls parseChrono at hr
  cases fmt with
  | nil => obtain ⟨ys, rfl, hb⟩ := err _ _ _ hf _ _ hr; exact hb
  | cons c r =>
    dsimp only at hf hr
    by_cases h1 : c = 125
    · rw [if_pos h1] at hf hr; obtain ⟨ys, rfl, hb⟩ := err _ _ _ hf _ _ hr; exact hb
    rw [if_neg h1] at hf hr
    by_cases h2 : c = 76
    · rw [if_pos h2] at hf hr
      rw [recorder_call, Option.bind_some] at hr
      cases hc : h.call st .localized with
      | none =>
        have : ∃ ys, xs = .localized :: ys := by
          cases r with
          | nil => cases hr; exact ⟨_, rfl⟩
          | cons d r =>
            dsimp only at hr
            split at hr
            · cases hr; exact ⟨_, rfl⟩
            · rw [loop_shift] at hr
              obtain ⟨b, hb, heq⟩ := Option.map_eq_some_iff.1 hr
              cases heq
              exact ⟨_, rfl⟩
        obtain ⟨ys, rfl⟩ := this
        exact .head hc
      | some a =>
        rw [hc, Option.bind_some] at hf
        cases r with
        | nil => obtain ⟨ys, rfl, hb⟩ := err _ _ _ hf _ _ hr; exact .cons hc hb
        | cons d r =>
          dsimp only at hf hr
          by_cases h3 : d ≠ 37
          · rw [if_pos h3] at hf hr; obtain ⟨ys, rfl, hb⟩ := err _ _ _ hf _ _ hr; exact .cons hc hb
          · rw [if_neg h3] at hf hr
            rw [loop_shift] at hr
            obtain ⟨b, hb, heq⟩ := Option.map_eq_some_iff.1 hr
            cases heq
            exact .cons hc (loop_none e h _ _ _ _ hf _ _ hb)
    · rw [if_neg h2] at hf hr
      by_cases h3 : c ≠ 37
      · rw [if_pos h3] at hf hr; obtain ⟨ys, rfl, hb⟩ := err _ _ _ hf _ _ hr; exact hb
      · rw [if_neg h3] at hf hr
        exact loop_none e h _ _ _ _ hf _ _ hr

/-! ### Where the parser stops -/

theorem conversion_suffix (q : List Nat) : (chronoConversion q).2 <:+ q := by
  unfold chronoConversion
  split
  · exact List.suffix_refl _
  · exact List.nil_suffix
  · rename_i c r
    split
    · split
      · exact List.nil_suffix
      · exact ⟨[46, c, 83], rfl⟩
      · exact ⟨[46, c], rfl⟩
    · split
      · exact ⟨[46, c], rfl⟩
      · exact ⟨[46], rfl⟩
  · exact List.nil_suffix
  · rename_i c r; exact ⟨[69, c], rfl⟩
  · exact List.nil_suffix
  · rename_i c r; exact ⟨[79, c], rfl⟩
  · rename_i c r _ _ _ _ _ _; exact ⟨[c], rfl⟩

/-- A property of positions in the format that the parser keeps and that excludes a character of several code units at
    the end. -/
structure Tame (e : Enc) (P : List Nat → Prop) : Prop where
  tail : ∀ {ch q}, P (ch :: q) → ch ≠ 37 → ((ch = 32 ∨ 9 ≤ ch ∧ ch ≤ 13) ∨ cpLength e ch = 1) → P q
  conv : ∀ {q c r}, P (37 :: q) → chronoConversion q = (some c, r) → P r
  multi : ∀ {ch q cp}, P (ch :: q) → 1 < cpLength e ch → cpLength e ch ≤ (ch :: q).length → decodeCp e ((ch :: q).take (cpLength e ch)) = some cp →
    if isCpSpace cp then P ((ch :: q).drop (cpLength e ch)) else ∃ d r, (ch :: q).drop (cpLength e ch) = d :: r ∧ P r

/-- On such formats the parser itself is defined. -/
theorem loop_tame (e : Enc) {P : List Nat → Prop} (hP : Tame e P) (n : Nat) : ∀ acc p, P p → p.length < n →
    ∃ xs p', chronoLoop e recorder n [] acc p = some (xs, p') ∧ p' <:+ p := by
  have fin : ∀ acc p, ∃ xs, chronoFinish recorder [] acc p = some (xs, p) := by
    intro acc p
    unfold chronoFinish
    split
    · exact ⟨_, rfl⟩
    · exact ⟨_, rfl⟩
  induction n with
  | zero => intro acc p _ h; omega
  | succ n ih =>
    intro acc p hp hl
    cases p with
    | nil =>
      obtain ⟨xs, h⟩ := fin acc []
      exact ⟨xs, [], h, List.suffix_refl _⟩
    | cons ch q =>
      rw [List.length_cons] at hl
      rw [chronoLoop]
      by_cases h1 : ch = 125
      · rw [if_pos h1]
        obtain ⟨xs, h⟩ := fin acc (ch :: q)
        exact ⟨xs, _, h, List.suffix_refl _⟩
      rw [if_neg h1]
      by_cases h2 : ch ≠ 37
      · rw [if_pos h2]
        by_cases h3 : ch = 32 ∨ 9 ≤ ch ∧ ch ≤ 13
        · rw [if_pos h3]
          simp only [recorder_call, Option.bind_some]
          rw [loop_shift]
          obtain ⟨xs, p', h, hs⟩ := ih [] q (hP.tail hp h2 (Or.inl h3)) (by omega)
          rw [h]
          exact ⟨_, _, rfl, hs.trans (List.suffix_cons _ _)⟩
        rw [if_neg h3]
        by_cases h4 : cpLength e ch = 0
        · rw [if_pos h4]; exact ⟨_, _, rfl, List.suffix_refl _⟩
        rw [if_neg h4]
        by_cases h5 : cpLength e ch = 1
        · rw [if_pos h5]
          obtain ⟨xs, p', h, hs⟩ := ih (acc ++ [ch]) q (hP.tail hp h2 (Or.inr h5)) (by omega)
          exact ⟨xs, p', h, hs.trans (List.suffix_cons _ _)⟩
        rw [if_neg h5]
        by_cases h6 : (ch :: q).length < cpLength e ch
        · rw [if_pos h6]; exact ⟨_, _, rfl, List.nil_suffix⟩
        rw [if_neg h6]
        have hle := Nat.le_of_not_lt h6
        obtain ⟨cp, hcp⟩ := decodeCp_total e ch ((ch :: q).take (cpLength e ch)) h4 (by rw [List.length_take]; omega)
        have hm := hP.multi hp (by omega) hle hcp
        rw [hcp, Option.bind_some]
        have hdl : ((ch :: q).drop (cpLength e ch)).length < n := by rw [List.length_drop, List.length_cons]; omega
        by_cases h7 : isCpSpace cp = true
        · rw [if_pos h7] at hm ⊢
          simp only [recorder_call, Option.bind_some]
          rw [loop_shift]
          obtain ⟨xs, p', h, hs⟩ := ih [] _ hm hdl
          rw [h]
          exact ⟨_, _, rfl, hs.trans (List.drop_suffix _ _)⟩
        · rw [if_neg h7] at hm ⊢
          obtain ⟨d, r, hd, hr⟩ := hm
          have hds := List.drop_suffix (cpLength e ch) (ch :: q)
          rw [hd] at hdl hds ⊢
          rw [List.length_cons] at hdl
          obtain ⟨xs, p', h, hs⟩ := ih (acc ++ (ch :: q).take (cpLength e ch) ++ [d]) r hr (by omega)
          exact ⟨xs, p', h, hs.trans ((List.suffix_cons _ _).trans hds)⟩
      · rw [if_neg h2]
        have key : ∀ (acc : List Nat) (tr : List ChronoCall), (if acc = [] then some tr else recorder.call tr (.text acc)) = some (tr ++ if acc = [] then [] else [.text acc]) := by
          intro acc tr; split <;> simp [recorder_call]
        rw [key, Option.bind_some]
        have hsuf := conversion_suffix q
        cases hcv : chronoConversion q with
        | mk c r =>
          rw [hcv] at hsuf
          cases c with
          | none => exact ⟨_, _, rfl, hsuf.trans (List.suffix_cons _ _)⟩
          | some c =>
            simp only [recorder_call, Option.bind_some, recorder_ok, if_true]
            rw [loop_shift]
            have hrl : r.length ≤ q.length := hsuf.length_le
            obtain ⟨xs, p', h, hs⟩ := ih [] r (hP.conv (by rw [Classical.not_not.1 h2] at hp; exact hp) hcv) (by omega)
            rw [h]
            exact ⟨_, _, rfl, (hs.trans hsuf).trans (List.suffix_cons _ _)⟩

theorem formatCalls_tame (e : Enc) {P : List Nat → Prop} (hP : Tame e P) (fmt : List Nat) (hp : P fmt) (hL : ∀ r, fmt = 76 :: r → P r) :
    ∃ xs p', formatCalls e fmt = some (xs, p') ∧ p' <:+ fmt := by
  unfold formatCalls parseChrono
  cases fmt with
  | nil => exact ⟨_, _, rfl, List.suffix_refl _⟩
  | cons c r =>
    dsimp only
    by_cases h1 : c = 125
    · rw [if_pos h1]; exact ⟨_, _, rfl, List.suffix_refl _⟩
    rw [if_neg h1]
    by_cases h2 : c = 76
    · rw [if_pos h2, recorder_call, Option.bind_some]
      have hr : P r := hL r (by rw [h2])
      cases r with
      | nil => exact ⟨_, _, rfl, List.nil_suffix⟩
      | cons d r =>
        dsimp only
        by_cases h3 : d ≠ 37
        · rw [if_pos h3]; exact ⟨_, _, rfl, List.suffix_cons _ _⟩
        · rw [if_neg h3, loop_shift]
          obtain ⟨xs, p', h, hs⟩ := loop_tame e hP ((c :: d :: r).length + 1) [] (d :: r) hr (by simp)
          rw [h]
          exact ⟨_, _, rfl, hs.trans (List.suffix_cons _ _)⟩
    · rw [if_neg h2]
      by_cases h3 : c ≠ 37
      · rw [if_pos h3]; exact ⟨_, _, rfl, List.suffix_refl _⟩
      · rw [if_neg h3]
        exact loop_tame e hP _ [] (c :: r) hp (by simp)

/-- Formats without characters of several code units. -/
theorem tame_single (e : Enc) : Tame e (fun p => ∀ c ∈ p, cpLength e c ≤ 1) where
  tail h _ _ := fun c hc => h c (by simp [hc])
  conv {q c r} h hcv := by
    have hsuf := conversion_suffix q
    rw [hcv] at hsuf
    exact fun c hc => h c (by simp [hsuf.mem hc])
  multi {ch q cp} h h1 := absurd (h ch (by simp)) (by omega)

theorem formatCalls_single (e : Enc) (fmt : List Nat) (hp : ∀ c ∈ fmt, cpLength e c ≤ 1) :
    ∃ xs p', formatCalls e fmt = some (xs, p') ∧ p' <:+ fmt :=
  formatCalls_tame e (tame_single e) fmt hp (fun r hr c hc => hp c (by simp [hr, hc]))

end Scn
