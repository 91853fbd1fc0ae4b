import Verif.Lemmas.Driver
import Verif.Lemmas.Format2
/-
Rendered format strings; literal text; which error is reported.
-/
namespace Scn
open Spec
variable {V : Type} {σ τ : Type}

/-! ### One step of the parser on text of known shape -/

def NoBrace (u : List Nat) : Prop := ∀ c ∈ u, isBrace c = false

theorem span_text {u : List Nat} (hu : NoBrace u) {c : Nat} (hc : isBrace c = true) (cs : List Nat) :
    (u ++ c :: cs).takeWhile (fun c => ! isBrace c) = u ∧
    (u ++ c :: cs).dropWhile (fun c => ! isBrace c) = c :: cs := by
  induction u with
  | nil => simp [hc]
  | cons a u ih =>
    have ha := hu a (by simp)
    have := ih (fun x hx => hu x (by simp [hx]))
    simp [ha, this.1, this.2]

theorem span_end {u : List Nat} (hu : NoBrace u) :
    u.takeWhile (fun c => ! isBrace c) = u ∧ u.dropWhile (fun c => ! isBrace c) = [] := by
  induction u with
  | nil => simp
  | cons a u ih =>
    have ha := hu a (by simp)
    have := ih (fun x hx => hu x (by simp [hx]))
    simp [ha, this.1, this.2]

theorem parseLoop_end (H : Handler σ) (n : Nat) (st : σ) {u : List Nat} (hu : NoBrace u) :
    parseLoop H (n + 1) st u = H.onLiteral st u := by
  unfold parseLoop
  dsimp only
  rw [(span_end hu).1, (span_end hu).2]

theorem parseLoop_open (H : Handler σ) (n : Nat) (st : σ) {u : List Nat} (hu : NoBrace u) (cs : List Nat) :
    parseLoop H (n + 1) st (u ++ 123 :: cs) =
      match H.onLiteral st u with
      | none => none
      | some st =>
        match parseField H st cs with
        | none => none
        | some (st, s) => if H.hasError st then some st else parseLoop H n st s := by
  have h := span_text hu (show isBrace 123 = true from rfl) cs
  rw [parseLoop, h.1, h.2]
  dsimp only
  rw [if_pos rfl]
  rfl

theorem parseLoop_close (H : Handler σ) (n : Nat) (st : σ) {u : List Nat} (hu : NoBrace u) (rest : List Nat) :
    parseLoop H (n + 1) st (u ++ 125 :: 125 :: rest) =
      match H.onLiteral st (u ++ [125]) with
      | none => none
      | some st => parseLoop H n st rest := by
  have h := span_text hu (show isBrace 125 = true from rfl) (125 :: rest)
  rw [parseLoop, h.1, h.2]
  dsimp only
  rw [if_neg (by decide)]
  rfl

theorem parseField_escape (H : Handler σ) (st : σ) (rest : List Nat) :
    parseField H st (123 :: rest) = (H.onLiteral st [123]).map fun st => (st, rest) := rfl

theorem escape_append (a b : List Nat) : escape (a ++ b) = escape a ++ escape b := by
  induction a with
  | nil => rfl
  | cons c a ih =>
    simp only [List.cons_append, escape]
    split <;> simp [ih]

theorem NoBrace.nil : NoBrace [] := by intro c hc; simp at hc

theorem NoBrace.snoc {u : List Nat} (hu : NoBrace u) {c : Nat} (hc : ¬ (c = 123 ∨ c = 125)) : NoBrace (u ++ [c]) := by
  intro x hx
  rcases List.mem_append.1 hx with hx | hx
  · exact hu x hx
  · simp at hx; subst hx
    simp [isBrace]; omega

/-- Escaped text in front of something else is consumed; what is left is brace-free text in front
    of that something. -/
theorem loop_escape {H : Handler σ} {P : σ → Prop} (hp : Preserved H P)
    (t : List Nat) :
    ∀ (n : Nat) (st : σ) (u rest : List Nat) (st' : σ), NoBrace u → P st →
      parseLoop H n st (u ++ (escape t ++ rest)) = some st' → H.hasError st' = false →
      ∃ n1 st1 u1, NoBrace u1 ∧ P st1 ∧ parseLoop H n1 st1 (u1 ++ rest) = some st' := by
  induction t with
  | nil => intro n st u rest st' hu hP h _; exact ⟨n, st, u, hu, hP, h⟩
  | cons c t ih =>
    intro n st u rest st' hu hP h he
    cases n with
    | zero => simp [parseLoop] at h
    | succ n =>
    simp only [escape] at h
    by_cases hb : c = 123 ∨ c = 125
    · rw [if_pos hb] at h
      rcases hb with rfl | rfl
      · rw [List.cons_append, parseLoop_open H n st hu] at h
        split at h
        · exact absurd h (by simp)
        · rename_i st1 h1
          rw [List.cons_append, parseField_escape] at h
          split at h
          · exact absurd h (by simp)
          · rename_i st2 s2 h2
            simp only [Option.map_eq_some_iff, Prod.mk.injEq] at h2
            obtain ⟨a, ha, rfl, rfl⟩ := h2
            split at h
            · rename_i hx
              simp only [Option.some.injEq] at h
              rw [h, he] at hx; cases hx
            · have := ih n a [] rest st' NoBrace.nil (hp.lit _ _ _ (hp.lit _ _ _ hP h1) ha)
              exact this h he
      · rw [List.cons_append, List.cons_append, parseLoop_close H n st hu] at h
        split at h
        · exact absurd h (by simp)
        · rename_i st1 h1
          exact ih n st1 [] rest st' NoBrace.nil (hp.lit _ _ _ hP h1) h he
    · rw [if_neg hb] at h
      have := ih (n + 1) st (u ++ [c]) rest st' (hu.snoc hb) hP
      rw [List.append_assoc] at this
      exact this h he

/-! ### Mixed argument ids at compile time -/

/-- The compile-time checker never accepts both kinds of ids. -/
def OneKind (c : CT) : Prop :=
  c.err = false → (c.autoUsed = true → c.nextId > 0) ∧ (c.manualUsed = true → c.nextId < 0)

theorem CT.setRead_cases (env : CTEnv) (c : CT) (id : Nat) :
    (c.setRead env id).err = true ∨ ∃ v, c.setRead env id = { c with visited := v } := by
  simp only [CT.setRead]
  split
  · exact Or.inl rfl
  · split
    · exact Or.inl rfl
    · exact Or.inr ⟨_, rfl⟩

theorem CT.canBeRead_cases (env : CTEnv) (c : CT) (ty : ArgTy) :
    (c.canBeRead env ty).err = true ∨ c.canBeRead env ty = c := by
  simp only [CT.canBeRead]
  split
  · exact Or.inl rfl
  · split
    · exact Or.inl rfl
    · exact Or.inr rfl

theorem CT.onField_cases (env : CTEnv) (c : CT) (id : Nat) :
    (c.onField env id).err = true ∨ ∃ v, c.onField env id = { c with visited := v } := by
  simp only [CT.onField]
  have h1 := CT.setRead_cases env c id
  generalize c.setRead env id = c1 at h1
  split
  · exact h1
  · split
    · exact Or.inl rfl
    · rename_i ty _ _
      rcases h1 with h1 | ⟨v, rfl⟩
      · left
        exact ct_sticky.ct_canBeRead_err env _ _ h1
      · rcases CT.canBeRead_cases env { c with visited := v } ty with h | h
        · exact Or.inl h
        · exact Or.inr ⟨v, h⟩

theorem CT.onSpecs_cases (env : CTEnv) (c : CT) (id : Nat) (pos : List Nat) {c' : CT} {p : List Nat}
    (h : c.onSpecs env id pos = some (c', p)) : c'.err = true ∨ ∃ v, c' = { c with visited := v } := by
  simp only [CT.onSpecs] at h
  have h1 := CT.setRead_cases env c id
  generalize c.setRead env id = c1 at h h1
  have h2 : ∀ ty, (c1.canBeRead env ty).err = true ∨ ∃ v, c1.canBeRead env ty = { c with visited := v } := by
    intro ty
    rcases h1 with h1 | ⟨v, rfl⟩
    · exact Or.inl (ct_sticky.ct_canBeRead_err env _ _ h1)
    · rcases CT.canBeRead_cases env { c with visited := v } ty with h | h
      · exact Or.inl h
      · exact Or.inr ⟨v, h⟩
  split at h
  · simp at h; rw [← h.1]; exact h1
  · rename_i ty _
    split at h
    · simp at h; rw [← h.1]; exact h2 ty
    · split at h
      · exact absurd h (by simp)
      · split at h
        · exact absurd h (by simp)
        · simp only [Option.some.injEq, Prod.mk.injEq] at h
          rw [← h.1]
          split
          · exact Or.inl rfl
          · exact h2 ty

theorem oneKind_preserved (env : CTEnv) : Preserved (compileHandler env) OneKind where
  lit c t c' h hl := by
    simp only [compileHandler, CT.onLiteral, Option.map_eq_some_iff] at hl
    obtain ⟨b, _, rfl⟩ := hl
    cases b
    · intro he; simp [CT.onError] at he
    · exact h
  auto c h := by
    simp only [compileHandler, CT.onAutoId]
    split
    · intro he; simp [CT.onError] at he
    · rename_i hn
      split
      · intro he; simp [CT.onError] at he
      · intro he
        refine ⟨fun _ => ?_, fun hm => ?_⟩
        · show c.nextId + 1 > 0
          have : ¬ c.nextId < 0 := hn
          omega
        · have := (h he).2 hm
          exact absurd this hn
  man c id h := by
    simp only [compileHandler, CT.onManualId]
    split
    · intro he; simp [CT.onError] at he
    · split
      · intro he; simp [CT.onError] at he
      · rename_i hn
        intro he
        refine ⟨fun ha => ?_, fun _ => by simp⟩
        exact absurd ((h he).1 ha) hn
  field c id pos c' h hf := by
    simp only [compileHandler, Option.some.injEq] at hf
    rcases CT.onField_cases env c id with he | ⟨v, hv⟩
    · intro he'; rw [← hf, he] at he'; cases he'
    · rw [← hf, hv]; exact h
  specs c id pos c' p h hf := by
    rcases CT.onSpecs_cases env c id pos hf with he | ⟨v, hv⟩
    · intro he'; rw [he] at he'; cases he'
    · rw [hv]; exact h
  err c _ := by intro he; simp [compileHandler, CT.onError] at he

/-- A recorded use of one kind stays recorded (or an error is). -/
theorem used_preserved (env : CTEnv) (a m : Bool) : Preserved (compileHandler env)
    (fun c => c.err = false → (a = true → c.autoUsed = true) ∧ (m = true → c.manualUsed = true)) where
  lit c t c' h hl := by
    simp only [compileHandler, CT.onLiteral, Option.map_eq_some_iff] at hl
    obtain ⟨b, _, rfl⟩ := hl
    cases b
    · intro he; simp [CT.onError] at he
    · exact h
  auto c h := by
    simp only [compileHandler, CT.onAutoId]
    split
    · intro he; simp [CT.onError] at he
    · split
      · intro he; simp [CT.onError] at he
      · intro he; exact ⟨fun _ => rfl, (h he).2⟩
  man c id h := by
    simp only [compileHandler, CT.onManualId]
    split
    · intro he; simp [CT.onError] at he
    · split
      · intro he; simp [CT.onError] at he
      · intro he; exact ⟨(h he).1, fun _ => rfl⟩
  field c id pos c' h hf := by
    simp only [compileHandler, Option.some.injEq] at hf
    rcases CT.onField_cases env c id with he | ⟨v, hv⟩
    · intro he'; rw [← hf, he] at he'; cases he'
    · rw [← hf, hv]; exact h
  specs c id pos c' p h hf := by
    rcases CT.onSpecs_cases env c id pos hf with he | ⟨v, hv⟩
    · intro he'; rw [he] at he'; cases he'
    · rw [hv]; exact h
  err c _ := by intro he; simp [compileHandler, CT.onError] at he

theorem autoId_used (env : CTEnv) (c : CT) : ((compileHandler env).onAutoId c).1.autoUsed = true := by
  simp only [compileHandler, CT.onAutoId]
  split
  · rfl
  · split <;> rfl

theorem manualId_used (env : CTEnv) (c : CT) (id : Nat) :
    ((compileHandler env).onManualId c id).1.manualUsed = true := by
  simp only [compileHandler, CT.onManualId]
  split
  · show CT.manualUsed (CT.onError _) = true
    split <;> rfl
  · split <;> rfl

/-- A field with a letter: the specification is consumed. -/
theorem onSpecs_letter {env : CTEnv} {c c' : CT} {id x : Nat} {rest p : List Nat}
    (hx : isAsciiLetter x = true) (hL : x ≠ 76)
    (h : c.onSpecs env id (x :: 125 :: rest) = some (c', p)) : p = 125 :: rest ∨ c'.err = true := by
  simp only [CT.onSpecs] at h
  split at h
  · rename_i hty
    right
    simp only [Option.some.injEq, Prod.mk.injEq] at h
    rw [← h.1]
    simp only [CT.setRead]
    rw [if_pos (by simpa using hty)]; rfl
  · rename_i ty _
    rw [if_neg (by simp)] at h
    split at h
    · exact absurd h (by simp)
    · rename_i setter q hps
      obtain ⟨st', hp⟩ := parseSpecs_letter env.cfg env.enc ty ⟨{}, false⟩ x rest hx hL
      rw [hp] at hps
      simp only [Option.some.injEq, Prod.mk.injEq] at hps
      split at h
      · exact absurd h (by simp)
      · simp only [Option.some.injEq, Prod.mk.injEq] at h
        left; rw [← h.2, hps.2]

/-- The units of a field after its opening brace. -/
def fieldTail (f : Field) : List Nat :=
  (match f.id with | none => [] | some n => numeral 10 n) ++
    ((match f.letter with | none => [] | some c => [58, c]) ++ [125])

theorem field_render (f : Field) : f.render = 123 :: fieldTail f := by
  simp only [Field.render, fieldTail, List.append_assoc, List.cons_append, List.nil_append]
  rfl

def GoodLetter (f : Field) : Prop := ∀ c, f.letter = some c → isAsciiLetter c = true ∧ c ≠ 76

/-- After the id: `}` or `:letter}`. -/
def afterId (f : Field) (rest : List Nat) : List Nat :=
  (match f.letter with | none => [] | some c => [58, c]) ++ 125 :: rest

theorem afterId_head (f : Field) (rest : List Nat) : ∃ d q, afterId f rest = d :: q ∧ (d = 125 ∨ d = 58) := by
  cases hl : f.letter with
  | none => exact ⟨125, rest, by simp [afterId, hl], Or.inl rfl⟩
  | some c => exact ⟨58, c :: 125 :: rest, by simp [afterId, hl], Or.inr rfl⟩

theorem fieldTail_append (f : Field) (rest : List Nat) : fieldTail f ++ rest =
    (match f.id with | none => [] | some n => numeral 10 n) ++ afterId f rest := by
  simp [fieldTail, afterId]

/-- The generic part of `parse_replacement_field` after the id. -/
def afterIdStep (H : Handler σ) (st : σ) (id : Nat) (p : List Nat) : Option (σ × List Nat) :=
  match p with
  | [] => some (H.onError st, [])
  | 125 :: rest => (H.onField st id p).map fun st => (st, rest)
  | [58] => some (H.onError st, p)
  | 58 :: q =>
    match H.onSpecs st id q with
    | none => none
    | some (st, p) =>
      match p with
      | 125 :: rest => some (st, rest)
      | p => some (H.onError st, p)
  | p => some (H.onError st, p)

theorem parseField_generic (H : Handler σ) (st : σ) (c : Nat) (cs : List Nat) (h1 : c ≠ 125) (h2 : c ≠ 123) :
    parseField H st (c :: cs) =
      match parseArgId H st (c :: cs) with
      | none => none
      | some (st, id, p) => afterIdStep H st id p := by
  unfold parseField
  split
  · rename_i h; cases h
  · rename_i h; simp only [List.cons.injEq] at h; exact absurd h.1 h1
  · rename_i h; simp only [List.cons.injEq] at h; exact absurd h.1 h2
  · rfl

/-- Parsing a rendered field: which id callback runs, and what follows. -/
theorem parseField_render (H : Handler σ) (st : σ) (f : Field) (rest : List Nat) :
    parseField H st (fieldTail f ++ rest) =
      match f.id with
      | none => afterIdStep H (H.onAutoId st).1 (H.onAutoId st).2 (afterId f rest)
      | some n =>
        match parseArgId H st (numeral 10 n ++ afterId f rest) with
        | none => none
        | some (st, id, p) => afterIdStep H st id p := by
  rw [fieldTail_append]
  cases hid : f.id with
  | none =>
    simp only [List.nil_append]
    cases hl : f.letter with
    | none => simp [afterId, hl, parseField, afterIdStep]
    | some c =>
      have ha : afterId f rest = 58 :: c :: 125 :: rest := by simp [afterId, hl]
      rw [ha, parseField_generic H st 58 _ (by decide) (by decide)]
      have : parseArgId H st (58 :: c :: 125 :: rest) =
          some ((H.onAutoId st).1, (H.onAutoId st).2, 58 :: c :: 125 :: rest) := by
        simp [parseArgId]
      rw [this]
  | some n =>
    simp only
    cases hx : numeral 10 n with
    | nil => exact absurd hx (numeral_ne_nil 10 n)
    | cons c cs =>
      have hdec := (isDec_iff c).2 ((numeral_isNumeral 10 n (by omega) (by omega)).2 c (by rw [hx]; simp))
      simp only [isDec, Bool.and_eq_true, decide_eq_true_eq] at hdec
      rw [List.cons_append, parseField_generic H st c _ (by omega) (by omega)]

theorem afterIdStep_compile {env : CTEnv} {c c' : CT} {id : Nat} {f : Field} {rest p : List Nat}
    (hf : GoodLetter f) (h : afterIdStep (compileHandler env) c id (afterId f rest) = some (c', p))
    (he : c'.err = false) : p = rest ∧ ∃ v, c' = { c with visited := v } := by
  cases hl : f.letter with
  | none =>
    have ha : afterId f rest = 125 :: rest := by simp [afterId, hl]
    rw [ha] at h
    simp only [afterIdStep, Option.map_eq_some_iff, Prod.mk.injEq] at h
    obtain ⟨a, h1, rfl, rfl⟩ := h
    simp only [compileHandler, Option.some.injEq] at h1
    refine ⟨rfl, ?_⟩
    rcases CT.onField_cases env c id with h2 | h2
    · rw [h1, he] at h2; cases h2
    · rw [h1] at h2; exact h2
  | some x =>
    have ha : afterId f rest = 58 :: x :: 125 :: rest := by simp [afterId, hl]
    rw [ha] at h
    simp only [afterIdStep] at h
    split at h
    · exact absurd h (by simp)
    · rename_i c1 q h1
      have h1' : c.onSpecs env id (x :: 125 :: rest) = some (c1, q) := h1
      obtain ⟨hx, hL⟩ := hf x hl
      have hcase := CT.onSpecs_cases env c id _ h1'
      split at h
      · rename_i r
        simp only [Option.some.injEq, Prod.mk.injEq] at h
        obtain ⟨rfl, rfl⟩ := h
        rcases onSpecs_letter hx hL h1' with h2 | h2
        · simp only [List.cons.injEq, true_and] at h2
          refine ⟨h2, ?_⟩
          rcases hcase with h3 | h3
          · rw [he] at h3; cases h3
          · exact h3
        · rw [he] at h2; cases h2
      · simp only [Option.some.injEq, Prod.mk.injEq] at h
        rw [← h.1] at he
        simp [compileHandler, CT.onError] at he

theorem parseField_compile {env : CTEnv} {c c' : CT} {f : Field} {rest p : List Nat} (hf : GoodLetter f)
    (h : parseField (compileHandler env) c (fieldTail f ++ rest) = some (c', p)) (he : c'.err = false) :
    p = rest ∧ (f.id = none → c'.autoUsed = true) ∧ (f.id ≠ none → c'.manualUsed = true) := by
  rw [parseField_render] at h
  cases hid : f.id with
  | none =>
    rw [hid] at h
    obtain ⟨h1, v, h2⟩ := afterIdStep_compile hf h he
    refine ⟨h1, fun _ => ?_, fun h => absurd rfl h⟩
    rw [h2]; exact autoId_used env c
  | some n =>
    rw [hid] at h
    simp only at h
    obtain ⟨d, q, hd, hd'⟩ := afterId_head f rest
    have hnum := parseArgId_numeral (compileHandler env) c n d q hd'
    rw [← hd] at hnum
    by_cases hn : n ≤ intMax
    · rw [hnum.1 hn] at h
      simp only at h
      obtain ⟨h1, v, h2⟩ := afterIdStep_compile hf h he
      refine ⟨h1, fun h => by simp at h, fun _ => ?_⟩
      rw [h2]; exact manualId_used env c n
    · obtain ⟨p', hp'⟩ := hnum.2 (by omega)
      rw [hp'] at h
      simp only at h
      exfalso
      have hst := ct_sticky env
      have h0 : ((compileHandler env).onError c).err = true := rfl
      generalize (compileHandler env).onError c = c0 at h h0
      have : c'.err = true := by
        unfold afterIdStep at h
        split at h
        · simp only [Option.some.injEq, Prod.mk.injEq] at h; rw [← h.1]; rfl
        · simp only [Option.map_eq_some_iff, Prod.mk.injEq] at h
          obtain ⟨a, h1, rfl, _⟩ := h
          exact hst.field _ _ _ _ h0 h1
        · simp only [Option.some.injEq, Prod.mk.injEq] at h; rw [← h.1]; rfl
        · split at h
          · exact absurd h (by simp)
          · rename_i c1 p1 h1
            have := hst.specs _ _ _ _ _ h0 h1
            split at h
            · simp only [Option.some.injEq, Prod.mk.injEq] at h; rw [← h.1]; exact this
            · simp only [Option.some.injEq, Prod.mk.injEq] at h; rw [← h.1]; rfl
        · simp only [Option.some.injEq, Prod.mk.injEq] at h; rw [← h.1]; rfl
      rw [he] at this; cases this

theorem renderFormat_cons (t : List Nat) (f : Field) (parts : List (List Nat × Field)) (tail : List Nat) :
    renderFormat ((t, f) :: parts) tail = escape t ++ (123 :: (fieldTail f ++ renderFormat parts tail)) := by
  simp [renderFormat, field_render]

/-- What the checker has recorded after accepting a rendered format string. -/
theorem compile_used {env : CTEnv} (parts : List (List Nat × Field)) (tail : List Nat)
    (hf : ∀ p ∈ parts, GoodLetter p.2) : ∀ (n : Nat) (c c' : CT),
      parseLoop (compileHandler env) n c (renderFormat parts tail) = some c' → c'.err = false →
      (∀ p ∈ parts, p.2.id = none → c'.autoUsed = true) ∧ (∀ p ∈ parts, p.2.id ≠ none → c'.manualUsed = true) := by
  induction parts with
  | nil => intro n c c' _ _; constructor <;> (intro p hp; simp at hp)
  | cons p parts ih =>
    intro n c c' h he
    obtain ⟨t, f⟩ := p
    rw [renderFormat_cons] at h
    obtain ⟨n1, c1, u, hu, -, h1⟩ := loop_escape (P := fun _ => True) ⟨by simp, by simp, by simp, by simp, by simp, by simp⟩
      t n c [] _ c' NoBrace.nil trivial h he
    cases n1 with
    | zero => simp [parseLoop] at h1
    | succ n1 =>
    rw [parseLoop_open _ _ _ hu] at h1
    split at h1
    · exact absurd h1 (by simp)
    · rename_i c2 h2
      split at h1
      · exact absurd h1 (by simp)
      · rename_i c3 s3 h3
        have hc3 : c3.err = false := by
          cases hx : c3.err
          · rfl
          · have hx' : (compileHandler env).hasError c3 = true := hx
            rw [hx'] at h1
            simp at h1
            rw [← h1, hx] at he; cases he
        obtain ⟨rfl, ha, hm⟩ := parseField_compile (hf (t, f) (by simp)) h3 hc3
        have hx' : (compileHandler env).hasError c3 = false := hc3
        rw [hx'] at h1
        simp only [Bool.false_eq_true, if_false] at h1
        obtain ⟨i1, i2⟩ := ih (fun p hp => hf p (by simp [hp])) n1 c3 c' h1 he
        have hkeep := parseLoop_inv (used_preserved env c3.autoUsed c3.manualUsed) _ _ _ _
          (fun _ => ⟨fun h => h, fun h => h⟩) h1 he
        constructor
        · intro p hp hid
          rcases List.mem_cons.1 hp with rfl | hp
          · exact hkeep.1 (ha hid)
          · exact i1 p hp hid
        · intro p hp hid
          rcases List.mem_cons.1 hp with rfl | hp
          · exact hkeep.2 (hm hid)
          · exact i2 p hp hid

end Scn
