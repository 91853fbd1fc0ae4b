import Verif.Spec.Calls
import Verif.Lemmas.Sequence
/-
A scan call with any fields does what `inOrder` says.
-/
namespace Scn
open Spec

variable {V : Type}

/-- The field is read as the driver reads it: by default, or as the specification says, whatever follows in the format
    string, or by a custom reader that consumes the specification. -/
def FieldMeans (env : Env V) (f : CallField V) : Prop :=
  match f.spec with
  | none => f.read = env.readDefault f.id
  | some t =>
    if env.argTy f.id = .custom then ∀ r s, env.readCustom f.id (t ++ 125 :: r) s = (125 :: r, f.read s)
    else ∃ sp, (∀ r, parseSpecs env.cfg env.enc (env.argTy f.id) ⟨{}, false⟩ (t ++ 125 :: r) = some (⟨sp, false⟩, 125 :: r)) ∧
      f.read = env.readSpecs f.id sp

/-- The state between fields: those for the arguments `seen` were read. There are `k` bytes for the arguments from 64 on. -/
structure Midway (auto : Bool) (k : Nat) (seen : List Nat) (st : FH V) : Prop where
  next : st.nextId = if auto then (seen.length : Int) else if seen = [] then 0 else -1
  lower : ∀ j, st.lower.testBit j = decide (j ∈ seen ∧ j < 64)
  upper : ∀ i b, st.upper[i]? = some b → ∀ j, b.testBit j = decide (64 + 8 * i + j ∈ seen ∧ j < 8)
  len : st.upper.length = k
  mixed : st.mixed = false

/-- The marks after an argument below 64. -/
def lowerAfter (st : FH V) (id : Nat) : Nat := if id < 64 then st.lower ||| 1 <<< id else st.lower

/-- The marks after an argument from 64 on. -/
def upperAfter (st : FH V) (id : Nat) : List Nat :=
  if id < 64 then st.upper
  else st.upper.set ((id - 64) / 8) (((st.upper[(id - 64) / 8]?).getD 0 ||| 1 <<< ((id - 64) % 8)) % 256)

theorem midway_visited {auto : Bool} {k : Nat} {seen : List Nat} {st : FH V} (hm : Midway auto k seen st) {id : Nat} (hk : id < 64 + 8 * k) :
    st.visited id = some (decide (id ∈ seen)) := by
  unfold FH.visited
  split
  · rename_i h; rw [hm.lower]; simp [h]
  · have hlt : (id - 64) / 8 < st.upper.length := by rw [hm.len]; omega
    rw [List.getElem?_eq_getElem hlt, Option.map_some, hm.upper _ _ (List.getElem?_eq_getElem hlt)]
    rw [show 64 + 8 * ((id - 64) / 8) + (id - 64) % 8 = id by omega]
    simp [Nat.mod_lt]

theorem enter_fresh {env : Env V} {auto : Bool} {k : Nat} {seen : List Nat} {st : FH V} {id : Nat} (hid : id < env.count) (hk : id < 64 + 8 * k)
    (hm : Midway auto k seen st) (h : id ∉ seen) (n : Int) (m : Bool) :
    ({ st with nextId := n, mixed := m } : FH V).enter env id = some { st with nextId := n, mixed := m, lower := lowerAfter st id, upper := upperAfter st id } := by
  unfold FH.enter
  rw [if_neg (by omega)]
  unfold FH.setVisited
  rw [if_neg (by omega)]
  have hv : ({ st with nextId := n, mixed := m } : FH V).visited id = some false := by
    have := midway_visited hm hk
    rw [decide_eq_false h] at this
    exact this
  rw [hv]
  dsimp only
  unfold lowerAfter upperAfter
  by_cases h64 : id < 64
  · simp [h64]
  · have hlt : (id - 64) / 8 < st.upper.length := by rw [hm.len]; omega
    simp only [h64, if_false, Bool.false_eq_true, List.getElem?_eq_getElem hlt, Option.getD_some]

/-- An argument without a byte of its own: the bookkeeping indexes past the end of the vector. -/
theorem enter_out {env : Env V} {auto : Bool} {k : Nat} {seen : List Nat} {st : FH V} {id : Nat} (hid : id < env.count) (hk : 64 + 8 * k ≤ id)
    (hm : Midway auto k seen st) (n : Int) (m : Bool) : ({ st with nextId := n, mixed := m } : FH V).enter env id = none := by
  unfold FH.enter
  rw [if_neg (by omega)]
  unfold FH.setVisited
  rw [if_neg (by omega)]
  have hlen := hm.len
  have hv : ({ st with nextId := n, mixed := m } : FH V).visited id = none := by
    unfold FH.visited
    rw [if_neg (by omega), List.getElem?_eq_none (by dsimp only; omega)]
    rfl
  rw [hv]

theorem midway_after {auto : Bool} {k : Nat} {seen : List Nat} {st : FH V} {id : Nat} (hk : id < 64 + 8 * k) (hm : Midway auto k seen st)
    (st' : FH V) (h1 : st'.lower = lowerAfter st id) (h2 : st'.upper = upperAfter st id)
    (h3 : st'.nextId = if auto then ((id :: seen).length : Int) else -1) (h4 : st'.mixed = false) : Midway auto k (id :: seen) st' := by
  refine ⟨?_, ?_, ?_, ?_, h4⟩
  · rw [h3]; cases auto <;> simp
  · intro j
    rw [h1]
    unfold lowerAfter
    split
    · rw [Nat.testBit_or, hm.lower, Nat.one_shiftLeft, Nat.testBit_two_pow]
      by_cases hj : j = id
      · subst hj; simp [*]
      · simp [hj, show ¬ id = j from fun h => hj h.symm]
    · rw [hm.lower]
      by_cases hj : j = id
      · subst hj; simp [*]
      · simp [hj]
  · intro i b hb j
    rw [h2] at hb
    unfold upperAfter at hb
    split at hb
    · rw [hm.upper i b hb]
      have : 64 + 8 * i + j ≠ id := by omega
      simp [this]
    · have hlt : (id - 64) / 8 < st.upper.length := by rw [hm.len]; omega
      rw [List.getElem?_set] at hb
      split at hb
      · rename_i hi
        rw [List.getElem?_eq_getElem hlt, Option.getD_some] at hb
        simp only [Option.some.injEq] at hb
        rw [← hb, show (256 : Nat) = 2 ^ 8 from rfl, Nat.testBit_mod_two_pow, Nat.testBit_or, Nat.one_shiftLeft, Nat.testBit_two_pow,
          hm.upper _ _ (List.getElem?_eq_getElem hlt), hi]
        by_cases hj : 64 + 8 * i + j = id
        · have : (id - 64) % 8 = j ∧ j < 8 ∨ ¬ j < 8 := by omega
          rcases this with ⟨h, h'⟩ | h
          · simp [hj, h, h']
          · simp [h]
        · have : ¬ ((id - 64) % 8 = j ∧ j < 8) := by omega
          by_cases h8 : j < 8
          · simp [hj, h8, show ¬ (id - 64) % 8 = j from fun h => this ⟨h, h8⟩]
          · simp [h8]
      · rename_i hi
        rw [hm.upper i b hb]
        by_cases h8 : j < 8
        · have : 64 + 8 * i + j ≠ id := by omega
          simp [this]
        · simp [h8]
  · rw [h2, ← hm.len]
    unfold upperAfter
    split <;> simp

theorem midway_same {auto : Bool} {k : Nat} {seen : List Nat} {st : FH V} (hm : Midway auto k seen st) (st' : FH V) (h1 : st'.lower = st.lower)
    (h2 : st'.upper = st.upper) (h3 : st'.nextId = st.nextId) (h4 : st'.mixed = st.mixed) : Midway auto k seen st' :=
  ⟨by rw [h3]; exact hm.next, by rw [h1]; exact hm.lower, by rw [h2]; exact hm.upper, by rw [h2]; exact hm.len, by rw [h4]; exact hm.mixed⟩

/-- The parser's counter and the argument after the field's number. -/
def idStep (auto : Bool) (st : FH V) (id : Nat) : Int × Nat :=
  if auto then nextArgId st.nextId else (checkArgId st.nextId, id)

/-- Whether both kinds of numbering were seen, after the field's number. -/
def mixedStep (auto : Bool) (st : FH V) : Bool :=
  st.mixed || (if auto then decide (st.nextId < 0) else decide (0 < st.nextId))

theorem midway_mixedStep {auto : Bool} {k : Nat} {seen : List Nat} {st : FH V} (hm : Midway auto k seen st) : mixedStep auto st = false := by
  unfold mixedStep
  rw [hm.mixed, hm.next]
  cases auto with
  | true => simp only [if_true, Bool.false_or, decide_eq_false_iff_not]; omega
  | false =>
    simp only [Bool.false_eq_true, if_false, Bool.false_or, decide_eq_false_iff_not]
    split <;> omega

/-- The end of a field with a specification. -/
def callClose {σ : Type} (H : Handler σ) (st : σ) (p : List Nat) : Option (σ × List Nat) :=
  match p with
  | 125 :: rest => some (st, rest)
  | p => some (H.onError st, p)

theorem parseField_call (env : Env V) (auto : Bool) (st : FH V) (f : CallField V) (hid : f.id ≤ intMax) (rest : List Nat) :
    parseField (runHandler env) st ((f.text auto).tail ++ rest) =
      (match f.spec with
        | none => (FH.onField env { st with nextId := (idStep auto st f.id).1, mixed := mixedStep auto st } (idStep auto st f.id).2).map fun st => (st, rest)
        | some t =>
          match FH.onSpecs env { st with nextId := (idStep auto st f.id).1, mixed := mixedStep auto st } (idStep auto st f.id).2 (t ++ 125 :: rest) with
          | none => none
          | some (st, p) =>
            match p with
            | 125 :: rest => some (st, rest)
            | p => some (st.onError .invalidFormatString, p)) := by
  have key : ∀ (st1 : FH V) (id : Nat), afterIdStep (runHandler env) st1 id ((match f.spec with | none => [] | some t => 58 :: t) ++ 125 :: rest) =
      (match f.spec with
        | none => (FH.onField env st1 id).map fun st => (st, rest)
        | some t =>
          match FH.onSpecs env st1 id (t ++ 125 :: rest) with
          | none => none
          | some (st, p) =>
            match p with
            | 125 :: rest => some (st, rest)
            | p => some (st.onError .invalidFormatString, p)) := by
    intro st1 id
    cases f.spec with
    | none => rfl
    | some t =>
      have h1 : afterIdStep (runHandler env) st1 id ((58 :: t) ++ 125 :: rest) =
          (match FH.onSpecs env st1 id (t ++ 125 :: rest) with
            | none => none
            | some (st, p) => callClose (runHandler env) st p) := by
        obtain ⟨x, xs, hx⟩ : ∃ x xs, t ++ 125 :: rest = x :: xs := by
          cases t with
          | nil => exact ⟨_, _, rfl⟩
          | cons y ys => exact ⟨_, _, rfl⟩
        rw [List.cons_append, hx]
        unfold afterIdStep
        simp only [runHandler]
        cases FH.onSpecs env st1 id (x :: xs) with
        | none => rfl
        | some r =>
          obtain ⟨st2, p⟩ := r
          dsimp only
          unfold callClose
          split <;> split <;> simp_all
      dsimp only
      rw [h1]
      cases FH.onSpecs env st1 id (t ++ 125 :: rest) with
      | none => rfl
      | some r =>
        obtain ⟨st2, p⟩ := r
        dsimp only
        unfold callClose
        split <;> rfl
  have htext : (f.text auto).tail ++ rest = (if auto then [] else numeral 10 f.id) ++ ((match f.spec with | none => [] | some t => 58 :: t) ++ 125 :: rest) := by
    unfold CallField.text
    cases f.spec <;> simp
  rw [htext]
  cases auto with
  | true =>
    simp only [if_true, List.nil_append, idStep]
    cases hs : f.spec with
    | none => rfl
    | some t =>
      have h := key { st with nextId := (nextArgId st.nextId).1, mixed := mixedStep true st } (nextArgId st.nextId).2
      rw [hs] at h
      dsimp only at h ⊢
      rw [← h, List.cons_append, parseField_generic _ _ _ _ (by decide) (by decide)]
      rfl
  | false =>
    simp only [Bool.false_eq_true, if_false, idStep]
    obtain ⟨c, cs, hc⟩ : ∃ c cs, numeral 10 f.id = c :: cs := by
      cases hx : numeral 10 f.id with
      | nil => exact absurd hx (numeral_ne_nil 10 f.id)
      | cons c cs => exact ⟨c, cs, rfl⟩
    have hdec : isDec c = true := (isDec_iff c).2 ((numeral_isNumeral 10 f.id (by omega) (by omega)).2 c (by rw [hc]; simp))
    simp only [isDec, Bool.and_eq_true, decide_eq_true_eq] at hdec
    have hp : ∃ d r, ((match f.spec with | none => [] | some t => 58 :: t) ++ 125 :: rest) = d :: r ∧ (d = 125 ∨ d = 58) := by
      cases f.spec with
      | none => exact ⟨_, _, rfl, Or.inl rfl⟩
      | some t => exact ⟨_, _, rfl, Or.inr rfl⟩
    obtain ⟨d, r, hdr, hd⟩ := hp
    have h := key { st with nextId := checkArgId st.nextId, mixed := mixedStep false st } f.id
    rw [hdr] at h ⊢
    rw [← h]
    have hn := (parseArgId_numeral (runHandler env) st f.id d r hd).1 hid
    rw [hc, List.cons_append] at hn ⊢
    rw [parseField_generic _ _ _ _ (by omega) (by omega), hn]
    rfl

/-- What a field does in a state without an error. -/
theorem callField_ok {env : Env V} {auto : Bool} {k : Nat} {seen : List Nat} {st : FH V} {f : CallField V} (hm : Midway auto k seen st) (he : st.err = none)
    (hf : FieldMeans env f) (hid : f.id < env.count) (h64 : f.id < 64 + 8 * k) (hmax : f.id ≤ intMax) (hfresh : f.id ∉ seen) (hauto : auto = true → f.id = seen.length) (rest : List Nat) :
    ∃ st1 : FH V, Midway auto k (f.id :: seen) st1 ∧ st1.err = none ∧ st1.src = st.src ∧ st1.events = st.events ∧
      parseField (runHandler env) st ((f.text auto).tail ++ rest) = (st1.onVisit f.id (f.read st.src)).map fun st => (st, rest) := by
  have hstep : idStep auto st f.id = ((if auto then ((f.id :: seen).length : Int) else -1), f.id) := by
    unfold idStep
    cases auto with
    | true =>
      simp only [if_true]
      have := hm.next
      simp only [if_true] at this
      rw [this, hauto rfl]
      unfold nextArgId
      rw [if_neg (by omega)]
      simp
    | false =>
      simp only [Bool.false_eq_true, if_false]
      have := hm.next
      simp only [Bool.false_eq_true, if_false] at this
      rw [this]
      unfold checkArgId
      split <;> rfl
  have hmid : ∀ (p : List Nat), Midway auto k (f.id :: seen) ({ st with nextId := (if auto then ((f.id :: seen).length : Int) else -1), mixed := false, fmtPos := p, lower := lowerAfter st f.id, upper := upperAfter st f.id } : FH V) := by
    intro p
    exact midway_after h64 hm _ rfl rfl rfl rfl
  rw [parseField_call env auto st f hmax, hstep, midway_mixedStep hm]
  dsimp only
  have henter := enter_fresh (env := env) hid h64 hm hfresh (if auto then ((f.id :: seen).length : Int) else -1) false
  have hvisit : ∀ (p : List Nat), ({ st with nextId := (if auto then ((f.id :: seen).length : Int) else -1), mixed := false, fmtPos := p, lower := lowerAfter st f.id, upper := upperAfter st f.id } : FH V).canVisit env f.id = true := by
    intro p; simp [FH.canVisit, he, hid]
  unfold FieldMeans at hf
  cases hs : f.spec with
  | none =>
    rw [hs] at hf
    dsimp only at hf ⊢
    refine ⟨_, hmid st.fmtPos, he, rfl, rfl, ?_⟩
    unfold FH.onField
    rw [henter]
    dsimp only
    rw [if_pos (hvisit st.fmtPos), hf]
  | some t =>
    rw [hs] at hf
    dsimp only at hf ⊢
    unfold FH.onSpecs
    rw [henter]
    dsimp only
    by_cases hcust : env.argTy f.id = .custom
    · rw [if_pos hcust] at hf
      rw [if_pos hcust, if_pos (hvisit (t ++ 125 :: rest)), show env.custom false f.id (t ++ 125 :: rest) st.src = env.readCustom f.id (t ++ 125 :: rest) st.src from rfl,
        hf rest st.src]
      refine ⟨_, hmid (125 :: rest), he, rfl, rfl, ?_⟩
      dsimp only
      cases f.read st.src <;> rfl
    · rw [if_neg hcust] at hf
      obtain ⟨sp, hp, hr⟩ := hf
      rw [if_neg hcust, hp rest]
      dsimp only
      rw [if_neg (by decide), if_pos (hvisit (125 :: rest))]
      refine ⟨_, hmid (125 :: rest), he, rfl, rfl, ?_⟩
      rw [hr]
      cases env.readSpecs f.id sp st.src <;> rfl

/-- What a field does after an error: it is not read. -/
theorem callField_failed {env : Env V} {auto : Bool} {k : Nat} {seen : List Nat} {st : FH V} {e : Err} {f : CallField V} (hm : Midway auto k seen st) (he : st.err = some e)
    (hf : FieldMeans env f) (hid : f.id < env.count) (h64 : f.id < 64 + 8 * k) (hmax : f.id ≤ intMax) (hfresh : f.id ∉ seen) (hauto : auto = true → f.id = seen.length) (rest : List Nat) :
    ∃ st1 p, parseField (runHandler env) st ((f.text auto).tail ++ rest) = some (st1, p) ∧ Midway auto k (f.id :: seen) st1 ∧
      (st1.err = some e ∨ st1.err = some .invalidFormatString) ∧ (env.argTy f.id ≠ .custom → st1.err = some e) ∧ st1.events = st.events := by
  have hstep : idStep auto st f.id = ((if auto then ((f.id :: seen).length : Int) else -1), f.id) := by
    unfold idStep
    cases auto with
    | true =>
      simp only [if_true]
      have := hm.next
      simp only [if_true] at this
      rw [this, hauto rfl]
      unfold nextArgId
      rw [if_neg (by omega)]
      simp
    | false =>
      simp only [Bool.false_eq_true, if_false]
      have := hm.next
      simp only [Bool.false_eq_true, if_false] at this
      rw [this]
      unfold checkArgId
      split <;> rfl
  have hmid : ∀ (p : List Nat) (x : Option Err), Midway auto k (f.id :: seen) ({ st with nextId := (if auto then ((f.id :: seen).length : Int) else -1), mixed := false, err := x, fmtPos := p, lower := lowerAfter st f.id, upper := upperAfter st f.id } : FH V) := by
    intro p x
    exact midway_after h64 hm _ rfl rfl rfl rfl
  rw [parseField_call env auto st f hmax, hstep, midway_mixedStep hm]
  dsimp only
  have henter := enter_fresh (env := env) hid h64 hm hfresh (if auto then ((f.id :: seen).length : Int) else -1) false
  have hvisit : ∀ (p : List Nat), ¬ ({ st with nextId := (if auto then ((f.id :: seen).length : Int) else -1), mixed := false, fmtPos := p, lower := lowerAfter st f.id, upper := upperAfter st f.id } : FH V).canVisit env f.id = true := by
    intro p; simp [FH.canVisit, he]
  unfold FieldMeans at hf
  cases hs : f.spec with
  | none =>
    dsimp only
    unfold FH.onField
    rw [henter]
    dsimp only
    rw [if_neg (hvisit st.fmtPos)]
    exact ⟨_, _, rfl, hmid st.fmtPos st.err, Or.inl he, fun _ => he, rfl⟩
  | some t =>
    rw [hs] at hf
    dsimp only at hf ⊢
    unfold FH.onSpecs
    rw [henter]
    dsimp only
    by_cases hcust : env.argTy f.id = .custom
    · rw [if_pos hcust, if_neg (hvisit (t ++ 125 :: rest))]
      dsimp only
      split
      · exact ⟨_, _, rfl, hmid _ st.err, Or.inl he, fun h => absurd hcust h, rfl⟩
      · exact ⟨_, _, rfl, hmid _ (some .invalidFormatString), Or.inr rfl, fun h => absurd hcust h, rfl⟩
    · rw [if_neg hcust] at hf
      obtain ⟨sp, hp, hr⟩ := hf
      rw [if_neg hcust, hp rest]
      dsimp only
      rw [if_neg (by decide), if_neg (hvisit (125 :: rest))]
      exact ⟨_, _, rfl, hmid _ st.err, Or.inl he, fun _ => he, rfl⟩

/-- The fields can be entered, one after the other, after those for the arguments `seen`. -/
def Ready (env : Env V) (auto : Bool) : List Nat → List (CallField V) → Prop
  | _, [] => True
  | seen, f :: fs => FieldMeans env f ∧ NoBrace f.gap ∧ f.id < env.count ∧ f.id ∉ seen ∧ (auto = true → f.id = seen.length) ∧
      Ready env auto (f.id :: seen) fs

theorem callFormat_cons (auto : Bool) (f : CallField V) (fs : List (CallField V)) (last : List Nat) :
    callFormat auto (f :: fs) last = f.gap ++ 123 :: ((f.text auto).tail ++ callFormat auto fs last) := by
  simp [callFormat, CallField.text]

theorem stored_append (a b : List (Event V)) : stored (a ++ b) = stored a ++ stored b := by simp [stored]

theorem calls_ok {env : Env V} {auto : Bool} {k : Nat} {last : List Nat} (hl : NoBrace last) (h64 : env.count ≤ 64 + 8 * k) (hmax : env.count ≤ intMax) (fs : List (CallField V)) :
    ∀ (n : Nat) (seen : List Nat) (st : FH V) (vs : List (Nat × V)) (r : List Nat), Ready env auto seen fs → Midway auto k seen st → st.err = none →
      fs.length < n → inOrder (litStep env) fs last st.src = .ok (vs, r) →
      ∃ st', parseLoop (runHandler env) n st (callFormat auto fs last) = some st' ∧ Midway auto k ((fs.map fun f => f.id).reverse ++ seen) st' ∧
        st'.err = none ∧ st'.src = r ∧ stored st'.events = stored st.events ++ vs := by
  induction fs with
  | nil =>
    intro n seen st vs r _ hm he hn h
    obtain ⟨n, rfl⟩ : ∃ k, n = k + 1 := ⟨n - 1, by simp at hn; omega⟩
    simp only [inOrder] at h
    show ∃ st', parseLoop (runHandler env) (n + 1) st last = some st' ∧ _
    rw [parseLoop_end _ _ _ hl]
    cases hlit : litStep env last st.src with
    | ub => rw [hlit] at h; cases h
    | err e => rw [hlit] at h; cases h
    | ok r' =>
      rw [hlit] at h; cases h
      exact ⟨_, onLiteral_ok hlit, midway_same hm _ rfl rfl rfl rfl, he, rfl, by simp [stored]⟩
  | cons f fs ih =>
    intro n seen st vs r hr hm he hn h
    obtain ⟨n, rfl⟩ : ∃ k, n = k + 1 := ⟨n - 1, by simp at hn; omega⟩
    simp only [List.length_cons] at hn
    obtain ⟨hf, hg, hid, hfresh, hauto, hr'⟩ := hr
    rw [callFormat_cons, parseLoop_open _ _ _ hg]
    simp only [inOrder] at h
    cases hlit : litStep env f.gap st.src with
    | ub => rw [hlit] at h; cases h
    | err e => rw [hlit] at h; cases h
    | ok s1 =>
      rw [hlit, Res.bind_ok] at h
      rw [show (runHandler env).onLiteral st f.gap = _ from onLiteral_ok hlit]
      dsimp only
      obtain ⟨st1, k1, k2, k3, k4, k5⟩ := callField_ok (st := { st with src := s1, events := st.events ++ [Event.literal f.gap st.src s1 none] })
        (midway_same hm _ rfl rfl rfl rfl) he hf hid (by omega) (by omega) hfresh hauto (callFormat auto fs last)
      rw [k5]
      dsimp only at k3 k4 ⊢
      cases hrd : f.read s1 with
      | ub => rw [hrd] at h; cases h
      | err e => rw [hrd] at h; cases h
      | ok a =>
        obtain ⟨v, s2⟩ := a
        rw [hrd, Res.bind_ok] at h
        dsimp only at h
        cases hrec : inOrder (litStep env) fs last s2 with
        | ub => rw [hrec] at h; cases h
        | err e => rw [hrec] at h; cases h
        | ok q =>
          rw [hrec] at h; cases h
          simp only [FH.onVisit, Option.map_some]
          rw [if_neg (by simp [runHandler, k2])]
          obtain ⟨st', h1, h2, h3, h4, h5⟩ := ih n (f.id :: seen) { st1 with src := s2, events := st1.events ++ [Event.visit f.id st1.src (.ok (v, s2))] }
            q.1 q.2 hr' (midway_same k1 _ rfl rfl rfl rfl) k2 (by omega) hrec
          refine ⟨st', h1, by simpa using h2, h3, h4, ?_⟩
          rw [h5, k4]
          simp [stored]

theorem calls_ub {env : Env V} {auto : Bool} {k : Nat} {last : List Nat} (hl : NoBrace last) (h64 : env.count ≤ 64 + 8 * k) (hmax : env.count ≤ intMax) (fs : List (CallField V)) :
    ∀ (n : Nat) (seen : List Nat) (st : FH V), Ready env auto seen fs → Midway auto k seen st → st.err = none →
      fs.length < n → inOrder (litStep env) fs last st.src = .ub →
      parseLoop (runHandler env) n st (callFormat auto fs last) = none := by
  induction fs with
  | nil =>
    intro n seen st _ hm he hn h
    obtain ⟨n, rfl⟩ : ∃ k, n = k + 1 := ⟨n - 1, by simp at hn; omega⟩
    simp only [inOrder] at h
    show parseLoop (runHandler env) (n + 1) st last = none
    rw [parseLoop_end _ _ _ hl]
    cases hlit : litStep env last st.src with
    | ub => exact onLiteral_ub hlit
    | err e => rw [hlit] at h; cases h
    | ok r' => rw [hlit] at h; cases h
  | cons f fs ih =>
    intro n seen st hr hm he hn h
    obtain ⟨n, rfl⟩ : ∃ k, n = k + 1 := ⟨n - 1, by simp at hn; omega⟩
    simp only [List.length_cons] at hn
    obtain ⟨hf, hg, hid, hfresh, hauto, hr'⟩ := hr
    rw [callFormat_cons, parseLoop_open _ _ _ hg]
    simp only [inOrder] at h
    cases hlit : litStep env f.gap st.src with
    | ub => rw [show (runHandler env).onLiteral st f.gap = _ from onLiteral_ub hlit]
    | err e => rw [hlit] at h; cases h
    | ok s1 =>
      rw [hlit, Res.bind_ok] at h
      rw [show (runHandler env).onLiteral st f.gap = _ from onLiteral_ok hlit]
      dsimp only
      obtain ⟨st1, k1, k2, k3, k4, k5⟩ := callField_ok (st := { st with src := s1, events := st.events ++ [Event.literal f.gap st.src s1 none] })
        (midway_same hm _ rfl rfl rfl rfl) he hf hid (by omega) (by omega) hfresh hauto (callFormat auto fs last)
      rw [k5]
      dsimp only at k3 k4 ⊢
      cases hrd : f.read s1 with
      | ub => simp [FH.onVisit]
      | err e => rw [hrd] at h; cases h
      | ok a =>
        obtain ⟨v, s2⟩ := a
        rw [hrd, Res.bind_ok] at h
        dsimp only at h
        cases hrec : inOrder (litStep env) fs last s2 with
        | ok q => rw [hrec] at h; cases h
        | err e => rw [hrec] at h; cases h
        | ub =>
          simp only [FH.onVisit, Option.map_some]
          rw [if_neg (by simp [runHandler, k2])]
          exact ih n (f.id :: seen) { st1 with src := s2, events := st1.events ++ [Event.visit f.id st1.src (.ok (v, s2))] }
            hr' (midway_same k1 _ rfl rfl rfl rfl) k2 (by omega) hrec

theorem calls_err {env : Env V} {auto : Bool} {k : Nat} {last : List Nat} (hl : NoBrace last) (h64 : env.count ≤ 64 + 8 * k) (hmax : env.count ≤ intMax) (fs : List (CallField V)) :
    ∀ (n : Nat) (seen : List Nat) (st : FH V) (e : Err), Ready env auto seen fs → Midway auto k seen st → st.err = none →
      fs.length < n → inOrder (litStep env) fs last st.src = .err e →
      ∃ st', parseLoop (runHandler env) n st (callFormat auto fs last) = some st' ∧
        Midway auto k (((fs.take (reached (litStep env) fs st.src)).map fun f => f.id).reverse ++ seen) st' ∧
        (st'.err = some e ∨ st'.err = some .invalidFormatString) ∧ ((∀ f ∈ fs, env.argTy f.id ≠ .custom) → st'.err = some e) ∧
        stored st'.events = stored st.events ++ readBefore (litStep env) fs st.src := by
  induction fs with
  | nil =>
    intro n seen st e _ hm he hn h
    obtain ⟨n, rfl⟩ : ∃ k, n = k + 1 := ⟨n - 1, by simp at hn; omega⟩
    simp only [inOrder] at h
    show ∃ st', parseLoop (runHandler env) (n + 1) st last = some st' ∧ _
    rw [parseLoop_end _ _ _ hl]
    cases hlit : litStep env last st.src with
    | ub => rw [hlit] at h; cases h
    | ok r' => rw [hlit] at h; cases h
    | err e' =>
      rw [hlit] at h; cases h
      obtain ⟨r, hr⟩ := onLiteral_err hlit
      exact ⟨_, hr, midway_same hm _ rfl rfl rfl rfl, Or.inl rfl, fun _ => rfl, by simp [stored, readBefore]⟩
  | cons f fs ih =>
    intro n seen st e hr hm he hn h
    obtain ⟨n, rfl⟩ : ∃ k, n = k + 1 := ⟨n - 1, by simp at hn; omega⟩
    simp only [List.length_cons] at hn
    obtain ⟨hf, hg, hid, hfresh, hauto, hr'⟩ := hr
    rw [callFormat_cons, parseLoop_open _ _ _ hg]
    simp only [inOrder] at h
    cases hlit : litStep env f.gap st.src with
    | ub => rw [hlit] at h; cases h
    | err e' =>
      rw [hlit] at h; cases h
      obtain ⟨r, hr⟩ := onLiteral_err hlit
      rw [show (runHandler env).onLiteral st f.gap = _ from hr]
      dsimp only
      obtain ⟨st1, p, k1, k2, k3, k4, k5⟩ := callField_failed (e := e) (st := { st with src := r, events := st.events ++ [Event.literal f.gap st.src r (some e)], err := some e })
        (midway_same hm _ rfl rfl rfl rfl) rfl hf hid (by omega) (by omega) hfresh hauto (callFormat auto fs last)
      rw [k1]
      dsimp only
      rw [if_pos (by rcases k3 with k3 | k3 <;> simp [runHandler, k3])]
      have hrch : reached (litStep env) (f :: fs) st.src = 1 := by simp [reached, hlit, Res.bind]
      have hbef : readBefore (litStep env) (f :: fs) st.src = [] := by simp [readBefore, hlit, Res.bind]
      rw [hrch, hbef]
      refine ⟨_, rfl, by simpa using k2, k3, fun hc => k4 (hc f (by simp)), ?_⟩
      rw [k5]
      simp [stored]
    | ok s1 =>
      rw [hlit, Res.bind_ok] at h
      rw [show (runHandler env).onLiteral st f.gap = _ from onLiteral_ok hlit]
      dsimp only
      obtain ⟨st1, k1, k2, k3, k4, k5⟩ := callField_ok (st := { st with src := s1, events := st.events ++ [Event.literal f.gap st.src s1 none] })
        (midway_same hm _ rfl rfl rfl rfl) he hf hid (by omega) (by omega) hfresh hauto (callFormat auto fs last)
      rw [k5]
      dsimp only at k3 k4 ⊢
      cases hrd : f.read s1 with
      | ub => rw [hrd] at h; cases h
      | err e' =>
        rw [hrd] at h; cases h
        simp only [FH.onVisit, Option.map_some]
        rw [if_pos (by simp [runHandler, FH.onError])]
        have hrch : reached (litStep env) (f :: fs) st.src = 1 := by simp [reached, hlit, hrd, Res.bind]
        have hbef : readBefore (litStep env) (f :: fs) st.src = [] := by simp [readBefore, hlit, hrd, Res.bind]
        rw [hrch, hbef]
        refine ⟨_, rfl, (midway_same k1 _ rfl rfl rfl rfl), Or.inl rfl, fun _ => rfl, ?_⟩
        simp [stored, FH.onError, k4]
      | ok a =>
        obtain ⟨v, s2⟩ := a
        rw [hrd, Res.bind_ok] at h
        dsimp only at h
        cases hrec : inOrder (litStep env) fs last s2 with
        | ub => rw [hrec] at h; cases h
        | ok q => rw [hrec] at h; cases h
        | err e' =>
          rw [hrec] at h; cases h
          simp only [FH.onVisit, Option.map_some]
          rw [if_neg (by simp [runHandler, k2])]
          have hrch : reached (litStep env) (f :: fs) st.src = reached (litStep env) fs s2 + 1 := by simp [reached, hlit, hrd, Res.bind]
          have hbef : readBefore (litStep env) (f :: fs) st.src = (f.id, v) :: readBefore (litStep env) fs s2 := by simp [readBefore, hlit, hrd, Res.bind]
          obtain ⟨st', h1, h2, h3, h4, h5⟩ := ih n (f.id :: seen) { st1 with src := s2, events := st1.events ++ [Event.visit f.id st1.src (.ok (v, s2))] }
            e hr' (midway_same k1 _ rfl rfl rfl rfl) k2 (by omega) hrec
          refine ⟨st', h1, by rw [hrch]; simpa using h2, h3, fun hc => h4 fun g hg => hc g (by simp [hg]), ?_⟩
          rw [h5, k4, hbef]
          simp [stored]

theorem reached_le (lit : List Nat → List Nat → Res (List Nat)) (fs : List (CallField V)) : ∀ s, reached lit fs s ≤ fs.length := by
  induction fs with
  | nil => intro s; exact Nat.le_refl _
  | cons f fs ih =>
    intro s
    unfold reached
    split
    · rename_i r _
      have := ih r.2
      simp only [List.length_cons]; omega
    · simp

/-- All the arguments are visited exactly when as many were seen as there are. -/
theorem checkExhausted_midway {count : Nat} {auto : Bool} {k : Nat} {seen : List Nat} {st : FH V} (h64 : count < 64) (hm : Midway auto k seen st)
    (hnd : seen.Nodup) (hb : ∀ i ∈ seen, i < count) :
    st.checkExhausted count = some (if seen.length = count then st else st.onError .invalidFormatString) := by
  have hmask : (st.lower = 1 <<< count - 1) ↔ seen.length = count := by
    constructor
    · intro h
      have hsub : List.range count ⊆ seen := by
        intro j hj
        have h1 := hm.lower j
        rw [h, Nat.one_shiftLeft, Nat.testBit_two_pow_sub_one, decide_eq_true (List.mem_range.1 hj)] at h1
        exact (by simpa using h1.symm : j ∈ seen ∧ j < 64).1
      have h1 := List.Nodup.length_le_of_subset List.nodup_range hsub
      have h2 := List.Nodup.length_le_of_subset hnd (fun i hi => List.mem_range.2 (hb i hi))
      simp only [List.length_range] at h1 h2
      omega
    · intro h
      apply Nat.eq_of_testBit_eq
      intro j
      rw [hm.lower, Nat.one_shiftLeft, Nat.testBit_two_pow_sub_one]
      congr 1
      refine propext ⟨fun h => hb j h.1, fun hj => ?_⟩
      by_cases hin : j ∈ seen
      · exact ⟨hin, by omega⟩
      · exfalso
        have h1 := List.Nodup.length_le_of_subset (List.nodup_cons.2 ⟨hin, hnd⟩) (l₂ := List.range count) (by
          intro i hi
          rcases List.mem_cons.1 hi with rfl | hi
          · exact List.mem_range.2 hj
          · exact List.mem_range.2 (hb i hi))
        simp only [List.length_range, List.length_cons] at h1
        omega
  unfold FH.checkExhausted
  dsimp only
  rw [if_neg (show ¬ count ≥ 64 by omega)]
  by_cases h : seen.length = count
  · rw [if_neg (fun hx => hx (hmask.2 h)), if_pos h64, if_pos h]
  · rw [if_pos (fun hx => h (hmask.1 hx)), if_neg h]

theorem nodup_rev {l : List Nat} (h : l.Nodup) : l.reverse.Nodup :=
  List.pairwise_reverse.2 (h.imp fun h => h.symm)

theorem ready_of {env : Env V} {auto : Bool} (fs : List (CallField V)) : ∀ (seen : List Nat),
    (∀ f ∈ fs, FieldMeans env f ∧ NoBrace f.gap) → (seen.reverse ++ fs.map fun f => f.id).Nodup → (∀ f ∈ fs, f.id < env.count) →
    (auto = true → fs.map (fun f => f.id) = List.range' seen.length fs.length) → Ready env auto seen fs := by
  induction fs with
  | nil => intros; exact trivial
  | cons f fs ih =>
    intro seen h1 h2 h3 h4
    have h5 := (h1 f (by simp))
    refine ⟨h5.1, h5.2, h3 f (by simp), ?_, ?_, ?_⟩
    · intro hin
      have := (List.nodup_append.1 h2).2.2 f.id (by simpa using hin) f.id (by simp)
      exact this rfl
    · intro ha
      have := h4 ha
      simp [List.range'_succ] at this
      exact this.1
    · refine ih (f.id :: seen) (fun g hg => h1 g (by simp [hg])) (by simpa using h2) (fun g hg => h3 g (by simp [hg])) ?_
      intro ha
      have := h4 ha
      simp [List.range'_succ] at this
      simpa using this.2

theorem ready_numbered {env : Env V} {auto : Bool} {fs : List (CallField V)} (h1 : ∀ f ∈ fs, FieldMeans env f ∧ NoBrace f.gap)
    (h2 : Numbered auto (fs.map fun f => f.id) env.count) : Ready env auto [] fs := by
  refine ready_of fs [] h1 (by simpa using h2.nodup) (fun f hf => h2.below _ (List.mem_map.2 ⟨f, hf, rfl⟩)) fun ha => ?_
  have h3 := h2.ordered ha
  have h4 := h2.all
  simp only [List.length_map] at h4
  rw [h3, List.range_eq_range', h4]
  rfl

theorem callFormat_length (auto : Bool) (fs : List (CallField V)) (last : List Nat) : fs.length ≤ (callFormat auto fs last).length := by
  induction fs with
  | nil => simp
  | cons f fs ih => rw [callFormat_cons]; simp only [List.length_append, List.length_cons]; omega

theorem calls_fuel (auto : Bool) (fs : List (CallField V)) (last : List Nat) (count : Nat) : fs.length < parseFuel count (callFormat auto fs last) := by
  have := callFormat_length auto fs last
  unfold parseFuel
  calc fs.length < 1 * ((callFormat auto fs last).length + 2) := by omega
    _ ≤ _ := Nat.mul_le_mul_right _ (by omega)

theorem midway_init (auto : Bool) (count : Nat) (fmt src : List Nat) : Midway auto ((count - 64) / 8) [] (FH.init (V := V) count fmt src) := by
  refine ⟨by cases auto <;> simp [FH.init], fun j => by simp [FH.init], ?_, ?_, rfl⟩
  · intro i b hb j
    have : b = 0 := by
      unfold FH.init at hb
      dsimp only at hb
      split at hb
      · rw [List.getElem?_replicate] at hb
        split at hb
        · simpa using hb.symm
        · cases hb
      · simp at hb
    simp [this]
  · unfold FH.init
    dsimp only
    split
    · simp
    · simp; omega

theorem calls_general_ok {env : Env V} {auto : Bool} {fs : List (CallField V)} {last : List Nat} (hl : NoBrace last) (h64 : env.count < 64)
    (h1 : ∀ f ∈ fs, FieldMeans env f ∧ NoBrace f.gap) (h2 : Numbered auto (fs.map fun f => f.id) env.count) {src : List Nat} {vs : List (Nat × V)} {r : List Nat}
    (h : inOrder (litStep env) fs last src = .ok (vs, r)) :
    ∃ st, vscanGeneral env (callFormat auto fs last) src = some st ∧ st.err = none ∧ st.src = r ∧ stored st.events = vs := by
  obtain ⟨st, k1, k2, k3, k4, k5⟩ := calls_ok hl (by omega) (by unfold intMax; omega) fs _ [] (FH.init env.count (callFormat auto fs last) src) vs r (ready_numbered h1 h2)
    (midway_init _ _ _ _) rfl (calls_fuel auto fs last env.count) h
  refine ⟨st, ?_, k3, k4, by rw [k5]; simp [FH.init, stored]⟩
  unfold vscanGeneral
  rw [k1]
  dsimp only
  rw [checkExhausted_midway h64 k2 (by simpa using nodup_rev h2.nodup) (by simpa using h2.below), if_pos]
  have := h2.all
  simpa using this

theorem calls_general_err {env : Env V} {auto : Bool} {fs : List (CallField V)} {last : List Nat} (hl : NoBrace last) (h64 : env.count < 64)
    (h1 : ∀ f ∈ fs, FieldMeans env f ∧ NoBrace f.gap) (h2 : Numbered auto (fs.map fun f => f.id) env.count) {src : List Nat} {e : Err}
    (h : inOrder (litStep env) fs last src = .err e) :
    ∃ st e', vscanGeneral env (callFormat auto fs last) src = some st ∧ st.err = some e' ∧
      (e' = e ∨ e' = .invalidFormatString) ∧ ((∀ f ∈ fs, env.argTy f.id ≠ .custom) → reached (litStep env) fs src = fs.length → e' = e) ∧
      (reached (litStep env) fs src < fs.length → e' = .invalidFormatString) ∧
      stored st.events = readBefore (litStep env) fs src := by
  obtain ⟨st, k1, k2, k3, k4, k5⟩ := calls_err hl (by omega) (by unfold intMax; omega) fs _ [] (FH.init env.count (callFormat auto fs last) src) e (ready_numbered h1 h2)
    (midway_init _ _ _ _) rfl (calls_fuel auto fs last env.count) h
  have hsub : List.Sublist ((fs.take (reached (litStep env) fs src)).map fun f => f.id) (fs.map fun f => f.id) := (List.take_sublist _ _).map _
  have hex := checkExhausted_midway h64 k2 (by simpa [FH.init] using nodup_rev (h2.nodup.sublist hsub))
    (by intro i hi; exact h2.below i (hsub.subset (by simpa [FH.init] using hi)))
  have hall := h2.all
  have hle := reached_le (litStep env) fs src
  simp only [List.length_append, List.length_reverse, List.length_map, List.length_take, List.length_nil, FH.init, Nat.add_zero] at hex hall
  rw [Nat.min_eq_left hle] at hex
  have hev : stored st.events = readBefore (litStep env) fs src := by rw [k5]; simp [FH.init, stored]
  unfold vscanGeneral
  simp only [FH.init] at k1 ⊢
  rw [k1]
  dsimp only
  rw [hex]
  by_cases hc : reached (litStep env) fs src = env.count
  · rw [if_pos hc]
    obtain ⟨e', he'⟩ : ∃ e', st.err = some e' := by rcases k3 with k3 | k3 <;> exact ⟨_, k3⟩
    refine ⟨st, e', rfl, he', ?_, fun hn _ => ?_, fun hlt => by omega, hev⟩
    · rcases k3 with k3 | k3 <;> rw [he'] at k3 <;> cases k3 <;> simp
    · have := k4 hn; rw [he'] at this; cases this; rfl
  · rw [if_neg hc]
    exact ⟨_, _, rfl, rfl, Or.inr rfl, fun _ hr => absurd (hr.trans hall) hc, fun _ => rfl, hev⟩

theorem calls_general_ub {env : Env V} {auto : Bool} {fs : List (CallField V)} {last : List Nat} (hl : NoBrace last) (h64 : env.count < 64)
    (h1 : ∀ f ∈ fs, FieldMeans env f ∧ NoBrace f.gap) (h2 : Numbered auto (fs.map fun f => f.id) env.count) {src : List Nat}
    (h : inOrder (litStep env) fs last src = .ub) : vscanGeneral env (callFormat auto fs last) src = none := by
  have := calls_ub hl (by omega) (by unfold intMax; omega) fs _ [] (FH.init env.count (callFormat auto fs last) src) (ready_numbered h1 h2)
    (midway_init _ _ _ _) rfl (calls_fuel auto fs last env.count) h
  unfold vscanGeneral
  rw [this]

/-- The format string is `{}` only with one automatic default field and no text. -/
theorem callFormat_braces {auto : Bool} {fs : List (CallField V)} {last : List Nat} (hg : ∀ f ∈ fs, NoBrace f.gap) (hl : NoBrace last)
    (h : callFormat auto fs last = [123, 125]) : ∃ f, fs = [f] ∧ f.gap = [] ∧ f.spec = none ∧ last = [] := by
  cases fs with
  | nil =>
    exfalso
    have : last = [123, 125] := by simpa [callFormat] using h
    have := hl 123 (by rw [this]; simp)
    simp [isBrace] at this
  | cons f fs =>
    rw [callFormat_cons] at h
    have hg0 : f.gap = [] := by
      cases hgap : f.gap with
      | nil => rfl
      | cons c cs =>
        exfalso
        rw [hgap] at h
        simp only [List.cons_append, List.cons.injEq] at h
        have := hg f (by simp) c (by rw [hgap]; simp)
        rw [h.1] at this
        simp [isBrace] at this
    rw [hg0] at h
    simp only [List.nil_append, List.cons.injEq, true_and] at h
    have hlen : (callFormat auto fs last).length ≤ 0 := by
      have := congrArg List.length h
      unfold CallField.text at this
      cases f.spec <;> simp at this <;> omega
    have hfs := callFormat_length auto fs last
    have h0 : fs = [] := List.length_eq_zero_iff.1 (by omega)
    subst h0
    refine ⟨f, rfl, hg0, ?_, ?_⟩
    · cases hs : f.spec with
      | none => rfl
      | some t =>
        exfalso
        have := congrArg List.length h
        unfold CallField.text at this
        rw [hs] at this
        simp at this
        omega
    · simpa [callFormat] using hlen

end Scn
