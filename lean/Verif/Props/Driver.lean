import Verif.Lemmas.Advance
import Verif.Lemmas.Many
/-
C19-C23, C34, C42: one scan call, `vscan`, with arbitrary argument readers.

The vocabulary (`visits`, `writes`, `failure`, `QuietAfterFailure`, `Leads`) is in
`Verif/Spec/VScan.lean`: it speaks about the history of the call, not about the bookkeeping of
the driver.  The examples use `intArgs`: `int` arguments read by the modelled integer reader.
-/
namespace Scn
open Spec
variable {V : Type}

/-! ### C19 -/

/-- C19: no argument's reader runs twice and no argument is written twice, whatever the format
    string (well-formed or not), the source, the readers and the number of arguments. -/
theorem C19_at_most_once {env : Env V} {fmt src : List Nat} {res : Except Err (List Nat)}
    {evs : List (Event V)} (h : vscan env fmt src = some (res, evs)) :
    (visits evs).Nodup ∧ (writes evs).Nodup := by
  have key : (visits evs).Nodup := by
    rcases vscan_cases h with ⟨_, _, h3 | h3⟩ | ⟨st, h1, rfl, _⟩
    · obtain ⟨e, _, _, rfl⟩ := h3; simp [visits, visitOf]
    · obtain ⟨v, r, _, _, rfl⟩ := h3; simp [visits, visitOf]
    · exact general_nodup h1
  exact ⟨key, key.sublist (writes_sublist evs)⟩

/-- "{1}x{0}" on "12x34": both arguments, each once, out of order. -/
example : outcome (vscan (intArgs [.int, .int]) [123, 49, 125, 120, 123, 48, 125] [49, 50, 120, 51, 52]) =
    some (.inr [], [(1, 12), (0, 34)]) := by decide +kernel
/-- 72 fields, the last for an argument that was read: 72 arguments, 71 of them are read, the last field is refused. -/
example : (outcome (vscan (intArgs (List.replicate 72 .int)) ((List.replicate 71 [123, 125]).flatten ++ [123, 54, 57, 125])
    ((List.replicate 72 [49, 32]).flatten))).map (fun r => (r.1, r.2.length)) = some (.inl .invalidFormatString, 71) := by
  decide +kernel
/-- "{0}{0}": the second visit is refused. -/
example : outcome (vscan (intArgs [.int]) [123, 48, 125, 123, 48, 125] [49, 32, 50]) =
    some (.inl .invalidFormatString, [(0, 1)]) := by decide +kernel

/-- C19, success: for every format string that the compile-time check accepts, a successful call
    has written every argument exactly once. Missing from the full claim: format strings that are
    only checked at run time (see `C19_argument_skipped`). -/
theorem C19_success_writes_all_partial {cenv : CTEnv} {env : Env V} (hs : SameCall cenv env) (hc : env.count < 64)
    {fmt src rest : List Nat} {c : CT} {evs : List (Event V)} (hacc : compileCheck cenv fmt = some c)
    (hok : c.err = false) (h : vscan env fmt src = some (.ok rest, evs)) :
    ∀ i, i < env.count → (writes evs).count i = 1 := by
  have hnd := (C19_at_most_once h).2
  intro i hi
  have hmem : i ∈ writes evs := by
    rcases vscan_ok_cases h with ⟨_, h1, v, _, rfl⟩ | ⟨st, h1, rfl, h2, _⟩
    · have : i = 0 := by omega
      subst this; simp [writes, writeOf]
    · rw [writes_eq_visits _ ((general_quiet h1).2 h2) (general_noUb h1)]
      exact accepted_all_visited hs hc hacc hok h1 h2 i hi
  have h1 := List.nodup_iff_count.1 hnd i
  have h2 := List.count_pos_iff.2 hmem
  omega

/-- "{:d} {:x}" is accepted at compile time and reads both arguments. -/
example : (compileCheck (intCheck [.int, .int]) [123, 58, 100, 125, 32, 123, 58, 120, 125]).map CT.err = some false ∧
    outcome (vscan (intArgs [.int, .int]) [123, 58, 100, 125, 32, 123, 58, 120, 125] [49, 48, 32, 49, 48]) =
      some (.inr [], [(0, 10), (1, 16)]) := by decide +kernel

/-- C19 is violated for run-time format strings: "{:d} {:L}" on "1 2" with arguments
    `int, std::string, int` succeeds although argument 1 never receives a value. The
    specification error of the second field is dropped and the parser is sent back to the end of
    the first field. -/
theorem C19_argument_skipped : ¬ ∀ (env : Env Int) (fmt src rest : List Nat) (evs : List (Event Int)),
    env.count < 64 → vscan env fmt src = some (.ok rest, evs) → ∀ i, i < env.count → i ∈ writes evs := by
  intro H
  have h : outcome (vscan (intArgs [.int, .narrowString, .int])
      [123, 58, 100, 125, 32, 123, 58, 76, 125] [49, 32, 50]) = some (.inr [], [(0, 1), (2, 2)]) := by decide +kernel
  obtain ⟨evs, h1, h2⟩ := outcome_ok h
  have := H _ _ _ _ _ (by decide) h1 1 (by decide)
  rw [h2] at this
  exact absurd this (by decide)

example : outcome (vscan (intArgs [.int, .narrowString, .int])
    [123, 58, 100, 125, 32, 123, 58, 76, 125] [49, 32, 50]) = some (.inr [], [(0, 1), (2, 2)]) := by decide +kernel

/-! ### C20 -/

/-- C20: after a failed literal or a failed reader no reader runs, and the call reports an
    error. Any number of arguments, any format string, source and readers. -/
theorem C20_no_write_after_failure {env : Env V} {fmt src : List Nat} {res : Except Err (List Nat)}
    {evs : List (Event V)} (h : vscan env fmt src = some (res, evs)) :
    QuietAfterFailure evs ∧ ((∃ ev ∈ evs, failure ev ≠ none) → ∃ e, res = .error e) := by
  rcases vscan_cases h with ⟨_, _, h3 | h3⟩ | ⟨st, h1, rfl, h3⟩
  · obtain ⟨e, _, rfl, rfl⟩ := h3
    exact ⟨List.pairwise_singleton _ _, fun _ => ⟨e, rfl⟩⟩
  · obtain ⟨v, r, _, rfl, rfl⟩ := h3
    refine ⟨List.pairwise_singleton _ _, ?_⟩
    rintro ⟨ev, hev, hf⟩
    simp at hev; rw [hev] at hf; exact absurd rfl hf
  · obtain ⟨q1, q2⟩ := general_quiet h1
    refine ⟨q1, ?_⟩
    rintro ⟨ev, hev, hf⟩
    cases he : st.err with
    | none => exact absurd (q2 he ev hev) hf
    | some e => exact ⟨e, by rw [h3, he]⟩

/-- "{}-{}" on "1+2": the literal fails and the second argument is not touched. -/
example : outcome (vscan (intArgs [.int, .int]) [123, 125, 45, 123, 125] [49, 43, 50]) =
    some (.inl .invalidLiteral, [(0, 1)]) := by decide +kernel

/-! ### C21 -/

/-- C21 is violated: "{} {}" on "abc 1" fails because the first field is not a number, but the
    reported error is `invalid_format_string`. -/
theorem C21_error_masked : ¬ ∀ (env : Env Int) (fmt src : List Nat) (e : Err) (evs : List (Event Int)),
    env.count < 64 → vscan env fmt src = some (.error e, evs) → (∃ ev ∈ evs, failure ev ≠ none) →
      ∃ ev ∈ evs, failure ev = some e := by
  intro H
  have h : vscan (intArgs [.int, .int]) [123, 125, 32, 123, 125] [97, 98, 99, 32, 49] =
      some (.error .invalidFormatString, [.literal [] [97, 98, 99, 32, 49] [97, 98, 99, 32, 49] none,
        .visit 0 [97, 98, 99, 32, 49] (.err .invalidScannedValue)]) := rfl
  obtain ⟨ev, hev, hf⟩ := H _ _ _ _ _ (by decide) h
    ⟨_, List.mem_cons_of_mem _ (List.mem_cons_self), by simp [Spec.failure]⟩
  simp at hev
  rcases hev with rfl | rfl <;> simp [Spec.failure] at hf

/-- C21, what holds for every format string: the reported error is the code of a literal or field
    that failed, or `invalid_format_string`. -/
theorem C21_error_cause_partial {env : Env V} (hc : env.count < 64) {fmt src : List Nat} {e : Err}
    {evs : List (Event V)} (h : vscan env fmt src = some (.error e, evs)) :
    e = .invalidFormatString ∨ ∃ ev ∈ evs, failure ev = some e := by
  rcases vscan_error_cases h with ⟨_, _, _, rfl⟩ | ⟨st, h1, rfl, h2⟩
  · exact Or.inr ⟨_, List.mem_cons_self, rfl⟩
  · exact general_caused hc h1 e h2

example : outcome (vscan (intArgs [.int]) [120, 123, 125] [120, 97]) = some (.inl .invalidScannedValue, []) := by
  decide +kernel

/-- C21: when every argument's reader has run and one of them failed, the reported error is that
    reader's error (no user-defined argument types). Missing from the full claim: failures before
    the last argument, which are reported as `invalid_format_string`. -/
theorem C21_last_field_error_partial {env : Env V} (hc : env.count < 64) (hcust : ∀ id, env.argTy id ≠ .custom)
    {fmt src : List Nat} {res : Except Err (List Nat)} {evs : List (Event V)} {id : Nat} {s : List Nat} {e : Err}
    (h : vscan env fmt src = some (res, evs)) (hall : ∀ i, i < env.count → i ∈ visits evs)
    (hf : Event.visit id s (.err e) ∈ evs) : res = .error e := by
  rcases vscan_cases h with ⟨_, _, h3 | h3⟩ | ⟨st, h1, rfl, h3⟩
  · obtain ⟨e', _, rfl, rfl⟩ := h3
    simp at hf; rw [hf.2.2]
  · obtain ⟨v, r, _, _, rfl⟩ := h3
    simp at hf
  · have hg := (general_good hc h1).1
    unfold vscanGeneral at h1
    split at h1
    · exact absurd h1 (by simp)
    · rename_i st1 h2
      have hg1 := parseLoop_inv (good_preserved env src hc) _ _ _ _ (good_init env fmt src hc) h2
      rw [checkExhausted_cases hc] at h1
      simp only [Option.some.injEq] at h1
      have hev : st.events = st1.events := by
        rw [← h1]; split <;> rfl
      have hl : st1.lower = 2 ^ env.count - 1 := by
        apply Nat.eq_of_testBit_eq
        intro i
        rw [Nat.testBit_two_pow_sub_one]
        by_cases hi : i < env.count
        · simp only [hi, decide_true]
          exact hg1.sub i (by rw [← hev]; exact hall i hi)
        · simp only [hi, decide_false]
          cases hb : st1.lower.testBit i
          · rfl
          · exact absurd (hg1.bits i hb) hi
      rw [if_pos hl] at h1
      subst h1
      rcases parseLoop_oneFailure hcust _ _ _ _ (by simp [FH.init, visitErrs]) h2 with h4 | ⟨x, h4, h5⟩
      · have : e ∈ visitErrs st1.events := List.mem_filterMap.2 ⟨_, hf, rfl⟩
        rw [h4] at this; simp at this
      · have : e ∈ visitErrs st1.events := List.mem_filterMap.2 ⟨_, hf, rfl⟩
        rw [h4] at this; simp at this
        rw [h3, h5, this]

/-- "{} {}" on "1 99999999999": the second field overflows and that is what is reported. -/
example : outcome (vscan (intArgs [.int, .int]) [123, 125, 32, 123, 125]
    [49, 32, 57, 57, 57, 57, 57, 57, 57, 57, 57, 57, 57]) = some (.inl .valuePositiveOverflow, [(0, 1)]) := by
  decide +kernel

/-- C21 for accepted format strings: a call fails only if one of its literals or fields fails. -/
theorem C21_accepted_failure_has_cause_partial {cenv : CTEnv} {env : Env V} (hs : SameCall cenv env)
    (hc : env.count < 64) {fmt src : List Nat} {c : CT} {e : Err} {evs : List (Event V)}
    (hacc : compileCheck cenv fmt = some c) (hok : c.err = false)
    (h : vscan env fmt src = some (.error e, evs)) : ∃ ev ∈ evs, failure ev ≠ none := by
  rcases vscan_error_cases h with ⟨_, _, _, rfl⟩ | ⟨st, h1, rfl, h2⟩
  · exact ⟨_, List.mem_cons_self, by simp [Spec.failure]⟩
  · rcases accepted_ok_or_failure hs hc hacc hok h1 with h3 | h3
    · rw [h3] at h2; cases h2
    · exact h3

example : (compileCheck (intCheck [.int, .int]) [123, 125, 32, 123, 125]).map CT.err = some false := by decide +kernel

/-! ### C22 -/

/-- C22, compile time: a format string in which the parser meets both an automatic and a manual
    argument id is rejected, whatever else it contains. -/
theorem C22_compile_time_ids {env : CTEnv} {fmt : List Nat} {c : CT} (h : compileCheck env fmt = some c)
    (h1 : c.autoUsed = true) (h2 : c.manualUsed = true) : c.err = true := by
  simp only [compileCheck, Option.map_eq_some_iff] at h
  obtain ⟨c1, hc1, rfl⟩ := h
  have hinit : OneKind ⟨0, List.replicate env.types.length false, false, false, false⟩ := by
    intro _; simp
  have hk := parseLoop_inv (oneKind_preserved env) _ _ _ _ hinit hc1
  cases he : c1.err
  · have e1 : c1.checkExhausted.autoUsed = c1.autoUsed := by unfold CT.checkExhausted; split <;> rfl
    have e2 : c1.checkExhausted.manualUsed = c1.manualUsed := by unfold CT.checkExhausted; split <;> rfl
    rw [e1] at h1
    rw [e2] at h2
    have := hk he
    have := this.1 h1
    have := (hk he).2 h2
    omega
  · unfold CT.checkExhausted
    split
    · exact he
    · rfl

/-- C22, compile time, stated on the text: any sequence of literal texts and fields (with or
    without a one-letter type) that contains a field without and a field with an argument id is
    rejected. The check itself always terminates with a verdict. -/
theorem C22_mixed_rejected_at_compile_time {env : CTEnv} (parts : List (List Nat × Field))
    (tail : List Nat) (ho : CTEnvOk env (renderFormat parts tail)) (hf : ∀ p ∈ parts, GoodLetter p.2) (ha : ∃ p ∈ parts, p.2.id = none)
    (hm : ∃ p ∈ parts, p.2.id ≠ none) :
    ∃ c, compileCheck env (renderFormat parts tail) = some c ∧ c.err = true := by
  obtain ⟨c, h⟩ := compileCheck_total ho
  refine ⟨c, h, ?_⟩
  cases he : c.err
  · exfalso
    have h0 := h
    simp only [compileCheck, Option.map_eq_some_iff] at h
    obtain ⟨c1, hc1, rfl⟩ := h
    have he1 : c1.err = false := by
      unfold CT.checkExhausted at he
      split at he
      · exact he
      · simp [CT.onError] at he
    obtain ⟨u1, u2⟩ := compile_used parts tail hf _ _ _ hc1 he1
    obtain ⟨p, hp, hp2⟩ := ha
    obtain ⟨q, hq, hq2⟩ := hm
    have e1 : c1.checkExhausted.autoUsed = c1.autoUsed := by unfold CT.checkExhausted; split <;> rfl
    have e2 : c1.checkExhausted.manualUsed = c1.manualUsed := by unfold CT.checkExhausted; split <;> rfl
    have := C22_compile_time_ids h0 (by rw [e1]; exact u1 p hp hp2) (by rw [e2]; exact u2 q hq hq2)
    rw [he] at this; cases this
  · rfl

/-- "a{}{{ {1:d}": rejected; the same without mixing is accepted. -/
example : CTEnvOk (intCheck [.int, .int]) (renderFormat [([97], ⟨none, none⟩), ([123, 32], ⟨some 1, some 100⟩)] []) ∧
    renderFormat [([97], ⟨none, none⟩), ([123, 32], ⟨some 1, some 100⟩)] [] =
      [97, 123, 125, 123, 123, 32, 123, 49, 58, 100, 125] ∧
    (compileCheck (intCheck [.int, .int]) [97, 123, 125, 123, 123, 32, 123, 49, 58, 100, 125]).map CT.err = some true ∧
    (compileCheck (intCheck [.int, .int]) [97, 123, 48, 125, 123, 123, 32, 123, 49, 58, 100, 125]).map CT.err =
      some false :=
  ⟨⟨by decide⟩, by decide +kernel, by decide +kernel, by decide +kernel⟩

/-- C22 is violated at run time: "{} {1}" and "{1} {}" both succeed. -/
theorem C22_mixed_accepted_at_run_time :
    outcome (vscan (intArgs [.int, .int]) [123, 125, 32, 123, 49, 125] [49, 32, 50]) =
      some (.inr [], [(0, 1), (1, 2)]) ∧
    outcome (vscan (intArgs [.int, .int]) [123, 49, 125, 32, 123, 125] [49, 32, 50]) =
      some (.inr [], [(1, 1), (0, 2)]) := by decide +kernel

/-! ### C23 -/

/-- C23 is violated: with 64 or more arguments no call ever succeeds, whatever the format string
    and the source. -/
theorem C23_many_never_succeed {env : Env V} (hc : env.count ≥ 64) (fmt src rest : List Nat)
    (evs : List (Event V)) : vscan env fmt src ≠ some (.ok rest, evs) := by
  intro h
  rcases vscan_ok_cases h with ⟨_, h1, _⟩ | ⟨st, h1, _, h2, _⟩
  · omega
  · exact general_many hc h1 h2

/-- 64 fields for 64 arguments: the bookkeeping reads past its (empty) storage. -/
example : vscan (intArgs (List.replicate 64 .int)) ((List.replicate 64 [123, 125]).flatten)
    ((List.replicate 64 [49, 32]).flatten) |>.isNone := by decide +kernel
/-- 72 fields for 72 arguments: every argument is read, and the call reports an error. -/
example : (outcome (vscan (intArgs (List.replicate 72 .int)) ((List.replicate 72 [123, 125]).flatten)
    ((List.replicate 72 [49, 32]).flatten))).map (fun r => (r.1, r.2.length)) = some (.inl .invalidFormatString, 72) := by
  decide +kernel

/-- C23 is violated, exactly how: a call for 64 or more arguments whose fields (with any specifications, in any order) and
    literals all read is undefined when there are 64 arguments or their number is not a multiple of 8. -/
theorem C23_many_undefined {env : Env V} {auto : Bool} {fs : List (CallField V)} {last : List Nat} (hl : NoBrace last)
    (h64 : 64 ≤ env.count) (hmax : env.count ≤ intMax) (hn : env.count = 64 ∨ env.count % 8 ≠ 0)
    (hf : ∀ f ∈ fs, FieldMeans env f ∧ NoBrace f.gap) (hid : Numbered auto (fs.map fun f => f.id) env.count) {src : List Nat}
    {vs : List (Nat × V)} {r : List Nat} (h : inOrder (litStep env) fs last src = .ok (vs, r)) :
    vscan env (callFormat auto fs last) src = none := by
  have := many_all hl h64 hmax hf hid h
  rw [if_pos hn] at this
  unfold vscan
  rw [if_neg (by omega), this]
  rfl

/-- C23 is violated, exactly how: when the number of arguments is a multiple of 8 above 64, every argument is read and written
    and the call then reports an invalid format string. -/
theorem C23_many_all_read_error {env : Env V} {auto : Bool} {fs : List (CallField V)} {last : List Nat} (hl : NoBrace last)
    (h64 : 64 < env.count) (hmax : env.count ≤ intMax) (hn : env.count % 8 = 0)
    (hf : ∀ f ∈ fs, FieldMeans env f ∧ NoBrace f.gap) (hid : Numbered auto (fs.map fun f => f.id) env.count) {src : List Nat}
    {vs : List (Nat × V)} {r : List Nat} (h : inOrder (litStep env) fs last src = .ok (vs, r)) :
    ∃ evs, vscan env (callFormat auto fs last) src = some (.error .invalidFormatString, evs) ∧ stored evs = vs := by
  have := many_all hl (by omega) hmax hf hid h
  rw [if_neg (by omega)] at this
  obtain ⟨st, h1, h2, _, h4⟩ := this
  refine ⟨st.events, ?_, h4⟩
  unfold vscan
  rw [if_neg (by omega), h1]
  simp [h2]

/-- Automatic `{}` fields, no text between them. -/
def exManyFields (env : Env Int) (n : Nat) : List (CallField Int) :=
  (List.range n).map fun i => { gap := [], id := i, spec := none, read := env.readDefault i }

/-- The hypotheses hold for 67 and 72 automatic fields on "1 1 1 ...". -/
example (n : Nat) (hn : n = 67 ∨ n = 72) :
    (∀ f ∈ exManyFields (intArgs (List.replicate n .int)) n, FieldMeans (intArgs (List.replicate n .int)) f ∧ NoBrace f.gap) ∧
    Numbered true ((exManyFields (intArgs (List.replicate n .int)) n).map fun f => f.id) (intArgs (List.replicate n .int)).count ∧
    (inOrder (litStep (intArgs (List.replicate n .int))) (exManyFields (intArgs (List.replicate n .int)) n) []
      (List.replicate n [49, 32]).flatten).map (fun q => (q.1.length, q.2)) = .ok (n, [32]) := by
  refine ⟨?_, ?_, ?_⟩
  · intro f hf
    simp only [exManyFields, List.mem_map] at hf
    obtain ⟨i, _, rfl⟩ := hf
    exact ⟨rfl, by intro c hc; cases hc⟩
  · have : ((exManyFields (intArgs (List.replicate n .int)) n).map fun f => f.id) = List.range n := by
      simp [exManyFields, Function.comp_def]
    rw [this]
    refine ⟨List.nodup_range, ?_, ?_, ?_⟩
    · rcases hn with rfl | rfl <;> decide
    · intro i hi
      rcases hn with rfl | rfl <;> simpa [intArgs] using hi
    · intro _; rcases hn with rfl | rfl <;> decide
  · rcases hn with rfl | rfl <;> decide +kernel

/-- C23 below 64 arguments: the call never leaves its bookkeeping storage or its format string, it
    returns a result for every format string, source and well-behaved readers. -/
theorem C23_few_well_defined_partial {env : Env V} {U : List Nat → Prop} {fmt : List Nat} (ho : EnvOk env U fmt) (hc : env.count < 64)
    (src : List Nat) (hU : U src) (hu : UnitsOk env.enc fmt) : ∃ r, vscan env fmt src = some r := by
  unfold vscan
  split
  · unfold scanSimple
    split
    · rename_i h1 _ h; exact absurd h (ho.dflt 0 src (by omega) hU).1
    · exact ⟨_, rfl⟩
    · exact ⟨_, rfl⟩
  · obtain ⟨st, h⟩ := general_total ho hc src hU hu
    exact ⟨_, by rw [h]; rfl⟩

/-- The hypothesis `EnvOk` holds for the modelled integer reader on byte sources. -/
example : EnvOk (intArgs [.int, .short]) Bytes [123, 125, 123, 125] ∧ (intArgs [.int, .short]).count < 64 ∧ Bytes [49, 32, 255] :=
  ⟨intArgs_ok _ (by decide) _, by decide, by unfold Bytes; decide⟩

/-- C23 below 64 arguments, format strings accepted at compile time: the call succeeds exactly
    when every argument has been written and no literal or field failed. -/
theorem C23_few_success_iff_partial {cenv : CTEnv} {env : Env V} (hs : SameCall cenv env) (hc : env.count < 64)
    {fmt src : List Nat} {c : CT} {res : Except Err (List Nat)} {evs : List (Event V)}
    (hacc : compileCheck cenv fmt = some c) (hok : c.err = false) (h : vscan env fmt src = some (res, evs)) :
    (∃ rest, res = .ok rest) ↔ (∀ i, i < env.count → i ∈ writes evs) ∧ ∀ ev ∈ evs, failure ev = none := by
  constructor
  · rintro ⟨rest, rfl⟩
    refine ⟨fun i hi => List.count_pos_iff.1 (by rw [C19_success_writes_all_partial hs hc hacc hok h i hi]; omega), ?_⟩
    intro ev hev
    cases hf : failure ev with
    | none => rfl
    | some e =>
      obtain ⟨x, hx⟩ := (C20_no_write_after_failure h).2 ⟨ev, hev, by rw [hf]; simp⟩
      cases hx
  · rintro ⟨_, hn⟩
    cases res with
    | ok rest => exact ⟨rest, rfl⟩
    | error e =>
      obtain ⟨ev, hev, hf⟩ := C21_accepted_failure_has_cause_partial hs hc hacc hok h
      exact absurd (hn ev hev) hf

example : (compileCheck (intCheck [.int, .int]) [123, 49, 125, 45, 123, 48, 125]).map CT.err = some false ∧
    outcome (vscan (intArgs [.int, .int]) [123, 49, 125, 45, 123, 48, 125] [49, 45, 50]) =
      some (.inr [], [(1, 1), (0, 2)]) := by decide +kernel

/-! ### C34 -/

/-- C34: on success the unused range is a suffix of the source, reached by the literals and fields
    one after the other, and what lies before it is exactly what they consumed. The readers are
    only assumed to move forward. -/
theorem C34_unused_range {env : Env V} (ha : Advancing env) {fmt src rest : List Nat} {evs : List (Event V)}
    (h : vscan env fmt src = some (.ok rest, evs)) :
    rest <:+ src ∧ Leads src evs rest ∧ src.length = rest.length + (evs.map consumed).sum := by
  have hc : env.count < 64 := Nat.lt_of_not_le fun hc => C23_many_never_succeed hc fmt src rest evs h
  rcases vscan_ok_cases h with ⟨_, _, v, h2, rfl⟩ | ⟨st, h1, rfl, _, rfl⟩
  · have hs := ha.dflt _ _ _ _ h2
    refine ⟨hs, ?_, ?_⟩
    · exact Leads.snoc (evs := []) (Event.visit 0 src (.ok (v, rest))) (Leads.nil src) rfl
    · have := hs.length_le
      simp [consumed, eventFrom, eventTo]; omega
  · have hl := (general_good hc h1).1.leads
    obtain ⟨h3, h4⟩ := leads_advance hl (general_advance ha hc h1)
    exact ⟨h3, hl, h4⟩

example : Advancing (intArgs [.int]) := intArgs_advancing _
/-- "{} x" on " 12  xy": field 3 units, literal 3 units, "y" is left. -/
example : outcome (vscan (intArgs [.int]) [123, 125, 32, 120] [32, 49, 50, 32, 32, 120, 121]) =
    some (.inr [121], [(0, 12)]) := by decide +kernel

/-! ### C42 -/

/-- C42: `scan_value` is one run of the default reader; a scan call with "{}" and one argument
    returns the same error or the same remaining range, and made exactly the same reader call
    with the same result. This holds both with the "{}" short cut and without it. -/
theorem C42_value_agrees {env : Env V} (hc : env.count = 1) (src : List Nat) :
    (vscan env [123, 125] src).map (fun r => (r.1, reads r.2)) =
      (match scanSimple env src with
       | .ub => none
       | .err e => some (.error e, [(0, src, .err e)])
       | .ok (v, rest) => some (.ok rest, [(0, src, .ok (v, rest))])) ∧
    (vscanGeneral env [123, 125] src).map (fun st =>
      ((match st.err with | some e => Except.error e | none => Except.ok st.src), reads st.events)) =
    (vscan env [123, 125] src).map (fun r => (r.1, reads r.2)) := by
  have h1 : (vscan env [123, 125] src).map (fun r => (r.1, reads r.2)) =
      (match scanSimple env src with
       | .ub => none
       | .err e => some (.error e, [(0, src, .err e)])
       | .ok (v, rest) => some (.ok rest, [(0, src, .ok (v, rest))])) := by
    unfold vscan
    rw [if_pos ⟨rfl, hc⟩]
    cases scanSimple env src with
    | ub => rfl
    | err e => rfl
    | ok a => rfl
  refine ⟨h1, ?_⟩
  rw [h1]
  exact general_braces hc src

example : outcome (vscan (intArgs [.int]) [123, 125] [32, 45, 53, 32]) = some (.inr [32], [(0, -5)]) ∧
    scanSimple (intArgs [.int]) [32, 45, 53, 32] = .ok (-5, [32]) := by decide +kernel

end Scn
