import Verif.Props.Continued
import Verif.Props.Braces
/-
C92, in general: scanning in pieces with literal texts that have braces, and with arguments that are numbered by hand.
The vocabulary is in `Verif/Spec/Calls.lean` and `Verif/Spec/Braces.lean`. The one format string is
`escapedFormat auto (fs1 ++ laterFields tail c fs2) (laterLast tail fs2 last)`: the text of the first, then that of the second with its
numbers (if there are any) raised by the number `c` of arguments of the first.
-/
namespace Scn
open Spec

variable {V : Type}

theorem litStep_suffix {env : Env V} (ha : Advancing env) {t s r : List Nat} (h : litStep env t s = .ok r) : r <:+ s := by
  unfold litStep at h
  cases hl : litLoop env t.length s t with
  | none => rw [hl] at h; cases h
  | some p =>
    obtain ⟨p, f⟩ := p
    rw [hl] at h
    cases f with
    | some e => cases h
    | none => cases h; exact litLoop_suffix ha _ _ _ _ _ hl

/-- What a call leaves is an end of its source. -/
theorem inOrder_suffix {env : Env V} (ha : Advancing env) (fs : List (CallField V)) (last : List Nat) :
    ∀ (s : List Nat) (vs : List (Nat × V)) (r : List Nat), (∀ f ∈ fs, FieldMeans env f) → inOrder (litStep env) fs last s = .ok (vs, r) → r <:+ s := by
  induction fs with
  | nil =>
    intro s vs r _ h
    rw [inOrder] at h
    cases hl : litStep env last s with
    | ub => rw [hl] at h; cases h
    | err e => rw [hl] at h; cases h
    | ok p => rw [hl] at h; cases h; exact litStep_suffix ha hl
  | cons f fs ih =>
    intro s vs r hf h
    rw [inOrder] at h
    cases hl : litStep env f.gap s with
    | ub => rw [hl] at h; cases h
    | err e => rw [hl] at h; cases h
    | ok p =>
      rw [hl, Res.bind_ok] at h
      cases hr : f.read p with
      | ub => rw [hr] at h; cases h
      | err e => rw [hr] at h; cases h
      | ok q =>
        rw [hr, Res.bind_ok] at h
        cases hi : inOrder (litStep env) fs last q.2 with
        | ub => rw [hi] at h; cases h
        | err e => rw [hi] at h; cases h
        | ok w =>
          rw [hi] at h
          cases h
          exact (ih _ _ _ (fun f hx => hf f (by simp [hx])) hi).trans
            ((field_advances ha (hf f (by simp)) (show f.read p = .ok (q.1, q.2) from hr)).trans (litStep_suffix ha hl))

theorem skipsIn_suffix {env env' : Env V} (h : env'.skip = env.skip) {src r : List Nat} (hs : r <:+ src) (hk : SkipsIn env src) : SkipsIn env' r :=
  fun s hr => by rw [h]; exact hk s (hr.trans hs)

theorem simpleText_append {e : Enc} {a b : List Nat} (ha : SimpleText e a) (hb : SimpleText e b) : SimpleText e (a ++ b) := by
  obtain ⟨x, rfl, hx⟩ := ha
  obtain ⟨y, rfl, hy⟩ := hb
  refine ⟨x ++ y, by simp [encodes], fun c hc => ?_⟩
  rcases List.mem_append.1 hc with h | h
  · exact hx c h
  · exact hy c h

theorem simpleText_laterLast {e : Enc} {tail last : List Nat} (fs : List (CallField V)) (ht : SimpleText e tail) (hl : SimpleText e last) :
    SimpleText e (laterLast tail fs last) := by
  cases fs with
  | nil => exact simpleText_append ht hl
  | cons f fs => exact hl

/-- The fields of both calls mean in the one call what they mean in theirs. -/
theorem fields_joined {env env1 env2 : Env V} (h : Joins env env1 env2) {auto1 auto2 : Bool} {fs1 fs2 : List (CallField V)} {tail : List Nat}
    (ht : SimpleText env.enc tail) (hf1 : ∀ f ∈ fs1, FieldMeans env1 f ∧ SimpleText env.enc f.gap) (hf2 : ∀ f ∈ fs2, FieldMeans env2 f ∧ SimpleText env.enc f.gap)
    (h1 : Numbered auto1 (fs1.map fun f => f.id) env1.count) (h2 : Numbered auto2 (fs2.map fun f => f.id) env2.count) :
    ∀ f ∈ fs1 ++ laterFields tail env1.count fs2, FieldMeans env f ∧ SimpleText env.enc f.gap := by
  intro f hf
  have hb2 : ∀ f ∈ fs2, f.id < env2.count := fun f hf => h2.below _ (List.mem_map_of_mem hf)
  rcases List.mem_append.1 hf with hf | hf
  · exact ⟨fieldMeans_first h (h1.below _ (List.mem_map_of_mem hf)) (hf1 f hf).1, (hf1 f hf).2⟩
  · cases fs2 with
    | nil => cases hf
    | cons g fs =>
      rcases List.mem_cons.1 hf with rfl | hf
      · exact ⟨fieldMeans_later h (hb2 g (by simp)) _ (hf2 g (by simp)).1, simpleText_append ht (hf2 g (by simp)).2⟩
      · obtain ⟨g', hg', rfl⟩ := List.mem_map.1 hf
        exact ⟨fieldMeans_later h (hb2 g' (by simp [hg'])) g'.gap (hf2 g' (by simp [hg'])).1, (hf2 g' (by simp [hg'])).2⟩

/-- The arguments of both calls are numbered in the one call, by hand or, if they are in both, automatically. -/
theorem numbered_joined {env env1 env2 : Env V} (h : Joins env env1 env2) {auto auto1 auto2 : Bool} (ha : auto = true → auto1 = true ∧ auto2 = true)
    {fs1 fs2 : List (CallField V)} (tail : List Nat)
    (h1 : Numbered auto1 (fs1.map fun f => f.id) env1.count) (h2 : Numbered auto2 (fs2.map fun f => f.id) env2.count) :
    Numbered auto ((fs1 ++ laterFields tail env1.count fs2).map fun f => f.id) env.count := by
  rw [List.map_append, laterFields_ids]
  constructor
  · refine List.nodup_append.2 ⟨h1.nodup, ?_, ?_⟩
    · exact List.Pairwise.map _ (fun a b hab he => hab (by omega)) h2.nodup
    · intro a ha b hb he
      obtain ⟨i, _, rfl⟩ := List.mem_map.1 hb
      have := h1.below a ha
      omega
  · have e1 := h1.all
    have e2 := h2.all
    simp only [List.length_append, List.length_map] at e1 e2 ⊢
    rw [e1, e2, h.count]
  · intro i hi
    rw [h.count]
    rcases List.mem_append.1 hi with hi | hi
    · have := h1.below i hi; omega
    · obtain ⟨j, hj, rfl⟩ := List.mem_map.1 hi
      have := h2.below j hj; omega
  · intro hauto
    obtain ⟨e1, e2⟩ := ha hauto
    rw [h1.ordered e1, h2.ordered e2, h.count, List.range_add]

/-- With automatic numbers, the one format string is the two, one after the other. -/
theorem escapedFormat_later (c : Nat) (fs1 fs2 : List (CallField V)) (tail last : List Nat) :
    escapedFormat true (fs1 ++ laterFields tail c fs2) (laterLast tail fs2 last) = escapedFormat true fs1 tail ++ escapedFormat true fs2 last := by
  cases fs2 with
  | nil => simp [escapedFormat, callFormat, laterFields, laterLast, doubled_append]
  | cons f fs =>
    simp [escapedFormat, callFormat, laterFields, laterLast, CallField.text, List.flatMap_map, List.append_assoc, doubled_append]

/-- What a call did, from what its steps did. -/
theorem escaped_ok_iff {env : Env V} (ha : Advancing env) {auto : Bool} {fs : List (CallField V)} {last : List Nat} (hl : SimpleText env.enc last)
    (h64 : env.count < 64) (hf : ∀ f ∈ fs, FieldMeans env f ∧ SimpleText env.enc f.gap) (hn : Numbered auto (fs.map fun f => f.id) env.count)
    {src : List Nat} (hsk : SkipsIn env src) (vs : List (Nat × V)) (r : List Nat) :
    (∃ evs, vscan env (escapedFormat auto fs last) src = some (.ok r, evs) ∧ stored evs = vs) ↔
      inOrder (litStep env) fs last src = .ok (vs, r) := by
  constructor
  · rintro ⟨evs, h1, h2⟩
    cases h : inOrder (litStep env) fs last src with
    | ub => rw [(C100_undefined_partial ha hl h64 hf hn hsk).2 h] at h1; cases h1
    | err e =>
      obtain ⟨evs', e', h3, _⟩ := C100_failure_partial ha hl h64 hf hn hsk h
      rw [h3] at h1; cases h1
    | ok p =>
      obtain ⟨evs', h3, h4⟩ := C100_success_partial ha hl h64 hf hn hsk h
      rw [h3] at h1
      cases h1
      rw [← h2, h4]
  · exact C100_success_partial ha hl h64 hf hn hsk

/-- Two calls, and the one call for the arguments of both: what both ways of scanning have in common. -/
structure TwoCalls (env env1 env2 : Env V) (auto auto1 auto2 : Bool) (fs1 fs2 : List (CallField V)) (tail last src : List Nat) : Prop where
  joins : Joins env env1 env2
  adv : Advancing env
  adv1 : Advancing env1
  adv2 : Advancing env2
  few : env.count < 64
  meet : Meet env.enc tail (firstText fs2 last)
  tailText : SimpleText env.enc tail
  lastText : SimpleText env.enc last
  fields1 : ∀ f ∈ fs1, FieldMeans env1 f ∧ SimpleText env.enc f.gap
  fields2 : ∀ f ∈ fs2, FieldMeans env2 f ∧ SimpleText env.enc f.gap
  numbers1 : Numbered auto1 (fs1.map fun f => f.id) env1.count
  numbers2 : Numbered auto2 (fs2.map fun f => f.id) env2.count
  numbers : auto = true → auto1 = true ∧ auto2 = true
  skips : SkipsIn env src

section
variable {env env1 env2 : Env V} {auto auto1 auto2 : Bool} {fs1 fs2 : List (CallField V)} {tail last src : List Nat}

theorem TwoCalls.first (h : TwoCalls env env1 env2 auto auto1 auto2 fs1 fs2 tail last src) (vs : List (Nat × V)) (r : List Nat) :
    (∃ evs, vscan env1 (escapedFormat auto1 fs1 tail) src = some (.ok r, evs) ∧ stored evs = vs) ↔ inOrder (litStep env1) fs1 tail src = .ok (vs, r) := by
  have hc := h.joins.count
  have h64 := h.few
  have he := h.joins.enc1
  exact escaped_ok_iff h.adv1 (he ▸ h.tailText) (by omega) (fun f hx => he ▸ h.fields1 f hx) h.numbers1 (skipsIn_suffix h.joins.skip1 (List.suffix_refl _) h.skips) vs r

theorem TwoCalls.first_ub (h : TwoCalls env env1 env2 auto auto1 auto2 fs1 fs2 tail last src) :
    vscan env1 (escapedFormat auto1 fs1 tail) src = none ↔ inOrder (litStep env1) fs1 tail src = .ub := by
  have hc := h.joins.count
  have h64 := h.few
  have he := h.joins.enc1
  exact C100_undefined_partial h.adv1 (he ▸ h.tailText) (by omega) (fun f hx => he ▸ h.fields1 f hx) h.numbers1 (skipsIn_suffix h.joins.skip1 (List.suffix_refl _) h.skips)

theorem TwoCalls.skips2 (h : TwoCalls env env1 env2 auto auto1 auto2 fs1 fs2 tail last src) {vs : List (Nat × V)} {r : List Nat}
    (h1 : inOrder (litStep env1) fs1 tail src = .ok (vs, r)) : SkipsIn env2 r :=
  skipsIn_suffix h.joins.skip2 (inOrder_suffix h.adv1 fs1 tail _ _ _ (fun f hx => (h.fields1 f hx).1) h1) h.skips

theorem TwoCalls.second (h : TwoCalls env env1 env2 auto auto1 auto2 fs1 fs2 tail last src) {vs1 : List (Nat × V)} {r1 : List Nat}
    (h1 : inOrder (litStep env1) fs1 tail src = .ok (vs1, r1)) (vs : List (Nat × V)) (r : List Nat) :
    (∃ evs, vscan env2 (escapedFormat auto2 fs2 last) r1 = some (.ok r, evs) ∧ stored evs = vs) ↔ inOrder (litStep env2) fs2 last r1 = .ok (vs, r) := by
  have hc := h.joins.count
  have h64 := h.few
  have he := h.joins.enc2
  exact escaped_ok_iff h.adv2 (he ▸ h.lastText) (by omega) (fun f hx => he ▸ h.fields2 f hx) h.numbers2 (h.skips2 h1) vs r

theorem TwoCalls.second_ub (h : TwoCalls env env1 env2 auto auto1 auto2 fs1 fs2 tail last src) {vs1 : List (Nat × V)} {r1 : List Nat}
    (h1 : inOrder (litStep env1) fs1 tail src = .ok (vs1, r1)) :
    vscan env2 (escapedFormat auto2 fs2 last) r1 = none ↔ inOrder (litStep env2) fs2 last r1 = .ub := by
  have hc := h.joins.count
  have h64 := h.few
  have he := h.joins.enc2
  exact C100_undefined_partial h.adv2 (he ▸ h.lastText) (by omega) (fun f hx => he ▸ h.fields2 f hx) h.numbers2 (h.skips2 h1)

/-- C92, success, in general: also with arguments numbered by hand (the numbers of the second format string are raised by the number of
    arguments of the first) and with braces in the literal texts, scanning with the first format string and then, from where that ended,
    with the second stores the same values and leaves the same rest as the one call for the arguments of both; if one of the two ways
    succeeds, so does the other. Missing from the full claim: whitespace that meets whitespace (`C92_violated_whitespace`), 64 arguments or
    more (C23), literal texts with characters of several code units that are not whitespace (C16). -/
theorem C92_general_success_partial (h : TwoCalls env env1 env2 auto auto1 auto2 fs1 fs2 tail last src) (vs : List (Nat × V)) (r : List Nat) :
    (∃ evs, vscan env (escapedFormat auto (fs1 ++ laterFields tail env1.count fs2) (laterLast tail fs2 last)) src = some (.ok r, evs) ∧ stored evs = vs) ↔
      ∃ r1 evs1 evs2, vscan env1 (escapedFormat auto1 fs1 tail) src = some (.ok r1, evs1) ∧
        vscan env2 (escapedFormat auto2 fs2 last) r1 = some (.ok r, evs2) ∧ vs = stored evs1 ++ laterValues env1.count (stored evs2) := by
  rw [escaped_ok_iff h.adv (simpleText_laterLast fs2 h.tailText h.lastText) h.few (fields_joined h.joins h.tailText h.fields1 h.fields2 h.numbers1 h.numbers2)
    (numbered_joined h.joins h.numbers tail h.numbers1 h.numbers2) h.skips, pieces_inOrder h.joins h.meet]
  constructor
  · intro hi
    cases h1 : inOrder (litStep env1) fs1 tail src with
    | ub => rw [h1] at hi; cases hi
    | err e => rw [h1] at hi; cases hi
    | ok p =>
      rw [h1, Res.bind_ok] at hi
      cases h2 : inOrder (litStep env2) fs2 last p.2 with
      | ub => rw [h2] at hi; cases hi
      | err e => rw [h2] at hi; cases hi
      | ok q =>
        rw [h2, Res.map_ok] at hi
        cases hi
        obtain ⟨evs1, a1, a2⟩ := (h.first p.1 p.2).2 h1
        obtain ⟨evs2, b1, b2⟩ := (h.second (vs1 := p.1) (r1 := p.2) h1 q.1 q.2).2 h2
        exact ⟨p.2, evs1, evs2, a1, b1, by rw [a2, b2]⟩
  · rintro ⟨r1, evs1, evs2, a1, b1, rfl⟩
    have i1 := (h.first (stored evs1) r1).1 ⟨evs1, a1, rfl⟩
    rw [i1, Res.bind_ok, (h.second i1 (stored evs2) r).1 ⟨evs2, b1, rfl⟩]
    rfl

/-- C92, undefined behaviour, in general: the one call is undefined exactly when the first of the two calls is, or the first succeeds and the
    second is. -/
theorem C92_general_undefined_partial (h : TwoCalls env env1 env2 auto auto1 auto2 fs1 fs2 tail last src) :
    vscan env (escapedFormat auto (fs1 ++ laterFields tail env1.count fs2) (laterLast tail fs2 last)) src = none ↔
      vscan env1 (escapedFormat auto1 fs1 tail) src = none ∨
      ∃ r1 evs1, vscan env1 (escapedFormat auto1 fs1 tail) src = some (.ok r1, evs1) ∧ vscan env2 (escapedFormat auto2 fs2 last) r1 = none := by
  rw [C100_undefined_partial h.adv (simpleText_laterLast fs2 h.tailText h.lastText) h.few (fields_joined h.joins h.tailText h.fields1 h.fields2 h.numbers1 h.numbers2)
    (numbered_joined h.joins h.numbers tail h.numbers1 h.numbers2) h.skips, pieces_inOrder h.joins h.meet, h.first_ub]
  constructor
  · intro hi
    cases h1 : inOrder (litStep env1) fs1 tail src with
    | ub => exact Or.inl rfl
    | err e => rw [h1] at hi; cases hi
    | ok p =>
      rw [h1, Res.bind_ok] at hi
      obtain ⟨evs1, a1, _⟩ := (h.first p.1 p.2).2 h1
      refine Or.inr ⟨p.2, evs1, a1, (h.second_ub (vs1 := p.1) (r1 := p.2) h1).2 ?_⟩
      cases h2 : inOrder (litStep env2) fs2 last p.2 with
      | ub => rfl
      | err e => rw [h2] at hi; cases hi
      | ok q => rw [h2] at hi; cases hi
  · rintro (hi | ⟨r1, evs1, a1, b1⟩)
    · rw [hi]; rfl
    · have i1 := (h.first (stored evs1) r1).1 ⟨evs1, a1, rfl⟩
      rw [i1, Res.bind_ok, (h.second_ub i1).1 b1]
      rfl

/-- C92, failure, in general: when the first call succeeds and the second fails, the one call fails and has stored the values of the first
    call and then those that the second stored before it failed. -/
theorem C92_general_failure_partial (h : TwoCalls env env1 env2 auto auto1 auto2 fs1 fs2 tail last src)
    {r1 : List Nat} {evs1 evs2 : List (Event V)} {e : Err} (h1 : vscan env1 (escapedFormat auto1 fs1 tail) src = some (.ok r1, evs1))
    (h2 : vscan env2 (escapedFormat auto2 fs2 last) r1 = some (.error e, evs2)) :
    ∃ evs e', vscan env (escapedFormat auto (fs1 ++ laterFields tail env1.count fs2) (laterLast tail fs2 last)) src = some (.error e', evs) ∧
      stored evs = stored evs1 ++ laterValues env1.count (stored evs2) := by
  have hc := h.joins.count
  have h64 := h.few
  have he2 := h.joins.enc2
  have i1 := (h.first (stored evs1) r1).1 ⟨evs1, h1, rfl⟩
  obtain ⟨e2, i2⟩ : ∃ e2, inOrder (litStep env2) fs2 last r1 = .err e2 := by
    cases hi : inOrder (litStep env2) fs2 last r1 with
    | ub => rw [(h.second_ub i1).2 hi] at h2; cases h2
    | err e2 => exact ⟨e2, rfl⟩
    | ok q =>
      obtain ⟨evs', h3, _⟩ := (h.second i1 q.1 q.2).2 hi
      rw [h3] at h2; cases h2
  have hall : inOrder (litStep env) (fs1 ++ laterFields tail env1.count fs2) (laterLast tail fs2 last) src = .err e2 := by
    rw [pieces_inOrder h.joins h.meet, i1, Res.bind_ok, i2]; rfl
  obtain ⟨evs2', e2', h3, h4, _⟩ := C100_failure_partial (auto := auto2) h.adv2 (he2 ▸ h.lastText) (by omega) (fun f hx => he2 ▸ h.fields2 f hx) h.numbers2 (h.skips2 i1) i2
  rw [h3] at h2
  cases h2
  obtain ⟨evs, e', h5, h6, _⟩ := C100_failure_partial h.adv (simpleText_laterLast fs2 h.tailText h.lastText) h.few
    (fields_joined h.joins h.tailText h.fields1 h.fields2 h.numbers1 h.numbers2) (numbered_joined h.joins h.numbers tail h.numbers1 h.numbers2) h.skips hall
  refine ⟨evs, e', h5, ?_⟩
  rw [h6, h4]
  rw [litStep_same h.joins.enc1 h.joins.skip1] at i1
  rw [litStep_same h.joins.enc2 h.joins.skip2]
  exact readBefore_later (litStep env) env1.count fs2 tail last (litStep_append env h.meet) fs1 src _ _ i1

end

/-- "{{{0:x}}}," and then "{{{0}": the fields of the two. -/
def bracedOne : List (CallField Int) := [⟨[123], 0, some [120], (intArgs [.int]).readSpecs 0 { type := .intHex }⟩]
/-- The second of the two. -/
def bracedTwo : List (CallField Int) := [⟨[123], 0, none, (intArgs [.int]).readDefault 0⟩]

/-- "{1f},{2": as one format string, "{{{0:x}}},{{{1}", or automatically in all three, or by hand in some of them. -/
example (auto auto1 auto2 : Bool) (ha : auto = true → auto1 = true ∧ auto2 = true) : TwoCalls (intArgs [.int, .int]) (intArgs [.int]) (intArgs [.int])
    auto auto1 auto2 bracedOne bracedTwo [125, 44] [] [123, 49, 102, 125, 44, 123, 50] where
  joins := pieces_join
  adv := intArgs_advancing _
  adv1 := intArgs_advancing _
  adv2 := intArgs_advancing _
  few := by decide
  meet := Or.inr (Or.inr ⟨[125, 44], [123], rfl, rfl, by unfold Simple IsScalar; decide, by unfold IsScalar; decide, by intro c d hc hd; cases hc; cases hd; decide⟩)
  tailText := ⟨[125, 44], by decide, by unfold Simple IsScalar; decide⟩
  lastText := ⟨[], by decide, by intro c hc; cases hc⟩
  fields1 := by
    intro f hf
    obtain rfl := List.mem_singleton.1 hf
    exact ⟨⟨{ type := .intHex }, fun r => rfl, rfl⟩, [123], by decide, by unfold Simple IsScalar; decide⟩
  fields2 := by
    intro f hf
    obtain rfl := List.mem_singleton.1 hf
    exact ⟨rfl, [123], by decide, by unfold Simple IsScalar; decide⟩
  numbers1 := ⟨by decide, by decide, by decide, fun _ => by decide⟩
  numbers2 := ⟨by decide, by decide, by decide, fun _ => by decide⟩
  numbers := ha
  skips := intArgs_skipsIn _ _ (by decide)
example : escapedFormat false (bracedOne ++ laterFields [125, 44] 1 bracedTwo) (laterLast [125, 44] bracedTwo []) =
    [123, 123, 123, 48, 58, 120, 125, 125, 125, 44, 123, 123, 123, 49, 125] := by decide +kernel
example : inOrder (litStep (intArgs [.int])) bracedOne [125, 44] [123, 49, 102, 125, 44, 123, 50] = .ok ([(0, 31)], [123, 50]) ∧
    inOrder (litStep (intArgs [.int])) bracedTwo [] [123, 50] = .ok ([(0, 2)], []) ∧
    inOrder (litStep (intArgs [.int])) bracedTwo [] [124, 50] = .err .invalidLiteral := by decide +kernel

end Scn
