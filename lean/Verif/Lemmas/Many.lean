import Verif.Lemmas.Calls
/-
Scan calls with 64 or more arguments.
-/
namespace Scn
open Spec

variable {V : Type}

/-! ### No argument twice -/

theorem testBit_mod256 (b k : Nat) (h : k < 8) : (b % 256).testBit k = b.testBit k := by
  rw [show (256 : Nat) = 2 ^ 8 from rfl, Nat.testBit_mod_two_pow]
  simp [h]

/-- Entering a field keeps the marks and adds one; without an error the argument had none. -/
theorem enter_marks {env : Env V} {st st' : FH V} {id : Nat} (h : st.enter env id = some st') :
    st'.events = st.events ∧ st'.src = st.src ∧ (∀ j, st.visited j = some true → st'.visited j = some true) ∧
      (st'.err = none → st.err = none ∧ st.visited id = some false ∧ st'.visited id = some true) := by
  unfold FH.enter FH.setVisited at h
  split at h
  · rename_i hid
    simp only [Option.some.injEq] at h
    rw [← h]
    exact ⟨rfl, rfl, fun j hj => hj, fun hc => by cases hc⟩
  · rename_i hid
    split at h
    · cases h
    · rename_i v hv
      dsimp only at h
      have hsame : (if v = true then st.onError .invalidFormatString else st).upper = st.upper ∧
          (if v = true then st.onError .invalidFormatString else st).lower = st.lower ∧
          (if v = true then st.onError .invalidFormatString else st).events = st.events ∧
          (if v = true then st.onError .invalidFormatString else st).src = st.src := by split <;> exact ⟨rfl, rfl, rfl, rfl⟩
      have herr : (if v = true then st.onError .invalidFormatString else st).err = none → st.err = none ∧ v = false := by
        cases v
        · intro h; exact ⟨h, rfl⟩
        · intro h; cases h
      generalize (if v = true then st.onError .invalidFormatString else st) = st0 at h hsame herr
      obtain ⟨e1, e2, e3, e4⟩ := hsame
      split at h
      · rename_i h64
        simp only [Option.some.injEq] at h
        rw [← h]
        refine ⟨e3, e4, ?_, ?_⟩
        · intro j hj
          unfold FH.visited at hj ⊢
          split
          · rename_i hj64
            rw [if_pos hj64] at hj
            simp only [Option.some.injEq] at hj
            simp only [e2, testBit_or_shift, hj, Bool.true_or]
          · rename_i hj64
            rw [if_neg hj64] at hj
            simp only [e1]; exact hj
        · intro he
          obtain ⟨g1, rfl⟩ := herr he
          refine ⟨g1, hv, ?_⟩
          unfold FH.visited
          simp [h64]
      · rename_i h64
        rw [e1] at h
        split at h
        · cases h
        · rename_i b hb
          simp only [Option.some.injEq] at h
          rw [← h]
          have hlt : (id - 64) / 8 < st.upper.length := by
            apply Nat.lt_of_not_le
            intro hx
            rw [List.getElem?_eq_none hx] at hb; cases hb
          refine ⟨e3, e4, ?_, ?_⟩
          · intro j hj
            unfold FH.visited at hj ⊢
            split
            · rename_i hj64
              rw [if_pos hj64] at hj
              simp only [e2]; exact hj
            · rename_i hj64
              rw [if_neg hj64] at hj
              dsimp only
              rw [List.getElem?_set]
              split
              · rename_i hi
                rw [← hi, hb] at hj
                simp only [Option.map_some, Option.some.injEq] at hj
                simp only [Option.map_some, Option.some.injEq]
                rw [testBit_mod256 _ _ (Nat.mod_lt _ (by omega)), testBit_or_shift, hj, Bool.true_or]
              · exact hj
          · intro he
            obtain ⟨g1, rfl⟩ := herr he
            refine ⟨g1, hv, ?_⟩
            unfold FH.visited
            rw [if_neg h64]
            dsimp only
            rw [List.getElem?_set, if_pos rfl, if_pos hlt]
            simp only [Option.map_some, Option.some.injEq]
            rw [testBit_mod256 _ _ (Nat.mod_lt _ (by omega)), testBit_or_shift]
            simp

/-- The arguments read so far are different and marked. -/
def BitsMarked (st : FH V) : Prop := (visits st.events).Nodup ∧ ∀ id ∈ visits st.events, st.visited id = some true

theorem BitsMarked.same {st st' : FH V} (h : BitsMarked st) (h1 : st'.events = st.events) (h2 : st'.lower = st.lower) (h3 : st'.upper = st.upper) : BitsMarked st' := by
  unfold BitsMarked FH.visited at *
  rw [h1, h2, h3]
  exact h

theorem BitsMarked.enter {env : Env V} {st st' : FH V} {id : Nat} (h : BitsMarked st) (he : st.enter env id = some st') :
    BitsMarked st' ∧ (st'.err = none → id ∉ visits st'.events ∧ st'.visited id = some true) := by
  obtain ⟨h1, _, h3, h4⟩ := enter_marks he
  refine ⟨⟨by rw [h1]; exact h.1, fun j hj => h3 j (h.2 j (by rwa [h1] at hj))⟩, fun hn => ?_⟩
  obtain ⟨_, g2, g3⟩ := h4 hn
  refine ⟨fun hin => ?_, g3⟩
  rw [h1] at hin
  have := h.2 id hin
  rw [g2] at this; cases this

theorem BitsMarked.visit {st st' : FH V} {id : Nat} {res : Res (V × List Nat)} (h : BitsMarked st) (hn : id ∉ visits st.events)
    (hb : st.visited id = some true) (hv : st.onVisit id res = some st') : BitsMarked st' := by
  have key : (visits (st.events ++ [Event.visit id st.src res])).Nodup ∧
      ∀ j ∈ visits (st.events ++ [Event.visit id st.src res]), st.visited j = some true := by
    rw [visits_append]
    constructor
    · refine List.nodup_append.2 ⟨h.1, by simp [visits, visitOf], ?_⟩
      intro a ha b hb'
      simp [visits, visitOf] at hb'
      rintro rfl; rw [hb'] at ha; exact hn ha
    · intro j hj
      rcases List.mem_append.1 hj with hj | hj
      · exact h.2 j hj
      · simp [visits, visitOf] at hj; rw [hj]; exact hb
  rcases onVisit_cases hv with ⟨e, rfl, rfl⟩ | ⟨v, r, rfl, rfl⟩ <;> exact key

theorem bitsMarked_preserved (env : Env V) : Preserved (runHandler env) (BitsMarked (V := V)) where
  lit st t st' h hl := by
    obtain ⟨s, f, _, rfl⟩ := onLiteral_cases hl
    unfold BitsMarked FH.visited at *
    simpa only [visits_literal] using h
  auto st h := h.same rfl rfl rfl
  man st id h := h.same rfl rfl rfl
  field st id pos st' h hf := by
    simp only [runHandler, FH.onField] at hf
    split at hf
    · cases hf
    · rename_i st1 h1
      obtain ⟨g1, g2⟩ := h.enter h1
      split at hf
      · rename_i hcv
        have hcv := canVisit_iff.1 hcv
        exact g1.visit (g2 hcv.1).1 (g2 hcv.1).2 hf
      · simp at hf; rw [← hf]; exact g1
  specs st id pos st' p h hf := by
    simp only [runHandler, FH.onSpecs] at hf
    split at hf
    · cases hf
    · rename_i st1 h1
      obtain ⟨g1, g2⟩ := h.enter h1
      split at hf
      · split at hf
        · rename_i hcv
          have hcv := canVisit_iff.1 hcv
          simp only [Option.map_eq_some_iff, Prod.mk.injEq] at hf
          obtain ⟨a, ha, rfl, _⟩ := hf
          have g0 : BitsMarked ({ st1 with fmtPos := (env.custom st1.mixed id pos st1.src).1 } : FH V) := g1.same rfl rfl rfl
          exact g0.visit (g2 hcv.1).1 (g2 hcv.1).2 ha
        · simp at hf; rw [← hf.1]; exact g1.same rfl rfl rfl
      · split at hf
        · cases hf
        · split at hf
          · split at hf
            · simp at hf; rw [← hf.1]; exact g1
            · split at hf
              · rename_i hcv
                have hcv := canVisit_iff.1 hcv
                simp only [Option.map_eq_some_iff, Prod.mk.injEq] at hf
                obtain ⟨a, ha, rfl, _⟩ := hf
                refine BitsMarked.visit ?_ ?_ ?_ ha
                · exact g1.same rfl rfl rfl
                · exact (g2 hcv.1).1
                · exact (g2 hcv.1).2
              · simp at hf; rw [← hf.1]; exact g1.same rfl rfl rfl
          · simp at hf; rw [← hf.1]; exact g1.same rfl rfl rfl
  err st h := h.same rfl rfl rfl

theorem checkExhausted_keeps_events {count : Nat} {st st' : FH V} (h : st.checkExhausted count = some st') : st'.events = st.events := by
  unfold FH.checkExhausted at h
  dsimp only at h
  generalize (if count ≥ 64 then 2 ^ 64 - 1 else 1 <<< count - 1) = m at h
  split at h
  · simp at h; rw [← h]; rfl
  · split at h
    · simp at h; rw [← h]
    · split at h
      · cases h
      · split at h
        · simp at h; rw [← h]; rfl
        · split at h
          · cases h
          · split at h
            · simp at h; rw [← h]; rfl
            · simp at h; rw [← h]

/-- Whatever the number of arguments, none is read twice. -/
theorem general_nodup {env : Env V} {fmt src : List Nat} {st : FH V} (h : vscanGeneral env fmt src = some st) : (visits st.events).Nodup := by
  unfold vscanGeneral at h
  split at h
  · cases h
  · rename_i st1 h1
    have g := parseLoop_inv (bitsMarked_preserved env) _ _ _ _ (by simp [BitsMarked, FH.init, visits]) h1
    rw [checkExhausted_keeps_events h]
    exact g.1

/-! ### What happens at the end -/

theorem upperLoop_full (l : List Nat) : ∀ c : Int, (∀ b ∈ l, b = 255) → upperLoop l c = some (c - 8 * l.length) := by
  induction l with
  | nil => intro c _; simp [upperLoop]
  | cons b bs ih =>
    intro c h
    rw [upperLoop, if_neg (by simp [h b (by simp)]), ih _ (fun x hx => h x (by simp [hx]))]
    simp only [List.length_cons]
    congr 1; omega

/-- All arguments read, and their number is a multiple of 8: undefined for 64, an error for more. -/
theorem checkExhausted_all {count : Nat} {auto : Bool} {seen : List Nat} {st : FH V} (h64 : 64 ≤ count) (h8 : count % 8 = 0)
    (hm : Midway auto ((count - 64) / 8) seen st) (hall : ∀ i, i < count → i ∈ seen) :
    st.checkExhausted count = if count = 64 then none else some (st.onError .invalidFormatString) := by
  have hlow : st.lower = 2 ^ 64 - 1 := by
    apply Nat.eq_of_testBit_eq
    intro j
    rw [hm.lower, Nat.testBit_two_pow_sub_one]
    congr 1
    exact propext ⟨fun h => h.2, fun h => ⟨hall j (by omega), h⟩⟩
  have hup : ∀ b ∈ st.upper, b = 255 := by
    intro b hb
    obtain ⟨i, hi, rfl⟩ := List.getElem_of_mem hb
    apply Nat.eq_of_testBit_eq
    intro j
    have hlen := hm.len
    rw [hm.upper i _ (List.getElem?_eq_getElem hi), show (255 : Nat) = 2 ^ 8 - 1 from rfl, Nat.testBit_two_pow_sub_one]
    congr 1
    exact propext ⟨fun h => h.2, fun h => ⟨hall _ (by omega), h⟩⟩
  unfold FH.checkExhausted
  dsimp only
  rw [if_pos h64, if_neg (by simp [hlow]), if_neg (by omega)]
  have hlen := hm.len
  cases hl : st.upper.getLast? with
  | none =>
    have : st.upper = [] := by simpa using hl
    rw [this] at hlen
    simp only [List.length_nil] at hlen
    rw [if_pos (by omega)]
  | some last =>
    have hne : st.upper ≠ [] := by intro h; rw [h] at hl; cases hl
    have hpos := List.length_pos_iff.2 hne
    dsimp only
    rw [upperLoop_full _ _ (fun b hb => hup b (List.dropLast_subset _ hb)), List.length_dropLast, hlen,
      show ((count : Int) - 64 - 8 * (((count - 64) / 8 - 1 : Nat) : Int)) = 8 by omega, if_neg (by omega)]
    dsimp only
    rw [show lastMask 8 = some (-1) from by decide]
    dsimp only
    rw [if_pos (by omega)]

/-! ### Arguments without a byte -/

/-- A field for an argument without a byte of its own. -/
theorem callField_out {env : Env V} {auto : Bool} {k : Nat} {seen : List Nat} {st : FH V} {f : CallField V} (hm : Midway auto k seen st)
    (hid : f.id < env.count) (hk : 64 + 8 * k ≤ f.id) (hmax : f.id ≤ intMax) (hauto : auto = true → f.id = seen.length) (rest : List Nat) :
    parseField (runHandler env) st ((f.text auto).tail ++ rest) = none := by
  have hstep : (idStep auto st f.id).2 = f.id := by
    unfold idStep
    cases auto with
    | true =>
      simp only [if_true]
      have := hm.next
      simp only [if_true] at this
      rw [this, hauto rfl]
      unfold nextArgId
      rw [if_neg (by omega)]
      simp
    | false => rfl
  rw [parseField_call env auto st f hmax, hstep]
  have h := enter_out (env := env) hid hk hm (idStep auto st f.id).1 (mixedStep auto st)
  cases f.spec with
  | none =>
    dsimp only
    unfold FH.onField
    rw [h]; rfl
  | some t =>
    dsimp only
    unfold FH.onSpecs
    rw [h]

theorem calls_out {env : Env V} {auto : Bool} {k : Nat} {last : List Nat} (hmax : env.count ≤ intMax) (fs : List (CallField V)) :
    ∀ (n : Nat) (seen : List Nat) (st : FH V) (vs : List (Nat × V)) (r : List Nat), Ready env auto seen fs → Midway auto k seen st → st.err = none →
      fs.length < n → inOrder (litStep env) fs last st.src = .ok (vs, r) → (∃ f ∈ fs, 64 + 8 * k ≤ f.id) →
      parseLoop (runHandler env) n st (callFormat auto fs last) = none := by
  induction fs with
  | nil => rintro n seen st vs r _ hm he hn h ⟨f, hf, _⟩; cases hf
  | cons f fs ih =>
    intro n seen st vs r hr hm he hn h hex
    obtain ⟨n, rfl⟩ : ∃ k, n = k + 1 := ⟨n - 1, by simp at hn; omega⟩
    simp only [List.length_cons] at hn
    obtain ⟨hf, hg, hid, hfresh, hauto, hr'⟩ := hr
    rw [callFormat_cons, parseLoop_open _ _ _ hg]
    simp only [inOrder] at h
    cases hlit : litStep env f.gap st.src with
    | ub => rw [hlit] at h; cases h
    | err e => rw [hlit] at h; cases h
    | ok s1 =>
      rw [hlit, Res.bind_ok] at h
      rw [show (runHandler env).onLiteral st f.gap = _ from onLiteral_ok hlit]
      dsimp only
      by_cases hk : 64 + 8 * k ≤ f.id
      · rw [callField_out (st := { st with src := s1, events := st.events ++ [Event.literal f.gap st.src s1 none] })
          (midway_same hm _ rfl rfl rfl rfl) hid hk (by omega) hauto (callFormat auto fs last)]
      · obtain ⟨st1, k1, k2, k3, k4, k5⟩ := callField_ok (st := { st with src := s1, events := st.events ++ [Event.literal f.gap st.src s1 none] })
          (midway_same hm _ rfl rfl rfl rfl) he hf hid (by omega) (by omega) hfresh hauto (callFormat auto fs last)
        rw [k5]
        dsimp only at k3 k4 ⊢
        cases hrd : f.read s1 with
        | ub => rw [hrd] at h; cases h
        | err e => rw [hrd] at h; cases h
        | ok a =>
          obtain ⟨v, s2⟩ := a
          rw [hrd, Res.bind_ok] at h
          dsimp only at h
          cases hrec : inOrder (litStep env) fs last s2 with
          | ub => rw [hrec] at h; cases h
          | err e => rw [hrec] at h; cases h
          | ok q =>
            simp only [FH.onVisit, Option.map_some]
            rw [if_neg (by simp [runHandler, k2])]
            refine ih n (f.id :: seen) { st1 with src := s2, events := st1.events ++ [Event.visit f.id st1.src (.ok (v, s2))] }
              q.1 q.2 hr' (midway_same k1 _ rfl rfl rfl rfl) k2 (by omega) hrec ?_
            obtain ⟨g, hg1, hg2⟩ := hex
            rcases List.mem_cons.1 hg1 with rfl | hg1
            · exact absurd hg2 hk
            · exact ⟨g, hg1, hg2⟩

theorem numbered_covers {auto : Bool} {ids : List Nat} {count : Nat} (h : Numbered auto ids count) {i : Nat} (hi : i < count) : i ∈ ids := by
  by_cases hin : i ∈ ids
  · exact hin
  · exfalso
    have h1 := List.Nodup.length_le_of_subset (List.nodup_cons.2 ⟨hin, h.nodup⟩) (l₂ := List.range count) (by
      intro j hj
      rcases List.mem_cons.1 hj with rfl | hj
      · exact List.mem_range.2 hi
      · exact List.mem_range.2 (h.below j hj))
    have := h.all
    simp only [List.length_range, List.length_cons] at h1
    omega

/-- A call for 64 or more arguments all of whose fields and texts read. -/
theorem many_all {env : Env V} {auto : Bool} {fs : List (CallField V)} {last : List Nat} (hl : NoBrace last) (h64 : 64 ≤ env.count)
    (hmax : env.count ≤ intMax) (h1 : ∀ f ∈ fs, FieldMeans env f ∧ NoBrace f.gap) (h2 : Numbered auto (fs.map fun f => f.id) env.count) {src : List Nat}
    {vs : List (Nat × V)} {r : List Nat} (h : inOrder (litStep env) fs last src = .ok (vs, r)) :
    if env.count = 64 ∨ env.count % 8 ≠ 0 then vscanGeneral env (callFormat auto fs last) src = none
    else ∃ st, vscanGeneral env (callFormat auto fs last) src = some st ∧ st.err = some .invalidFormatString ∧ st.src = r ∧ stored st.events = vs := by
  by_cases h8 : env.count % 8 = 0
  · obtain ⟨st, k1, k2, k3, k4, k5⟩ := calls_ok hl (k := (env.count - 64) / 8) (by omega) hmax fs _ []
      (FH.init env.count (callFormat auto fs last) src) vs r (ready_numbered h1 h2) (midway_init _ _ _ _) rfl (calls_fuel auto fs last env.count) h
    have hex := checkExhausted_all h64 h8 k2 (fun i hi => by simpa using numbered_covers h2 hi)
    unfold vscanGeneral
    rw [k1]
    dsimp only
    rw [hex]
    by_cases hc : env.count = 64
    · rw [if_pos (Or.inl hc), if_pos hc]
    · rw [if_neg (by omega), if_neg hc]
      exact ⟨_, rfl, rfl, k4, by show stored st.events = vs; rw [k5]; simp [FH.init, stored]⟩
  · rw [if_pos (Or.inr h8)]
    unfold vscanGeneral
    rw [calls_out (k := (env.count - 64) / 8) hmax fs _ [] (FH.init env.count (callFormat auto fs last) src) vs r (ready_numbered h1 h2)
      (midway_init _ _ _ _) rfl (calls_fuel auto fs last env.count) h]
    have := numbered_covers h2 (i := env.count - 1) (by omega)
    obtain ⟨f, hf, he⟩ := List.mem_map.1 this
    exact ⟨f, hf, by omega⟩

end Scn
