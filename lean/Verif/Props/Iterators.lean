import Verif.Lemmas.Iterators
/-
C103: the iterators over a source go through it, and are moved like numbers.
-/
namespace Scn

/-- C103, sources in pieces: whatever the kind of buffer, however the source is cut into pieces, and whatever was looked at before,
    a loop from any position to the default sentinel, and a loop over the common range, see what is left of the source from there. -/
theorem C103_buffer (k : BufKind) (chunks : List (List Nat)) (hne : ∀ c ∈ chunks, c ≠ []) (ps : List Nat) {b : Buf} {vs : List (Option Nat)}
    (hb : (Buf.start k chunks).gets ps = some (b, vs)) (p : Nat) (hp : p ≤ chunks.flatten.length) :
    (∃ b', SrcIt.collect (chunks.flatten.length + 1) b ⟨.parent, p⟩ = some (b', chunks.flatten.drop p)) ∧
    ∃ b1 x b', CommonIt.of b ⟨.parent, p⟩ = some (b1, x) ∧
      CommonIt.collect (chunks.flatten.length + 1) b1 x = some (b', chunks.flatten.drop p) := by
  have hs : Sees b .parent chunks.flatten := by
    obtain ⟨b', h, hl⟩ := Buf.gets_spec ps (Buf.start k chunks) hne
    rw [hb] at h
    cases h
    exact ⟨hl.ok, hl.whole.trans (Buf.start_whole _ _)⟩
  obtain ⟨b1, h1, s1⟩ := SrcIt.collect_sees (chunks.flatten.length + 1) hs hp (by omega)
  obtain ⟨b2, h2, s2⟩ := of_sees hs hp
  obtain ⟨b3, h3, _⟩ := CommonIt.collect_sees (chunks.flatten.length + 1) s2 hp (by omega)
  exact ⟨⟨b1, h1⟩, b2, _, b3, h2, h3⟩

example : (SrcIt.collect 7 (Buf.start .buffered [[49, 50], [51], [52, 53, 54]]) ⟨.parent, 1⟩).map (·.2) = some [50, 51, 52, 53, 54] := by
  decide +kernel

/-- C103, contiguous sources. -/
theorem C103_view (s : List Nat) (b : Buf) (p : Nat) (hp : p ≤ s.length) :
    (∃ b', SrcIt.collect (s.length + 1) b ⟨.view s, p⟩ = some (b', s.drop p)) ∧
    ∃ b1 x b', CommonIt.of b ⟨.view s, p⟩ = some (b1, x) ∧ CommonIt.collect (s.length + 1) b1 x = some (b', s.drop p) := by
  have hs : Sees b (.view s) s := rfl
  obtain ⟨b1, h1, s1⟩ := SrcIt.collect_sees (s.length + 1) hs hp (by omega)
  obtain ⟨b2, h2, s2⟩ := of_sees hs hp
  obtain ⟨b3, h3, _⟩ := CommonIt.collect_sees (s.length + 1) s2 hp (by omega)
  exact ⟨⟨b1, h1⟩, b2, _, b3, h2, h3⟩

example : (SrcIt.collect 4 (Buf.start .forward []) ⟨.view [49, 50, 51], 1⟩).map (·.2) = some [50, 51] := by decide +kernel

/-- C103, comparing: two common iterators over the same source are equal exactly if they are at the same position, and equal to the
    end exactly if they are behind the last unit; on contiguous sources and on those in pieces, whatever is read in between. -/
theorem C103_equal {b c b' c' : Buf} {o : ItOver} {s : List Nat} (hb : Sees b o s) (hc : Sees c o s) {p q : Nat} (hp : p ≤ s.length)
    (hq : q ≤ s.length) {x y : CommonIt} (hx : CommonIt.of b ⟨o, p⟩ = some (b', x)) (hy : CommonIt.of c ⟨o, q⟩ = some (c', y)) :
    (x.eq y = true ↔ p = q) ∧ (x.eq CommonIt.last = true ↔ p = s.length) := by
  obtain ⟨b2, h2, _⟩ := of_sees hb hp
  obtain ⟨c2, k2, _⟩ := of_sees hc hq
  rw [hx] at h2
  rw [hy] at k2
  cases h2
  cases k2
  constructor
  · unfold CommonIt.eq
    dsimp only
    by_cases h1 : p = s.length <;> by_cases h3 : q = s.length
    · simp [h1, h3]
    · simp [h1, h3]; omega
    · simp [h1, h3]
    · simp [h1, h3]
  · unfold CommonIt.eq CommonIt.last
    dsimp only
    by_cases h1 : p = s.length <;> simp [h1]

example : Sees (Buf.start .unbuffered [[49], [50]]) .parent [49, 50] ∧
    (CommonIt.of (Buf.start .unbuffered [[49], [50]]) ⟨.parent, 2⟩).map (·.2.isEnd) = some true := by
  refine ⟨⟨?_, by decide⟩, by decide +kernel⟩
  unfold Buf.Ok
  decide

/-- `++it`, `n` times. -/
def SrcIt.incs : Nat → Buf → SrcIt → Option (Buf × SrcIt)
  | 0, b, it => some (b, it)
  | n + 1, b, it =>
    match it.inc b with
    | none => none
    | some (b, it) => SrcIt.incs n b it

/-- C103, batches: advancing by a batch is incrementing that often, and advancing to a position is advancing by the difference. -/
theorem C103_batch {o : ItOver} {s : List Nat} (n : Nat) : ∀ {b : Buf} (_ : Sees b o s) (p : Nat),
    (∃ b', SrcIt.incs n b ⟨o, p⟩ = (SrcIt.batchAdvance n ⟨o, p⟩).map fun it => (b', it)) ∧
    SrcIt.batchAdvanceTo (p + n) ⟨o, p⟩ = SrcIt.batchAdvance n ⟨o, p⟩ := by
  have hto : ∀ p n : Nat, SrcIt.batchAdvanceTo (p + n) ⟨o, p⟩ = SrcIt.batchAdvance n ⟨o, p⟩ := by
    intro p n
    unfold SrcIt.batchAdvanceTo SrcIt.batchAdvance
    rw [if_pos (by show (p : Int) ≤ p + n; omega), if_pos (by omega)]
    congr 2
  have hadv : ∀ p n : Nat, SrcIt.batchAdvance n ⟨o, p⟩ = some ⟨o, p + n⟩ := by
    intro p n
    unfold SrcIt.batchAdvance
    rw [if_pos (by omega)]
    rfl
  suffices h : ∀ (n : Nat) {b : Buf}, Sees b o s → ∀ p, ∃ b', SrcIt.incs n b ⟨o, p⟩ = some (b', ⟨o, p + n⟩) by
    intro b hb p
    obtain ⟨b', h'⟩ := h n hb p
    exact ⟨⟨b', by rw [h', hadv]; rfl⟩, hto p n⟩
  intro n
  induction n with
  | zero => intro b _ p; exact ⟨b, rfl⟩
  | succ n ih =>
    intro b hb p
    obtain ⟨b1, h1, s1⟩ := inc_sees hb p
    obtain ⟨b2, h2⟩ := ih s1 (p + 1)
    refine ⟨b2, ?_⟩
    unfold SrcIt.incs
    rw [h1]
    dsimp only
    rw [h2, show p + 1 + n = p + (n + 1) by omega]

example : (SrcIt.incs 3 (Buf.start .unbuffered [[49], [50], [51]]) ⟨.parent, 0⟩).map (·.2) = some ⟨.parent, 3⟩ := by decide +kernel

/-- C103, `advance(i, n)` and `next(i, n)`: for every kind of iterator, the position is moved by `n`, if that is in the range (and
    `n` is not negative if iterators only go forward). -/
theorem C103_advance (k : ItKind) (N i j : Nat) (n : Int) (hi : i ≤ N) (hj : j ≤ N) (hn : (j : Int) = i + n) (hf : k = .forward → 0 ≤ n) :
    advanceBy k N n i = some j := by
  cases k with
  | random =>
    show (if _ then _ else _) = _
    rw [if_pos (by omega), ← hn]
    rfl
  | bidirectional =>
    show (if 0 < n then stepUp N n.toNat i else stepDown (-n).toNat i) = _
    by_cases h : 0 < n
    · rw [if_pos h, stepUp_spec N _ i hi, if_pos (by omega)]
      congr 1; omega
    · rw [if_neg h, stepDown_spec, if_pos (by omega)]
      congr 1; omega
  | forward =>
    have := hf rfl
    show stepUp N n.toNat i = _
    rw [stepUp_spec N _ i hi, if_pos (by omega)]
    congr 1; omega

example : advanceBy .bidirectional 9 (-3) 5 = some 2 ∧ advanceBy .forward 9 4 5 = some 9 := by decide

/-- C103, `advance(i, bound)` and `next(i, bound)` with a sentinel that is not an iterator: the bound is reached. -/
theorem C103_to (N bound i : Nat) (hb : bound ≤ N) (hi : i ≤ bound) : walkTo N bound (N + 1) i = some bound :=
  walkTo_spec N bound hb _ i hi (by omega)

example : walkTo 9 7 10 3 = some 7 := by decide

/-- C103, `advance(i, n, bound)` forward: for every kind of iterator and of sentinel, `i` is moved by `n`, but not beyond the bound; the
    result is what is left of `n`. -/
theorem C103_bounded (k : ItKind) (sized : Bool) (N bound i : Nat) (n : Nat) (hi : i ≤ bound) (hb : bound ≤ N) :
    advanceBounded k sized N n bound i = some (min (i + n) bound, n - ((min (i + n) bound : Nat) - (i : Int))) := by
  unfold advanceBounded advanceSteps
  cases sized with
  | true =>
    rw [if_pos rfl]
    by_cases h : ((bound : Int) - i).natAbs ≤ (n : Int).natAbs
    · rw [if_pos h, Nat.min_eq_right (by omega)]; rfl
    · rw [if_neg h, C103_advance k N i (i + n) n (by omega) (by omega) (by omega) (fun _ => by omega), Nat.min_eq_left (by omega)]
      show some (i + n, (n : Int) - n) = _
      congr 2
      omega
  | false =>
    rw [if_neg (by decide), if_neg (by omega)]
    have := boundedUp_spec N bound n i 0 hi hb
    rw [show ((n : Int).toNat) = n from rfl, this]
    simp only [Option.map_some, Int.zero_add]

example : advanceBounded .forward false 9 5 7 4 = some (7, 2) ∧ advanceBounded .random true 9 2 7 4 = some (6, 0) := by decide

/-- C103, `advance(i, n, bound)` backward, if the bound is not reached already. -/
theorem C103_bounded_back_partial (k : ItKind) (hk : k ≠ .forward) (sized : Bool) (N bound i : Nat) (n : Nat) (hn : 0 < n) (hb : bound < i) (hi : i ≤ N) :
    advanceBounded k sized N (-(n : Int)) bound i = some (max (i - n) bound, -(n : Int) + ((i : Int) - (max (i - n) bound : Nat))) := by
  unfold advanceBounded advanceSteps
  cases sized with
  | true =>
    rw [if_pos rfl]
    by_cases h : ((bound : Int) - i).natAbs ≤ (-(n : Int)).natAbs
    · rw [if_pos h, Nat.max_eq_right (by omega)]
      show some (bound, -(n : Int) - (bound - i)) = _
      congr 2
      omega
    · rw [if_neg h, C103_advance k N i (i - n) (-(n : Int)) (by omega) (by omega) (by omega) (fun h => absurd h hk), Nat.max_eq_left (by omega)]
      show some (i - n, -(n : Int) - -(n : Int)) = _
      congr 2
      omega
  | false =>
    rw [if_neg (by decide), if_pos ⟨hk, by omega⟩]
    have := boundedDown_spec bound n i 0 hn hb
    rw [show (-(n : Int)).natAbs = n by omega, this]
    simp only [Option.map_some, Int.zero_add]
    congr 2
    omega

example : advanceBounded .bidirectional false 9 (-5) 2 4 = some (2, -3) ∧ advanceBounded .random true 9 (-5) 2 4 = some (2, -3) := by decide

/-- C103 is violated: moved backward by any `n` from the bound, with a sentinel that cannot be subtracted, the iterator goes one beyond the
    bound (with one that can be, it stays); at the begin of the range that is undefined. -/
theorem C103_violated_bound (N bound : Nat) (n : Nat) (hn : 0 < n) (hb : bound ≤ N) :
    advanceBounded .bidirectional true N (-(n : Int)) bound bound = some (bound, -(n : Int)) ∧
    (bound = 0 → advanceBounded .bidirectional false N (-(n : Int)) bound bound = none) ∧
    (0 < bound → n = 1 → advanceBounded .bidirectional false N (-(n : Int)) bound bound = some (bound - 1, 0)) ∧
    (0 < bound → ∀ r, advanceBounded .bidirectional false N (-(n : Int)) bound bound = some r → r.1 < bound) := by
  have hdown : ∀ (n i : Nat) (c : Int) (r : Nat × Int), 0 < n → i ≤ bound → boundedDown bound n i c = some r → r.1 < i := by
    intro n
    induction n with
    | zero => intro i c r h; omega
    | succ n ih =>
      intro i c r _ hi h
      cases i with
      | zero => cases h
      | succ i =>
        unfold boundedDown at h
        split at h
        · cases h; exact Nat.lt_succ_self i
        · have := ih i (c - 1) r (by omega) (by omega) h
          omega
  have he : advanceSteps .bidirectional false N (-(n : Int)) bound bound = boundedDown bound n bound 0 := by
    unfold advanceSteps
    rw [if_neg (by decide), if_pos ⟨by decide, by omega⟩, show (-(n : Int)).natAbs = n by omega]
  refine ⟨?_, ?_, ?_, ?_⟩
  · unfold advanceBounded advanceSteps
    rw [if_pos rfl, if_pos (by omega)]
    show some (bound, -(n : Int) - (bound - bound)) = _
    congr 2
    omega
  · intro h
    unfold advanceBounded
    rw [he, h]
    obtain ⟨m, rfl⟩ : ∃ m, n = m + 1 := ⟨n - 1, by omega⟩
    rfl
  · intro h h1
    unfold advanceBounded
    rw [he, h1]
    obtain ⟨m, rfl⟩ : ∃ m, bound = m + 1 := ⟨bound - 1, by omega⟩
    rfl
  · intro h r hr
    unfold advanceBounded at hr
    rw [he] at hr
    obtain ⟨q, hq, rfl⟩ := Option.map_eq_some_iff.1 hr
    exact hdown n bound 0 q hn (Nat.le_refl _) hq

example : advanceBounded .bidirectional false 9 (-2) 4 4 = some (2, 0) := by decide

/-- C103, `distance`: with and without subtraction, the number of elements in between. -/
theorem C103_distance (sized : Bool) (N first last : Nat) (hf : first ≤ last) (hl : last ≤ N) :
    iterDistance sized N first last = some ((last : Int) - first) := by
  unfold iterDistance
  cases sized with
  | true => rfl
  | false =>
    rw [if_neg (by decide), countTo_spec N last hl (N + 1) first 0 hf (by omega)]
    simp

example : iterDistance false 9 3 7 = some 4 := by decide

/-- C103, `prev_backtrack`: the position before, if the begin is at position 0 or there are no batches. -/
theorem C103_previous_partial (k : ItKind) (batch : Bool) (N it beg : Nat) (hb : beg < it) (hi : it ≤ N) (h0 : batch = true → beg = 0) :
    prevBacktrack k batch N it beg = some (it - 1) := by
  unfold prevBacktrack
  by_cases hk : k ≠ .forward
  · rw [if_pos hk, if_neg (by omega)]
  · rw [if_neg hk]
    cases batch with
    | true => rw [if_pos rfl, if_neg (by omega), h0 rfl, Nat.zero_add]
    | false =>
      rw [if_neg (by decide), if_neg (by omega)]
      exact backtrackLoop_spec N it hi (N + 1) beg hb (by omega)

example : prevBacktrack .forward false 9 7 3 = some 6 ∧ prevBacktrack .forward true 9 7 0 = some 6 := by decide

/-- C103 is violated: for iterators of a buffer that do not begin at position 0, `prev_backtrack` goes too far. -/
theorem C103_violated_previous (N it beg : Nat) (h0 : 0 < beg) (hb : beg < it) :
    prevBacktrack .forward true N it beg = some (it - 1 + beg) ∧ it - 1 < it - 1 + beg := by
  refine ⟨?_, by omega⟩
  unfold prevBacktrack
  rw [if_neg (by decide), if_pos rfl, if_neg (by omega), Nat.add_comm]

example : prevBacktrack .forward true 9 7 3 = some 9 := by decide

/-- C103, `less_backtrack`: with and without comparison, the order of the positions. -/
theorem C103_less (ordered : Bool) (N lhs rhs beg : Nat) (h1 : beg ≤ lhs) (h2 : beg ≤ rhs) (h3 : lhs ≤ N) :
    lessBacktrack ordered N lhs rhs beg = some (decide (lhs < rhs)) := by
  unfold lessBacktrack
  cases ordered with
  | true => rfl
  | false =>
    rw [if_neg (by decide)]
    exact lessLoop_spec N lhs rhs h3 (N + 1) beg h1 h2 (by omega)

example : lessBacktrack false 9 4 7 2 = some true ∧ lessBacktrack false 9 7 7 2 = some false := by decide

end Scn
