import Verif.Lemmas.Buffer2
/-
Properties C31 (scan buffers present the source), C32 (reference buffers), C33 (files are left at
the first unconsumed character) and the part of C41 about segments of buffers.
-/
namespace Scn
open Spec

/-! ### C31 -/

/-- C31. Whatever the kind of buffer, however the source is cut into pieces, and whatever positions
    are visited in whatever order, each access gets the character of the source at its position (or
    the end, past the last one). -/
theorem C31_presents_source (k : BufKind) (chunks : List (List Nat)) (hne : ∀ c ∈ chunks, c ≠ []) (ps : List Nat) :
    ∃ b, (Buf.start k chunks).gets ps = some (b, ps.map fun p => chunks.flatten[p]?) := by
  obtain ⟨b, h, _⟩ := Buf.gets_spec ps (Buf.start k chunks) hne
  rw [Buf.start_whole] at h
  exact ⟨b, h⟩

example : ((Buf.start .buffered [[49, 50], [51], [52, 53, 54]]).gets [4, 0, 2, 9, 1]).map (·.2) =
    some [some 53, some 49, some 51, none, some 50] := by
  obtain ⟨b, h⟩ := C31_presents_source .buffered [[49, 50], [51], [52, 53, 54]] (by decide) [4, 0, 2, 9, 1]
  rw [h]; rfl

/-- C31 for segments: after any accesses, the segment at any position read so far is a part of the
    source starting there, and every further access still gets the source. -/
theorem C31_segments (k : BufKind) (chunks : List (List Nat)) (hne : ∀ c ∈ chunks, c ≠ []) (ps qs : List Nat) :
    ∃ b vs, (Buf.start k chunks).gets ps = some (b, vs) ∧
      (∀ pos, pos ≤ b.available → ∃ seg, b.segmentAt pos = some seg ∧ seg <+: chunks.flatten.drop pos) ∧
      ∃ b', b.gets qs = some (b', qs.map fun p => chunks.flatten[p]?) := by
  obtain ⟨b, h, hl⟩ := Buf.gets_spec ps (Buf.start k chunks) hne
  have hw : b.whole = chunks.flatten := hl.whole.trans (Buf.start_whole _ _)
  refine ⟨b, _, h, ?_, ?_⟩
  · intro pos hp
    rw [← hw]; exact b.segmentAt_spec pos hp
  · obtain ⟨b', h', _⟩ := Buf.gets_spec qs b hl.ok
    rw [hw] at h'
    exact ⟨b', h'⟩

example : ((Buf.start .forward [[49], [50], [51]]).gets [1]).map (fun r => (r.1.segmentAt 0, r.1.segmentAt 1, r.1.segmentAt 2)) =
    some (some [49], some [50], some []) := by decide +kernel

/-! ### C32 -/

/-- C32 is violated: a nested scan started in the current view of a buffer that has already been
    refilled sees the view again after its characters (for every such buffer and start position). -/
theorem C32_view_duplicated (b : Buf) (start : Nat) (hp : b.putback ≠ []) (h1 : b.putback.length ≤ start)
    (h2 : start ≤ b.available) :
    ∃ r r', RefBuf.make b start = some r ∧ r.fill = some (r', true) ∧
      r'.presented = b.view.drop (start - b.putback.length) ++ b.view := by
  have hpl : 0 < b.putback.length := List.length_pos_iff.mpr hp
  have hseg : b.segmentAt start = some (b.view.drop (start - b.putback.length)) := by
    unfold Buf.segmentAt
    unfold Buf.available at h2
    rw [if_neg (by omega), if_pos (by omega)]
  have hm : RefBuf.make b start = some ⟨b, start, false, [], b.view.drop (start - b.putback.length)⟩ := by
    rw [RefBuf.make, hseg, decide_eq_true hpl, decide_eq_false (by omega)]; rfl
  exact ⟨_, ⟨b, start, true, b.view.drop (start - b.putback.length), b.view⟩, hm, rfl, rfl⟩

example : ∃ r r', RefBuf.make ⟨.buffered, [49, 50], [51, 52], []⟩ 3 = some r ∧ r.fill = some (r', true) ∧
    r'.presented = [52, 51, 52] :=
  C32_view_duplicated ⟨.buffered, [49, 50], [51, 52], []⟩ 3 (by decide) (by decide) (by decide)

/-- The negation of C32: over the characters `1234`, after the first two have been read one by one, a nested
    scan of the rest sees `2 2 4` instead of `2 3 4`. -/
theorem C32_violated :
    (((Buf.forward [49, 50, 51, 52]).gets [0, 1]).bind fun r => (RefBuf.make r.1 1).bind fun q =>
      (q.gets [0, 1, 2, 3]).map (·.2)) = some [some 50, some 50, some 52, none] ∧
    [0, 1, 2, 3].map (fun p => ([49, 50, 51, 52].drop 1)[p]?) = [some 50, some 51, some 52, none] := by
  decide +kernel

/-- C32 is violated: started in the putback area when the source has no more pieces, a nested scan
    ends before the current view (for every such buffer). -/
theorem C32_view_lost (b : Buf) (start : Nat) (h : start < b.putback.length) (hp : b.pending = []) :
    ∃ r r', RefBuf.make b start = some r ∧ r.get (b.putback.length - start) = some (r', none) := by
  have hseg : b.segmentAt start = some (b.putback.drop start) := by
    unfold Buf.segmentAt; rw [if_pos h]
  have hm : RefBuf.make b start = some ⟨b, start, true, [], b.putback.drop start⟩ := by
    rw [RefBuf.make, hseg, decide_eq_true h, decide_eq_true (by omega)]; rfl
  obtain ⟨o, ho, hol⟩ : ∃ o, b.fill = (o, false) ∧ b.putback.length ≤ o.putback.length := by
    unfold Buf.fill
    rw [hp]
    cases hk : b.kind <;> exact ⟨_, rfl, by simp⟩
  have hf : RefBuf.fill ⟨b, start, true, [], b.putback.drop start⟩ =
      some (⟨o, start, true, o.putback.drop start, o.view⟩, false) := by
    unfold RefBuf.fill
    simp only [if_true, ho]
    rw [if_neg (by omega)]
  refine ⟨_, ⟨o, start, true, o.putback.drop start, o.view⟩, hm, ?_⟩
  unfold RefBuf.get
  have : ∀ n, RefBuf.readAtAux (n + 1) ⟨b, start, true, [], b.putback.drop start⟩ (b.putback.length - start) =
      some (⟨o, start, true, o.putback.drop start, o.view⟩, false) := by
    intro n
    rw [RefBuf.readAtAux, if_neg (by simp [RefBuf.available]), hf]
  rw [this]

example : ∃ r r', RefBuf.make ⟨.forward, [49, 50], [51], []⟩ 1 = some r ∧ r.get 1 = some (r', none) :=
  C32_view_lost ⟨.forward, [49, 50], [51], []⟩ 1 (by decide) rfl

/-- C32 is violated: at the end of a one-character source the nested scan throws
    `std::out_of_range` from `substr` instead of reporting the end. -/
theorem C32_throws :
    (((Buf.forward [49]).gets [0, 1]).bind fun r => (RefBuf.make r.1 1).map fun q => q.get 0) = some none := by
  decide +kernel

/-- C32, where it holds: a nested scan sees exactly the rest of the source if the buffer has not been
    refilled, or if it starts in the putback area and more can be filled; over a forward range it must
    moreover not start behind the only character read. Missing for the full claim: the states of
    `C32_view_duplicated`, `C32_view_lost` and `C32_throws`. -/
theorem C32_nested_partial (b : Buf) (hb : b.Ok) (start : Nat)
    (h : (b.putback = [] ∧ start ≤ b.view.length ∧ (b.kind = .forward → start = 0)) ∨
      (start < b.putback.length ∧ (b.view = [] ∨ b.pending ≠ []))) (ps : List Nat) :
    ∃ r r', RefBuf.make b start = some r ∧ r.gets ps = some (r', ps.map fun p => (b.whole.drop start)[p]?) := by
  have key : ∀ r : RefBuf, r.Good → r.rest = b.whole.drop start →
      ∃ r', r.gets ps = some (r', ps.map fun p => (b.whole.drop start)[p]?) := by
    intro r hr hre
    obtain ⟨r', h1, _⟩ := r.gets_good ps hr
    rw [hre] at h1
    exact ⟨r', h1⟩
  rcases h with ⟨hp, hs, hf⟩ | ⟨hs, hv⟩
  · have hseg : b.segmentAt start = some (b.view.drop start) := by
      unfold Buf.segmentAt; rw [hp]; simp [hs]
    have hm : RefBuf.make b start = some ⟨b, start, true, [], b.view.drop start⟩ := by
      rw [RefBuf.make, hseg, hp]; rfl
    obtain ⟨r', hr⟩ := key ⟨b, start, true, [], b.view.drop start⟩
      ⟨hb, rfl, by simp [Buf.available]; omega, fun hk => by rw [hf hk]; exact Nat.zero_le _, Or.inl (by simp [RefBuf.presented, hp])⟩ rfl
    exact ⟨_, r', hm, hr⟩
  · have hseg : b.segmentAt start = some (b.putback.drop start) := by
      unfold Buf.segmentAt; rw [if_pos hs]
    have hm : RefBuf.make b start = some ⟨b, start, true, [], b.putback.drop start⟩ := by
      rw [RefBuf.make, hseg, decide_eq_true hs, decide_eq_true (by omega)]; rfl
    obtain ⟨r', hr⟩ := key ⟨b, start, true, [], b.putback.drop start⟩
      ⟨hb, rfl, by simp [Buf.available]; omega, fun _ => Nat.le_of_lt hs, by
        rcases hv with hv | hv
        · left; simp [RefBuf.presented, hv]
        · exact Or.inr ⟨by simp [RefBuf.presented], Nat.le_of_lt hs, hv⟩⟩ rfl
    exact ⟨_, r', hm, hr⟩

example : ∃ r r', RefBuf.make ⟨.forward, [49, 50], [51], [[52], [53]]⟩ 1 = some r ∧
    r.gets [2, 0, 3, 4] = some (r', [some 52, some 50, some 53, none]) :=
  C32_nested_partial ⟨.forward, [49, 50], [51], [[52], [53]]⟩ (by simp [Buf.Ok]) 1 (by decide) [2, 0, 3, 4]

/-! ### C33 -/

/-- C33 for files with an accessible buffer: after any accesses, whatever the scan consumed (up to
    what it has read), a following read starts at the first unconsumed character, and after an error
    at the beginning, provided the file takes back what was read in earlier pieces. -/
theorem C33_buffered_partial (chunks : List (List Nat)) (hne : ∀ c ∈ chunks, c ≠ []) (ps : List Nat) (cap : Nat)
    (hcap : chunks.flatten.length ≤ cap) :
    ∃ b vs, (Buf.start .buffered chunks).gets ps = some (b, vs) ∧
      (∀ n, n ≤ b.available → syncAfter cap b (.ok n) = some (.ok n, chunks.flatten.drop n)) ∧
      (∀ e, syncAfter cap b (.err e) = some (.err e, chunks.flatten)) := by
  obtain ⟨b, h, hl⟩ := Buf.gets_spec ps (Buf.start .buffered chunks) hne
  have hw : b.whole = chunks.flatten := hl.whole.trans (Buf.start_whole _ _)
  have hk : b.kind = .buffered := hl.kind
  have hlen := b.whole_length
  have main : ∀ n, n ≤ b.available → b.sync cap n = some (true, chunks.flatten.drop n) := by
    intro n hn
    unfold Buf.sync
    rw [hk]
    dsimp only
    unfold Buf.available at hn hlen
    by_cases hp : n < b.putback.length
    · rw [if_pos hp, (ungetAll_spec _ _ cap).1 (by rw [List.length_reverse, List.length_drop]; rw [hw] at hlen; omega), List.reverse_reverse,
        ← hw, Buf.whole, List.append_assoc, List.drop_append_of_le_length (Nat.le_of_lt hp)]
    · rw [if_neg hp, if_pos (by omega), ← hw, Buf.whole, List.append_assoc, List.drop_append (l₁ := b.putback),
        List.drop_eq_nil_of_le (as := b.putback) (by omega), List.nil_append]
  refine ⟨b, _, h, ?_, ?_⟩
  · intro n hn; rw [syncAfter, main n hn]; rfl
  · intro e; rw [syncAfter, main 0 (Nat.zero_le _)]; rfl

example : ∃ b vs, (Buf.start .buffered [[49, 50], [32, 51]]).gets [2] = some (b, vs) ∧
    syncAfter 9 b (.ok 1) = some (.ok 1, [50, 32, 51]) ∧ syncAfter 9 b (.ok 3) = some (.ok 3, [51]) ∧
    syncAfter 9 b (.err .endOfInput) = some (.err .endOfInput, [49, 50, 32, 51]) := by
  refine ⟨_, _, rfl, ?_⟩
  decide +kernel

/-- C33 for files read character by character: the same if the end of the file has not been met, or
    everything read is consumed. Missing for the full claim: `C33_unbuffered_end_undefined`. -/
theorem C33_unbuffered_partial (s : List Nat) (ps : List Nat) (cap : Nat) (hcap : s.length ≤ cap) :
    ∃ b vs, (Buf.start .unbuffered (s.map fun c => [c])).gets ps = some (b, vs) ∧
      (∀ n, n = b.available ∨ (n < b.available ∧ b.view ≠ []) → syncAfter cap b (.ok n) = some (.ok n, s.drop n)) ∧
      (b.view ≠ [] → ∀ e, syncAfter cap b (.err e) = some (.err e, s)) := by
  have hne : ∀ c ∈ s.map (fun c => [c]), c ≠ [] := by
    intro c hc; obtain ⟨x, _, rfl⟩ := List.mem_map.mp hc; simp
  obtain ⟨b, h, hl⟩ := Buf.gets_spec ps (Buf.start .unbuffered (s.map fun c => [c])) hne
  have hw : b.whole = s := (hl.whole.trans (Buf.start_whole _ _)).trans (flatten_singletons s)
  have hk : b.kind = .unbuffered := hl.kind
  have hlen := b.whole_length
  rw [hw] at hlen
  -- the view never has more than one character
  have hv1 : b.view.length ≤ 1 := by
    have hfill : ∀ b0 : Buf, b0.kind = .unbuffered → (∀ c ∈ b0.pending, c.length = 1) → b0.view.length ≤ 1 →
        (b0.fill.1.kind = .unbuffered ∧ (∀ c ∈ b0.fill.1.pending, c.length = 1) ∧ b0.fill.1.view.length ≤ 1) := by
      intro b0 hk0 hp0 hv0
      unfold Buf.fill
      split
      · rename_i hpe
        rw [hk0]; exact ⟨rfl, fun c hc => hp0 c hc, by simp⟩
      · rename_i c cs hpe
        rw [hpe] at hp0
        exact ⟨hk0, fun d hd => hp0 d (by simp only [List.mem_cons]; exact Or.inr hd), Nat.le_of_eq (hp0 c (by simp))⟩
    have haux : ∀ n (b0 b1 : Buf) pos r, b0.kind = .unbuffered ∧ (∀ c ∈ b0.pending, c.length = 1) ∧ b0.view.length ≤ 1 →
        Buf.readAtAux n b0 pos = some (b1, r) → b1.kind = .unbuffered ∧ (∀ c ∈ b1.pending, c.length = 1) ∧ b1.view.length ≤ 1 := by
      intro n
      induction n with
      | zero => intro b0 b1 pos r _ h; simp [Buf.readAtAux] at h
      | succ n ih =>
        intro b0 b1 pos r hi h
        unfold Buf.readAtAux at h
        split at h
        · simp only [Option.some.injEq, Prod.mk.injEq] at h; rw [← h.1]; exact hi
        · have := hfill b0 hi.1 hi.2.1 hi.2.2
          split at h
          · rename_i b2 hf
            rw [hf] at this
            simp only [Option.some.injEq, Prod.mk.injEq] at h; rw [← h.1]; exact this
          · rename_i b2 hf
            rw [hf] at this
            exact ih b2 b1 pos r this h
    have hgets : ∀ (ps : List Nat) (b0 b1 : Buf) vs, b0.kind = .unbuffered ∧ (∀ c ∈ b0.pending, c.length = 1) ∧ b0.view.length ≤ 1 →
        b0.gets ps = some (b1, vs) → b1.view.length ≤ 1 := by
      intro ps
      induction ps with
      | nil => intro b0 b1 vs hi h; simp only [Buf.gets, Option.some.injEq, Prod.mk.injEq] at h; rw [← h.1]; exact hi.2.2
      | cons p ps ih =>
        intro b0 b1 vs hi h
        unfold Buf.gets at h
        split at h
        · simp at h
        · rename_i b2 c hg
          have h2 : b2.kind = .unbuffered ∧ (∀ c ∈ b2.pending, c.length = 1) ∧ b2.view.length ≤ 1 := by
            unfold Buf.get Buf.readAt at hg
            split at hg
            · simp at hg
            · rename_i b3 hr
              simp only [Option.some.injEq, Prod.mk.injEq] at hg; rw [← hg.1]; exact haux _ _ _ _ _ hi hr
            · rename_i b3 hr
              obtain ⟨c, _, hg⟩ := Option.map_eq_some_iff.mp hg
              simp only [Prod.mk.injEq] at hg; rw [← hg.1]; exact haux _ _ _ _ _ hi hr
          obtain ⟨y, hy, h⟩ := Option.map_eq_some_iff.mp h
          simp only [Prod.mk.injEq] at h; rw [← h.1]; exact ih b2 y.1 y.2 h2 hy
    refine hgets ps (Buf.start .unbuffered (s.map fun c => [c])) b _ ⟨rfl, ?_, by simp [Buf.start]⟩ h
    intro c hc; obtain ⟨x, _, rfl⟩ := List.mem_map.mp hc; rfl
  have main : ∀ n, n = b.available ∨ (n < b.available ∧ b.view ≠ []) → b.sync cap n = some (true, s.drop n) := by
    intro n hn
    unfold Buf.sync
    rw [hk]
    dsimp only
    rcases hn with hn | ⟨hn, hv⟩
    · rw [if_pos hn, ← hw, hn]
      unfold Buf.whole Buf.available
      rw [← List.length_append, List.drop_left]
    · rw [if_neg (by omega)]
      cases hvv : b.view with
      | nil => exact absurd hvv hv
      | cons c cs =>
        have : cs = [] := by
          cases cs with
          | nil => rfl
          | cons _ _ => rw [hvv] at hv1; simp at hv1
        subst this
        unfold Buf.available at hn hlen
        rw [hvv] at hn hlen
        simp only [List.length_cons, List.length_nil] at hn hlen
        dsimp only
        rw [if_neg (by omega)]
        obtain ⟨cap', rfl⟩ : ∃ cap', cap = cap' + 1 := ⟨cap - 1, by omega⟩
        dsimp only
        rw [(ungetAll_spec _ _ cap').1 (by rw [List.length_reverse, List.length_drop]; omega), List.reverse_reverse, ← hw, Buf.whole, hvv,
          List.append_assoc, List.drop_append_of_le_length (by omega)]
        rfl
  refine ⟨b, _, h, ?_, ?_⟩
  · intro n hn; rw [syncAfter, main n hn]; rfl
  · intro hv e
    rw [syncAfter, main 0 (Or.inr ⟨?_, hv⟩)]; rfl
    unfold Buf.available
    have := List.length_pos_iff.mpr hv
    omega

example : ∃ b vs, (Buf.start .unbuffered ([49, 50, 32, 51].map fun c => [c])).gets [2] = some (b, vs) ∧
    syncAfter 9 b (.ok 2) = some (.ok 2, [32, 51]) ∧
    syncAfter 9 b (.err .invalidScannedValue) = some (.err .invalidScannedValue, [49, 50, 32, 51]) := by
  refine ⟨_, _, rfl, ?_⟩
  decide +kernel

/-- C33 is violated for files read character by character: once the end of the file has been met,
    giving back anything (in particular after every failed scan of a nonempty file) violates a
    precondition and takes the front of an empty view. -/
theorem C33_unbuffered_end_undefined (s : List Nat) (n cap : Nat) (hn : n < s.length) :
    ∃ b vs, (Buf.start .unbuffered (s.map fun c => [c])).gets [s.length] = some (b, vs) ∧
      b.sync cap n = none ∧ ∀ e, syncAfter cap b (.err e) = none := by
  have hne : ∀ c ∈ s.map (fun c => [c]), c ≠ [] := by
    intro c hc; obtain ⟨x, _, rfl⟩ := List.mem_map.mp hc; simp
  have haux : ∀ (m : Nat) (t : List Nat) (b : Buf), b.kind = .unbuffered → b.pending = t.map (fun c => [c]) →
      b.available + t.length = s.length → t.length + 2 ≤ m →
      ∃ b', Buf.readAtAux m b s.length = some (b', false) ∧ b'.kind = .unbuffered ∧ b'.view = [] ∧ b'.available = s.length := by
    intro m
    induction m with
    | zero => intro t b _ _ _ h; omega
    | succ m ih =>
      intro t b hk hp ha hm
      unfold Buf.readAtAux
      rw [if_neg (by omega)]
      cases t with
      | nil =>
        have hf : b.fill = ({ b with putback := b.putback ++ b.view, view := [] }, false) := by
          unfold Buf.fill; rw [hp, hk]; rfl
        rw [hf]
        refine ⟨_, rfl, hk, rfl, ?_⟩
        unfold Buf.available at ha ⊢
        simpa using ha
      | cons c t =>
        have hf : b.fill = ({ b with putback := b.putback ++ b.view, view := [c], pending := t.map fun c => [c] }, true) := by
          unfold Buf.fill; rw [hp]; rfl
        rw [hf]
        refine ih t _ hk rfl ?_ (by simp at hm; omega)
        unfold Buf.available at ha ⊢
        simp at ha ⊢; omega
  obtain ⟨b, h1, h2, h3, h4⟩ := haux (s.length + 2) s (Buf.start .unbuffered (s.map fun c => [c])) rfl rfl
    (by simp [Buf.start, Buf.available]) (Nat.le_refl _)
  have hs : ∀ n, n < s.length → b.sync cap n = none := by
    intro n hn
    unfold Buf.sync
    rw [h2]
    dsimp only
    rw [if_neg (by omega), h3]
  refine ⟨b, [none], ?_, hs n hn, ?_⟩
  · have : (Buf.start .unbuffered (s.map fun c => [c])).get s.length = some (b, none) := by
      unfold Buf.get Buf.readAt
      rw [show (Buf.start .unbuffered (s.map fun c => [c])).pending.length + 2 = s.length + 2 by simp [Buf.start], h1]
    rw [Buf.gets, this]; rfl
  · intro e; rw [syncAfter, hs 0 (by omega)]; rfl

example : ∃ b vs, (Buf.start .unbuffered ([97, 98].map fun c => [c])).gets [2] = some (b, vs) ∧
    b.sync 9 1 = none ∧ ∀ e, syncAfter 9 b (.err e) = none :=
  C33_unbuffered_end_undefined [97, 98] 1 9 (by decide)

/-- What is lost is reported: if the file takes back too little, the scan's result becomes
    `invalid_source_state`. -/
theorem C33_failure_reported (b : Buf) (hk : b.kind = .buffered) (cap n : Nat) (hn : n < b.putback.length)
    (hcap : cap < b.putback.length - n) :
    (syncAfter cap b (.ok n)).map (·.1) = some (.err .invalidSourceState) := by
  unfold syncAfter Buf.sync
  rw [hk]
  dsimp only
  rw [if_pos hn]
  have := (ungetAll_spec (b.putback.drop n).reverse (b.view ++ b.pending.flatten) cap).2
    (by rw [List.length_reverse, List.length_drop]; exact hcap)
  simp [this]

example : (syncAfter 1 ⟨.buffered, [49, 50, 51], [52], []⟩ (.ok 1)).map (·.1) = some (.err .invalidSourceState) :=
  C33_failure_reported _ rfl 1 1 (by decide) (by decide)

/-! ### C41: segments of a buffer -/

/-- C41 is violated: in a non-contiguous source read character by character, a default integer field
    at a position that has been looked at (as every position is after the whitespace before it was
    skipped, or the previous field ended there) reads a single digit, whatever follows. -/
theorem C41_later_fields_truncated (T : IntTy) (hT : T.Std) (s ps : List Nat) (pos c : Nat) (h1 : 48 ≤ c) (h2 : c ≤ 57)
    (hs : s[pos]? = some c) (hmem : pos ∈ ps) (hle : ∀ p ∈ ps, p ≤ pos) :
    ∃ b vs, (Buf.forward s).gets ps = some (b, vs) ∧
      defaultArg (intField .utf8 T) b pos (s.drop pos) = .ok (((c - 48 : Nat) : Int), pos + 1) := by
  obtain ⟨b, vs, hg, hp, hv⟩ := Buf.forward_touched s ps pos c hs hmem hle
  refine ⟨b, vs, hg, ?_⟩
  unfold defaultArg Buf.segmentAt Buf.segmentContiguous
  rw [if_neg (by omega), if_pos (by omega), hv, hp, Nat.sub_self]
  simp only [List.drop_zero]
  rw [if_pos (by simp), intField_digit T hT c h1 h2]
  rfl

/-- The negation of C41: in `12 34` the second field is 3 in a non-contiguous source and 34 in a string. -/
theorem C41_violated_segment :
    (((Buf.forward [49, 50, 32, 51, 52]).gets [0, 1, 2, 3]).map fun r =>
      defaultArg (intField .utf8 ⟨32, true⟩) r.1 3 [51, 52]) = some (.ok (3, 4)) ∧
    intField .utf8 ⟨32, true⟩ .contiguous [51, 52] = .ok (34, []) := by
  constructor
  · obtain ⟨b, vs, h1, h2⟩ := C41_later_fields_truncated ⟨32, true⟩ (by decide) [49, 50, 32, 51, 52] [0, 1, 2, 3] 3 51
      (by decide) (by decide) rfl (by decide) (by decide)
    rw [h1, Option.map_some]
    exact congrArg some h2
  · have := C03_roundtrip ⟨true, true⟩ ⟨32, true⟩ (by decide) 10 (by decide) (by decide) 34 (by decide) []
      (by simp [NoDigitFirst]) (by simp) (by simp)
    have ht : intText 10 34 = [51, 52] := by decide +kernel
    have hsk : skipSpace .utf8 .contiguous false [51, 52] = .ok [51, 52] := by decide +kernel
    rw [ht] at this
    unfold intField readIntDefault
    rw [hsk]
    simpa using this

/-- C41, where it holds for integers: the first field of a source nothing has been read of gives the
    same value or error and stops at the same place as in a string (ASCII text without the byte 16 of
    `C07_counterexample`). Missing for the full claim: later fields, see `C41_later_fields_truncated`. -/
theorem C41_first_int_field_partial (T : IntTy) (hT : T.Std) (k : BufKind) (chunks : List (List Nat))
    (h : ∀ c ∈ chunks.flatten, c < 128 ∧ c ≠ 16) :
    defaultArg (intField .utf8 T) (Buf.start k chunks) 0 chunks.flatten =
      (intField .utf8 T .contiguous chunks.flatten).map fun r => (r.1, chunks.flatten.length - r.2.length) := by
  unfold defaultArg Buf.segmentContiguous
  have : (Buf.start k chunks).segmentAt 0 = some [] := rfl
  rw [this]
  dsimp only
  rw [if_neg (by simp), intField_layouts T hT _ h]
  simp

example : (∀ c ∈ ([[32, 49], [50, 51, 32]] : List (List Nat)).flatten, c < 128 ∧ c ≠ 16) := by decide

end Scn
