import Verif.Model.Buffer
/-
The buffer invariant: putback area, current view and what is still to be filled are the source.
-/
namespace Scn

/-- All characters of the source behind a buffer. -/
def Buf.whole (b : Buf) : List Nat := b.putback ++ b.view ++ b.pending.flatten

/-- Sources never deliver an empty piece before their end. -/
def Buf.Ok (b : Buf) : Prop := ∀ c ∈ b.pending, c ≠ []

/-- `b'` is `b` after some fills. -/
structure Buf.Later (b b' : Buf) : Prop where
  ok : b'.Ok
  kind : b'.kind = b.kind
  whole : b'.whole = b.whole
  available : b.available ≤ b'.available
  pending : b'.pending.length ≤ b.pending.length
  tail : b'.pending <:+ b.pending

theorem Buf.Later.refl {b : Buf} (h : b.Ok) : b.Later b := ⟨h, rfl, rfl, Nat.le_refl _, Nat.le_refl _, List.suffix_refl _⟩

theorem Buf.Later.trans {a b c : Buf} (h : a.Later b) (g : b.Later c) : a.Later c :=
  ⟨g.ok, g.kind.trans h.kind, g.whole.trans h.whole, Nat.le_trans h.available g.available,
    Nat.le_trans g.pending h.pending, g.tail.trans h.tail⟩

theorem Buf.fill_later {b b' : Buf} {r : Bool} (h : b.Ok) (hf : b.fill = (b', r)) :
    b.Later b' ∧ (r = true → b'.pending.length < b.pending.length) ∧ (r = false → b'.pending = [] ∧ b'.available = b.whole.length) := by
  obtain ⟨k, p, v, cs⟩ := b
  unfold Buf.fill at hf
  cases cs with
  | nil =>
    cases k <;> (simp only [Prod.mk.injEq] at hf; obtain ⟨rfl, rfl⟩ := hf) <;>
      exact ⟨⟨by simp [Buf.Ok], rfl, by simp [Buf.whole], by simp [Buf.available], Nat.le_refl _,
        List.suffix_refl _⟩, by simp, fun _ => ⟨rfl, by simp [Buf.whole, Buf.available]⟩⟩
  | cons c cs =>
    have hc : c ≠ [] := h c (by simp)
    simp only [Prod.mk.injEq] at hf
    obtain ⟨rfl, rfl⟩ := hf
    refine ⟨⟨fun d hd => h d (by simp only [List.mem_cons]; exact Or.inr hd), rfl, by simp [Buf.whole], by simp [Buf.available],
      by simp, List.suffix_cons _ _⟩, by simp, ?_⟩
    simp [hc]

theorem Buf.whole_length (b : Buf) : b.whole.length = b.available + b.pending.flatten.length := by
  simp [Buf.whole, Buf.available, Nat.add_assoc]

theorem Buf.readAtAux_spec (n : Nat) : ∀ (b : Buf) (pos : Nat), b.Ok → b.pending.length + 2 ≤ n →
    ∃ b', Buf.readAtAux n b pos = some (b', decide (pos < b.whole.length)) ∧ b.Later b' ∧
      (pos < b.whole.length → pos < b'.available) := by
  induction n with
  | zero => intro b pos _ h; omega
  | succ n ih =>
    intro b pos hb hn
    have hwl := b.whole_length
    unfold Buf.readAtAux
    by_cases hp : pos < b.available
    · rw [if_pos hp]
      have : pos < b.whole.length := by omega
      exact ⟨b, by simp [this], Buf.Later.refl hb, fun _ => hp⟩
    · rw [if_neg hp]
      cases hf : b.fill with
      | mk b' r =>
        obtain ⟨hl, ht, hf'⟩ := Buf.fill_later hb hf
        cases r with
        | false =>
          have := (hf' rfl).1
          have hav := (hf' rfl).2
          have hpos : ¬ pos < b.whole.length := by
            have h1 : b.pending = [] := by
              cases hp' : b.pending with
              | nil => rfl
              | cons c cs =>
                exfalso
                have hc : c ≠ [] := hb c (by rw [hp']; simp)
                have := congrArg Prod.snd hf
                simp [Buf.fill, hp', hc] at this
            rw [h1] at hwl
            simp only [List.flatten_nil, List.length_nil] at hwl
            omega
          exact ⟨b', by simp [hpos], hl, fun h => absurd h hpos⟩
        | true =>
          have hlt := ht rfl
          obtain ⟨b'', h1, h2, h3⟩ := ih b' pos hl.ok (by omega)
          rw [hl.whole] at h1 h3
          exact ⟨b'', h1, hl.trans h2, h3⟩

theorem Buf.charAt_whole (b : Buf) (pos : Nat) (h : pos < b.available) : b.charAt pos = b.whole[pos]? := by
  unfold Buf.charAt Buf.whole
  unfold Buf.available at h
  split
  · rename_i hp
    rw [List.append_assoc, List.getElem?_append_left hp]
  · rename_i hp
    rw [List.append_assoc, List.getElem?_append_right (by omega), List.getElem?_append_left (by omega)]

theorem Buf.get_spec (b : Buf) (hb : b.Ok) (pos : Nat) :
    ∃ b', b.get pos = some (b', b.whole[pos]?) ∧ b.Later b' ∧ (pos < b.whole.length → pos < b'.available) := by
  obtain ⟨b', h1, h2, h3⟩ := Buf.readAtAux_spec _ b pos hb (Nat.le_refl _)
  refine ⟨b', ?_, h2, h3⟩
  unfold Buf.get Buf.readAt
  rw [h1]
  by_cases hp : pos < b.whole.length
  · simp only [hp, decide_true]
    rw [b'.charAt_whole pos (h3 hp), h2.whole, List.getElem?_eq_getElem hp]; rfl
  · simp only [hp, decide_false]
    rw [List.getElem?_eq_none (by omega)]

theorem Buf.gets_spec (ps : List Nat) : ∀ (b : Buf), b.Ok →
    ∃ b', b.gets ps = some (b', ps.map fun p => b.whole[p]?) ∧ b.Later b' := by
  induction ps with
  | nil => intro b hb; exact ⟨b, rfl, Buf.Later.refl hb⟩
  | cons p ps ih =>
    intro b hb
    obtain ⟨b1, h1, h2, _⟩ := b.get_spec hb p
    obtain ⟨b2, h3, h4⟩ := ih b1 h2.ok
    rw [h2.whole] at h3
    exact ⟨b2, by simp [Buf.gets, h1, h3], h2.trans h4⟩

theorem Buf.segmentAt_spec (b : Buf) (pos : Nat) (h : pos ≤ b.available) :
    ∃ seg, b.segmentAt pos = some seg ∧ seg <+: b.whole.drop pos := by
  unfold Buf.segmentAt Buf.whole
  unfold Buf.available at h
  split
  · rename_i hp
    refine ⟨_, rfl, ?_⟩
    rw [List.append_assoc, List.drop_append_of_le_length (by omega)]
    exact List.prefix_append _ _
  · rename_i hp
    rw [if_pos (by omega)]
    refine ⟨_, rfl, ?_⟩
    rw [List.append_assoc, List.drop_append, List.drop_eq_nil_of_le (as := b.putback) (by omega), List.nil_append,
      List.drop_append_of_le_length (by omega)]
    exact List.prefix_append _ _

theorem ungetAll_spec : ∀ (cs file : List Nat) (cap : Nat),
    (cs.length ≤ cap → ungetAll cap cs file = (true, cs.reverse ++ file)) ∧
    (cap < cs.length → (ungetAll cap cs file).1 = false) := by
  intro cs
  induction cs with
  | nil => intro file cap; exact ⟨fun _ => by cases cap <;> simp [ungetAll], fun h => by simp at h⟩
  | cons c cs ih =>
    intro file cap
    cases cap with
    | zero => exact ⟨fun h => by simp at h, fun _ => rfl⟩
    | succ cap =>
      obtain ⟨h1, h2⟩ := ih (c :: file) cap
      constructor
      · intro h
        rw [ungetAll, h1 (by simpa using h)]; simp
      · intro h; rw [ungetAll]; exact h2 (by simpa using h)

/-! ### Reference buffers -/

/-- States in which the reference buffer presents what the buffer below it holds (or will after the
    next fill). -/
structure RefBuf.Good (r : RefBuf) : Prop where
  ok : r.other.Ok
  prop : r.propagate = true
  start : r.start ≤ r.other.available
  fwd : r.other.kind = .forward → r.start ≤ r.other.putback.length
  shown : r.presented = (r.other.putback ++ r.other.view).drop r.start ∨
    (r.presented = r.other.putback.drop r.start ∧ r.start ≤ r.other.putback.length ∧ r.other.pending ≠ [])

/-- What the reference buffer should present. -/
def RefBuf.rest (r : RefBuf) : List Nat := r.other.whole.drop r.start

theorem RefBuf.fill_good {r : RefBuf} (h : r.Good) :
    ∃ r' b, r.fill = some (r', b) ∧ r'.Good ∧ r'.start = r.start ∧ r'.rest = r.rest ∧
      (b = true → r'.other.pending.length < r.other.pending.length) ∧
      (b = false → r.presented = r.rest ∧ r'.presented = r.rest) := by
  unfold RefBuf.fill
  rw [if_pos h.prop]
  cases hf : r.other.fill with
  | mk o b =>
    obtain ⟨hl, ht, hf'⟩ := Buf.fill_later h.ok hf
    have hstart : r.start ≤ o.putback.length := by
      have h1 := h.start
      unfold Buf.fill at hf
      unfold Buf.available at h1
      cases hp : r.other.pending with
      | nil =>
        rw [hp] at hf
        cases hk : r.other.kind with
        | forward =>
          have := h.fwd hk
          rw [hk] at hf; simp only [Prod.mk.injEq] at hf; rw [← hf.1]; exact this
        | buffered => rw [hk] at hf; simp only [Prod.mk.injEq] at hf; rw [← hf.1]; simpa using h1
        | unbuffered => rw [hk] at hf; simp only [Prod.mk.injEq] at hf; rw [← hf.1]; simpa using h1
      | cons c cs => rw [hp] at hf; simp only [Prod.mk.injEq] at hf; rw [← hf.1]; simpa using h1
    dsimp only
    rw [if_neg (by omega)]
    have hsh : o.putback.drop r.start ++ o.view = (o.putback ++ o.view).drop r.start := by
      rw [List.drop_append_of_le_length hstart]
    refine ⟨_, _, rfl, ⟨hl.ok, h.prop, Nat.le_trans h.start hl.available, fun _ => hstart, Or.inl hsh⟩, rfl, ?_, ht, ?_⟩
    · show o.whole.drop r.start = _
      rw [hl.whole]; rfl
    · intro hb
      have hp0 := (hf' hb).1
      have hpe : r.other.pending = [] := by
        cases hp : r.other.pending with
        | nil => rfl
        | cons c cs =>
          have hc : c ≠ [] := h.ok c (by rw [hp]; simp)
          have := congrArg Prod.snd hf
          simp [Buf.fill, hp, hc, hb] at this
      constructor
      · rcases h.shown with hs | ⟨_, _, hs⟩
        · rw [hs]; simp [RefBuf.rest, Buf.whole, hpe]
        · exact absurd hpe hs
      · show o.putback.drop r.start ++ o.view = _
        rw [hsh]
        have : o.whole.drop r.start = r.rest := by rw [hl.whole]; rfl
        rw [← this]; simp [Buf.whole, hp0]

theorem RefBuf.presented_prefix {r : RefBuf} (h : r.Good) : r.presented <+: r.rest := by
  rcases h.shown with hs | ⟨hs, hl, _⟩
  · rw [hs]
    unfold RefBuf.rest Buf.whole
    have := h.start
    unfold Buf.available at this
    rw [List.drop_append_of_le_length (l₂ := r.other.pending.flatten) (by simpa using this)]
    exact List.prefix_append _ _
  · rw [hs]
    unfold RefBuf.rest Buf.whole
    rw [List.append_assoc, List.drop_append_of_le_length hl]
    exact List.prefix_append _ _

theorem RefBuf.readAtAux_good (n : Nat) : ∀ (r : RefBuf) (pos : Nat), r.Good → r.other.pending.length + 1 ≤ n →
    ∃ r', RefBuf.readAtAux n r pos = some (r', decide (pos < r.rest.length)) ∧ r'.Good ∧ r'.rest = r.rest ∧
      (pos < r.rest.length → pos < r'.available) := by
  induction n with
  | zero => intro r pos _ h; omega
  | succ n ih =>
    intro r pos hr hn
    have hpre := RefBuf.presented_prefix hr
    have hlen : r.presented.length = r.available := by simp [RefBuf.presented, RefBuf.available]
    have hle := hpre.length_le
    unfold RefBuf.readAtAux
    by_cases hp : pos < r.available
    · rw [if_pos hp]
      exact ⟨r, by simp; omega, hr, rfl, fun _ => hp⟩
    · rw [if_neg hp]
      obtain ⟨r', b, h1, h2, h3, h4, h5, h6⟩ := RefBuf.fill_good hr
      rw [h1]
      cases b with
      | false =>
        have := (h6 rfl).1
        rw [this] at hlen
        have hpos : ¬ pos < r.rest.length := by omega
        exact ⟨r', by simp [hpos], h2, h4, fun h => absurd h hpos⟩
      | true =>
        have := h5 rfl
        obtain ⟨r'', g1, g2, g3, g4⟩ := ih r' pos h2 (by omega)
        rw [h4] at g1 g3 g4
        exact ⟨r'', g1, g2, g3, g4⟩

theorem RefBuf.charAt_presented (r : RefBuf) (pos : Nat) : r.charAt pos = r.presented[pos]? := by
  unfold RefBuf.charAt RefBuf.presented
  split
  · rename_i hp
    rw [List.getElem?_append_left hp]
  · rename_i hp
    rw [List.getElem?_append_right (by omega)]

theorem RefBuf.get_good (r : RefBuf) (h : r.Good) (pos : Nat) :
    ∃ r', r.get pos = some (r', r.rest[pos]?) ∧ r'.Good ∧ r'.rest = r.rest := by
  obtain ⟨r', h1, h2, h3, h4⟩ := RefBuf.readAtAux_good (r.other.pending.length + 3) r pos h (by omega)
  refine ⟨r', ?_, h2, h3⟩
  unfold RefBuf.get
  rw [h1]
  by_cases hp : pos < r.rest.length
  · simp only [hp, decide_true]
    have ha := h4 hp
    rw [r'.charAt_presented pos]
    have hpre := RefBuf.presented_prefix h2
    rw [h3] at hpre
    obtain ⟨t, ht⟩ := hpre
    have : r'.presented[pos]? = r.rest[pos]? := by
      rw [← ht, List.getElem?_append_left (by simpa [RefBuf.presented, RefBuf.available] using ha)]
    rw [this, List.getElem?_eq_getElem hp]; rfl
  · simp only [hp, decide_false]
    rw [List.getElem?_eq_none (by omega)]

theorem RefBuf.gets_good (ps : List Nat) : ∀ (r : RefBuf), r.Good →
    ∃ r', r.gets ps = some (r', ps.map fun p => r.rest[p]?) ∧ r'.Good := by
  induction ps with
  | nil => intro r h; exact ⟨r, rfl, h⟩
  | cons p ps ih =>
    intro r h
    obtain ⟨r1, h1, h2, h3⟩ := r.get_good h p
    obtain ⟨r2, h4, h5⟩ := ih r1 h2
    rw [h3] at h4
    exact ⟨r2, by simp [RefBuf.gets, h1, h4], h5⟩

end Scn
