import Verif.Lemmas.Buffer2
import Verif.Model.Iterators
/-
Iterators over the source and how they are moved.
-/
namespace Scn

/-- The units that iterators see: those of the view, or of the buffer. -/
def Sees (b : Buf) (o : ItOver) (s : List Nat) : Prop :=
  match o with
  | .view t => t = s
  | .parent => b.Ok ∧ b.whole = s

theorem atEnd_sees {b : Buf} {o : ItOver} {s : List Nat} (h : Sees b o s) {pos : Nat} (hp : pos ≤ s.length) :
    ∃ b', SrcIt.atEnd b ⟨o, pos⟩ = some (b', decide (pos = s.length)) ∧ Sees b' o s := by
  cases o with
  | view t =>
    have h' : t = s := h
    subst h'
    refine ⟨b, ?_, rfl⟩
    show (if t.length < pos then none else some (b, pos == t.length)) = _
    rw [if_neg (by omega)]
    by_cases he : pos = t.length <;> simp [he]
  | parent =>
    obtain ⟨hb, rfl⟩ := h
    obtain ⟨b', h1, h2, _⟩ := Buf.readAtAux_spec _ b pos hb (Nat.le_refl _)
    refine ⟨b', ?_, h2.ok, h2.whole⟩
    show (b.readAt pos).map _ = _
    rw [Buf.readAt, h1]
    by_cases he : pos = b.whole.length
    · simp [he]
    · have : pos < b.whole.length := by omega
      simp [he, this]

theorem deref_sees {b : Buf} {o : ItOver} {s : List Nat} (h : Sees b o s) {pos : Nat} (hp : pos < s.length) :
    ∃ b', SrcIt.deref b ⟨o, pos⟩ = some (b', s[pos]) ∧ Sees b' o s := by
  cases o with
  | view t =>
    have h' : t = s := h
    subst h'
    refine ⟨b, ?_, rfl⟩
    show (t[pos]?).map _ = _
    rw [List.getElem?_eq_getElem hp]; rfl
  | parent =>
    obtain ⟨hb, rfl⟩ := h
    obtain ⟨b', h1, h2, h3⟩ := Buf.readAtAux_spec _ b pos hb (Nat.le_refl _)
    refine ⟨b', ?_, h2.ok, h2.whole⟩
    unfold SrcIt.deref
    dsimp only
    rw [Buf.readAt, h1, decide_eq_true hp]
    dsimp only
    rw [b'.charAt_whole pos (h3 hp), h2.whole, List.getElem?_eq_getElem hp]; rfl

theorem inc_sees {b : Buf} {o : ItOver} {s : List Nat} (h : Sees b o s) (pos : Nat) :
    ∃ b', SrcIt.inc b ⟨o, pos⟩ = some (b', ⟨o, pos + 1⟩) ∧ Sees b' o s := by
  cases o with
  | view t => exact ⟨b, rfl, h⟩
  | parent =>
    obtain ⟨hb, rfl⟩ := h
    obtain ⟨b', h1, h2, _⟩ := Buf.readAtAux_spec _ b (pos + 1) hb (Nat.le_refl _)
    refine ⟨b', ?_, h2.ok, h2.whole⟩
    show (b.readAt (pos + 1)).map _ = _
    rw [Buf.readAt, h1]; rfl

theorem of_sees {b : Buf} {o : ItOver} {s : List Nat} (h : Sees b o s) {pos : Nat} (hp : pos ≤ s.length) :
    ∃ b', CommonIt.of b ⟨o, pos⟩ = some (b', ⟨some ⟨o, pos⟩, decide (pos = s.length)⟩) ∧ Sees b' o s := by
  obtain ⟨b', h1, h2⟩ := atEnd_sees h hp
  exact ⟨b', by unfold CommonIt.of; rw [h1]; rfl, h2⟩

theorem SrcIt.collect_sees : ∀ (n : Nat) {b : Buf} {o : ItOver} {s : List Nat} {pos : Nat}, Sees b o s → pos ≤ s.length → s.length - pos < n →
    ∃ b', SrcIt.collect n b ⟨o, pos⟩ = some (b', s.drop pos) ∧ Sees b' o s := by
  intro n
  induction n with
  | zero => intro b o s pos _ _ h; omega
  | succ n ih =>
    intro b o s pos h hp hn
    unfold SrcIt.collect
    obtain ⟨b1, h1, s1⟩ := atEnd_sees h hp
    rw [h1]
    by_cases he : pos = s.length
    · rw [decide_eq_true he]
      exact ⟨b1, by rw [he, List.drop_length], s1⟩
    · have hlt : pos < s.length := by omega
      rw [decide_eq_false he]
      obtain ⟨b2, h2, s2⟩ := deref_sees s1 hlt
      obtain ⟨b3, h3, s3⟩ := inc_sees s2 pos
      obtain ⟨b4, h4, s4⟩ := ih s3 (show pos + 1 ≤ s.length by omega) (by omega)
      dsimp only
      rw [h2]
      dsimp only
      rw [h3]
      dsimp only
      rw [h4]
      exact ⟨b4, by rw [List.drop_eq_getElem_cons hlt]; rfl, s4⟩

theorem CommonIt.collect_sees : ∀ (n : Nat) {b : Buf} {o : ItOver} {s : List Nat} {pos : Nat}, Sees b o s → pos ≤ s.length → s.length - pos < n →
    ∃ b', CommonIt.collect n b ⟨some ⟨o, pos⟩, decide (pos = s.length)⟩ = some (b', s.drop pos) ∧ Sees b' o s := by
  intro n
  induction n with
  | zero => intro b o s pos _ _ h; omega
  | succ n ih =>
    intro b o s pos h hp hn
    unfold CommonIt.collect
    by_cases he : pos = s.length
    · rw [decide_eq_true he]
      exact ⟨b, by rw [he, List.drop_length]; rfl, h⟩
    · have hlt : pos < s.length := by omega
      rw [decide_eq_false he]
      obtain ⟨b2, h2, s2⟩ := deref_sees h hlt
      obtain ⟨b3, h3, s3⟩ := inc_sees s2 pos
      obtain ⟨b4, h4, s4⟩ := of_sees s3 (show pos + 1 ≤ s.length by omega)
      obtain ⟨b5, h5, s5⟩ := ih s4 (show pos + 1 ≤ s.length by omega) (by omega)
      have hinc : CommonIt.inc b2 ⟨some ⟨o, pos⟩, false⟩ = some (b4, ⟨some ⟨o, pos + 1⟩, decide (pos + 1 = s.length)⟩) := by
        unfold CommonIt.inc
        dsimp only
        rw [h3]
        exact h4
      rw [if_neg (by simp [CommonIt.eq, CommonIt.last])]
      dsimp only
      rw [h2]
      dsimp only
      rw [hinc]
      dsimp only
      rw [h5]
      exact ⟨b5, by rw [List.drop_eq_getElem_cons hlt]; rfl, s5⟩

theorem stepUp_spec (N : Nat) : ∀ (n i : Nat), i ≤ N → stepUp N n i = if i + n ≤ N then some (i + n) else none := by
  intro n
  induction n with
  | zero => intro i h; simp [stepUp, h]
  | succ n ih =>
    intro i h
    unfold stepUp
    by_cases hi : i < N
    · rw [if_pos hi, ih (i + 1) hi]
      simp only [show i + 1 + n = i + (n + 1) by omega]
    · rw [if_neg hi, if_neg (by omega)]

theorem stepDown_spec : ∀ (n i : Nat), stepDown n i = if n ≤ i then some (i - n) else none := by
  intro n
  induction n with
  | zero => intro i; simp [stepDown]
  | succ n ih =>
    intro i
    cases i with
    | zero => rfl
    | succ i =>
      unfold stepDown
      rw [ih i]
      simp only [Nat.add_sub_add_right, Nat.add_le_add_iff_right]

theorem boundedUp_spec (N bound : Nat) : ∀ (n i : Nat) (c : Int), i ≤ bound → bound ≤ N →
    boundedUp N bound n i c = some (min (i + n) bound, c + ((min (i + n) bound : Nat) - (i : Int))) := by
  intro n
  induction n with
  | zero => intro i c h _; simp [boundedUp, Nat.min_eq_left h]
  | succ n ih =>
    intro i c h hN
    unfold boundedUp
    by_cases hb : i = bound
    · subst hb
      rw [if_pos rfl, Nat.min_eq_right (by omega)]
      simp
    · rw [if_neg hb, if_pos (by omega), ih (i + 1) (c + 1) (by omega) hN]
      rw [show i + 1 + n = i + (n + 1) by omega]
      congr 2
      omega

theorem boundedDown_spec (bound : Nat) : ∀ (n i : Nat) (c : Int), 0 < n → bound < i →
    boundedDown bound n i c = some (max (i - n) bound, c + ((max (i - n) bound : Nat) - (i : Int))) := by
  intro n
  induction n with
  | zero => intro i c h; omega
  | succ n ih =>
    intro i c _ hb
    cases i with
    | zero => omega
    | succ i =>
      unfold boundedDown
      by_cases h : n = 0 ∨ i = bound
      · rw [if_pos h]
        have : max (i + 1 - (n + 1)) bound = i := by omega
        rw [this]
        congr 2
        omega
      · rw [if_neg h, ih i (c - 1) (by omega) (by omega)]
        rw [show i + 1 - (n + 1) = i - n by omega]
        congr 2
        omega

theorem countTo_spec (N last : Nat) (hl : last ≤ N) : ∀ (f i : Nat) (c : Int), i ≤ last → last - i < f →
    countTo N last f i c = some (c + ((last : Int) - i)) := by
  intro f
  induction f with
  | zero => intro i c _ h; omega
  | succ f ih =>
    intro i c hi hf
    unfold countTo
    by_cases h : i = last
    · rw [if_pos h, h]; simp
    · rw [if_neg h, if_pos (by omega), ih (i + 1) (c + 1) (by omega) (by omega)]
      congr 1
      omega

theorem walkTo_spec (N bound : Nat) (hl : bound ≤ N) : ∀ (f i : Nat), i ≤ bound → bound - i < f → walkTo N bound f i = some bound := by
  intro f
  induction f with
  | zero => intro i _ h; omega
  | succ f ih =>
    intro i hi hf
    unfold walkTo
    by_cases h : i = bound
    · rw [if_pos h, h]
    · rw [if_neg h, if_pos (by omega), ih (i + 1) (by omega) (by omega)]

theorem backtrackLoop_spec (N it : Nat) (hl : it ≤ N) : ∀ (f beg : Nat), beg < it → it - beg ≤ f → backtrackLoop N it f beg = some (it - 1) := by
  intro f
  induction f with
  | zero => intro i _ h; omega
  | succ f ih =>
    intro i hi hf
    unfold backtrackLoop
    rw [if_pos (by omega)]
    by_cases h : i + 1 = it
    · rw [if_pos h, ← h]; rfl
    · rw [if_neg h, ih (i + 1) (by omega) (by omega)]

theorem lessLoop_spec (N lhs rhs : Nat) (h1 : lhs ≤ N) : ∀ (f beg : Nat), beg ≤ lhs → beg ≤ rhs → lhs - beg < f →
    lessLoop N lhs rhs f beg = some (decide (lhs < rhs)) := by
  intro f
  induction f with
  | zero => intro i _ _ h; omega
  | succ f ih =>
    intro i hl hr hf
    unfold lessLoop
    by_cases h : i = rhs
    · rw [if_pos h, decide_eq_false (by omega)]
    · rw [if_neg h]
      by_cases h' : i = lhs
      · rw [if_pos h', decide_eq_true (by omega)]
      · rw [if_neg h', if_pos (by omega), ih (i + 1) (by omega) (by omega) (by omega)]

end Scn
