import Verif.Spec.Chrono
import Verif.Lemmas.Records
/-
The chrono format parser: what it calls for a format made of parts, invariants, and where it stops.
-/
namespace Scn
open Spec
variable {σ : Type}

/-- A run of calls none of which reports an error. -/
inductive Calls (h : ChronoHandler σ) : σ → List ChronoCall → σ → Prop where
  | nil (st) : Calls h st [] st
  | cons (st c st' cs st'') (hc : h.call st c = some st') (hok : h.ok st' = true) (hs : Calls h st' cs st'') : Calls h st (c :: cs) st''

theorem Calls.append {h : ChronoHandler σ} {a b c : σ} {xs ys : List ChronoCall} (h1 : Calls h a xs b) (h2 : Calls h b ys c) :
    Calls h a (xs ++ ys) c := by
  induction h1 with
  | nil => exact h2
  | cons st x st' cs st'' hc hok _ ih => exact .cons _ _ _ _ _ hc hok (ih h2)

theorem Calls.split {h : ChronoHandler σ} {a c : σ} {xs ys : List ChronoCall} (h1 : Calls h a (xs ++ ys) c) :
    ∃ b, Calls h a xs b ∧ Calls h b ys c := by
  induction xs generalizing a with
  | nil => exact ⟨a, .nil _, h1⟩
  | cons x xs ih =>
    cases h1 with
    | cons _ _ st' _ _ hc hok hs =>
      obtain ⟨b, hb1, hb2⟩ := ih hs
      exact ⟨b, .cons _ _ _ _ _ hc hok hb1, hb2⟩

theorem single_cpLength (e : Enc) {x : Nat} (hx : IsScalar x) (h : encode e x = [x]) : cpLength e x = 1 := by
  obtain ⟨c, cs, h1, h2, _⟩ := encode_head e x hx
  rw [h] at h1
  cases h1
  simpa using h2

/-- Literal text is collected. -/
theorem loop_lit (e : Enc) (h : ChronoHandler σ) (t : List Nat)
    (ht : ∀ x ∈ t, IsScalar x ∧ encode e x = [x] ∧ isSpace x = false ∧ x ≠ 37 ∧ x ≠ 125) (n : Nat) (st : σ) (acc p : List Nat) :
    chronoLoop e h (t.length + n) st acc (t ++ p) = chronoLoop e h n st (acc ++ t) p := by
  induction t generalizing acc with
  | nil => simp
  | cons x t ih =>
    obtain ⟨h1, h2, h3, h4, h5⟩ := ht x (by simp)
    rw [List.length_cons, Nat.add_right_comm, List.cons_append, chronoLoop, if_neg h5, if_pos h4, if_neg, if_neg, if_pos,
      ih (fun y hy => ht y (by simp [hy])), List.append_assoc, List.singleton_append]
    · exact single_cpLength e h1 h2
    · rw [single_cpLength e h1 h2]; decide
    · intro hx
      have : isSpace x = true := by
        rcases hx with rfl | ⟨a, b⟩
        · decide
        · have : x = 9 ∨ x = 10 ∨ x = 11 ∨ x = 12 ∨ x = 13 := by omega
          rcases this with rfl | rfl | rfl | rfl | rfl <;> decide
      rw [h3] at this; cases this

/-- The conversions of the documented table are recognised. -/
theorem conversion_ok (e : Enc) {t : List Nat} {c : ChronoCall} (h : FmtItem.Ok e (.conv t c)) (r : List Nat) :
    chronoConversion (t ++ r) = (some c, r) := by
  rcases h with ⟨x, rfl, hx⟩ | ⟨m, x, rfl, hx⟩
  · simp only [conversions, List.mem_cons, Prod.mk.injEq, List.not_mem_nil, or_false] at hx
    rcases hx with h|h|h|h|h|h|h|h|h|h|h|h|h|h|h|h|h|h|h|h|h|h|h|h|h|h|h|h|h|h|h|h <;> (obtain ⟨rfl, rfl⟩ := h; rfl)
  · simp only [modified, List.mem_cons, Prod.mk.injEq, List.not_mem_nil, or_false] at hx
    rcases hx with h|h|h|h|h|h|h|h|h|h|h|h|h|h|h|h <;> (obtain ⟨rfl, rfl, rfl⟩ := h; rfl)

/-- No two literal texts side by side. -/
def NoAdjacent (is : List FmtItem) : Prop :=
  ∀ pre a b post, is = pre ++ a :: b :: post → ¬ (a.isLit = true ∧ b.isLit = true)

theorem NoAdjacent.tail {i : FmtItem} {is : List FmtItem} (h : NoAdjacent (i :: is)) : NoAdjacent is :=
  fun pre a b post heq => h (i :: pre) a b post (by rw [heq]; rfl)

/-- The parser makes the calls of a format's parts in order, then `verify`, and stops at the end or the closing
    brace. -/
theorem parse_items (e : Enc) (h : ChronoHandler σ) (htext : ∀ st, h.call st (.text []) = some st) (is : List FmtItem)
    (hok : ∀ i ∈ is, i.Ok e) (hadj : NoAdjacent is) (tail : List Nat) (htail : tail = [] ∨ ∃ r, tail = 125 :: r) (st st' st'' : σ)
    (acc : List Nat) (hacc : acc ≠ [] → ∀ i js, is = i :: js → i.isLit = false)
    (hc : Calls h st ((if acc = [] then [] else [.text acc]) ++ is.map FmtItem.call) st') (hv : h.call st' .verify = some st'')
    (n : Nat) (hn : (formatText is).length < n) :
    chronoLoop e h n st acc (formatText is ++ tail) = some (st'', tail) := by
  induction is generalizing st acc n with
  | nil =>
    have hfin : chronoFinish h st acc tail = some (st'', tail) := by
      unfold chronoFinish
      by_cases ha : acc = []
      · rw [if_pos ha]
        rw [if_pos ha] at hc
        cases hc
        simp [hv]
      · rw [if_neg ha] at hc ⊢
        cases hc with
        | cons _ _ b _ _ h1 h2 h3 =>
          cases h3
          simp [h1, hv]
    obtain ⟨m, rfl⟩ : ∃ m, n = m + 1 := ⟨n - 1, by omega⟩
    rcases htail with rfl | ⟨r, rfl⟩
    · exact hfin
    · show chronoLoop e h (m + 1) st acc (125 :: r) = _
      rw [chronoLoop, if_pos rfl]
      exact hfin
  | cons i is ih =>
    have hoi := hok i (by simp)
    have hos : ∀ j ∈ is, j.Ok e := fun j hj => hok j (by simp [hj])
    cases i with
    | lit t =>
      have ha : acc = [] := by
        apply Classical.byContradiction
        intro hne
        have := hacc hne (.lit t) is rfl
        cases this
      subst ha
      have hl : formatText (.lit t :: is) ++ tail = t ++ (formatText is ++ tail) := by simp [formatText, FmtItem.text, List.append_assoc]
      have hlen : (formatText (.lit t :: is)).length = t.length + (formatText is).length := by simp [formatText, FmtItem.text]
      obtain ⟨m, rfl⟩ : ∃ m, n = t.length + m := ⟨n - t.length, by omega⟩
      rw [hl, loop_lit e h t hoi.2, List.nil_append]
      refine ih hos hadj.tail st t ?_ ?_ m (by omega)
      · intro _ j js hjs
        have := hadj [] (.lit t) j js (by rw [hjs]; rfl)
        cases hj : j.isLit with
        | false => rfl
        | true => exact absurd ⟨rfl, hj⟩ this
      · rw [if_neg hoi.1]
        exact hc
    | space c =>
      have hl : formatText (.space c :: is) ++ tail = c :: (formatText is ++ tail) := rfl
      have hlen : (formatText (.space c :: is)).length = (formatText is).length + 1 := by simp [formatText, FmtItem.text]
      obtain ⟨m, rfl⟩ : ∃ m, n = m + 1 := ⟨n - 1, by omega⟩
      have hcs : c = 32 ∨ 9 ≤ c ∧ c ≤ 13 := hoi
      rw [hl, chronoLoop, if_neg (by omega), if_pos (by omega), if_pos hcs]
      obtain ⟨b, hb1, hb2⟩ := Calls.split hc
      have htx : h.call st (.text acc) = some b := by
        by_cases ha : acc = []
        · subst ha; rw [if_pos rfl] at hb1; cases hb1; exact htext _
        · rw [if_neg ha] at hb1
          cases hb1 with
          | cons _ _ _ _ _ h1 h2 h3 => cases h3; exact h1
      cases hb2 with
      | cons _ _ b' _ _ h1 h2 h3 =>
        have h1' : h.call b .whitespace = some b' := h1
        rw [htx, Option.bind_some, h1', Option.bind_some]
        exact ih hos hadj.tail b' [] (fun h => absurd rfl h) (by rw [if_pos rfl]; exact h3) m (by omega)
    | conv t c =>
      have hl : formatText (.conv t c :: is) ++ tail = 37 :: (t ++ (formatText is ++ tail)) := by
        simp [formatText, FmtItem.text, List.append_assoc]
      have hlen : (formatText (.conv t c :: is)).length = t.length + 1 + (formatText is).length := by simp [formatText, FmtItem.text]; omega
      obtain ⟨m, rfl⟩ : ∃ m, n = m + 1 := ⟨n - 1, by omega⟩
      rw [hl, chronoLoop, if_neg (by omega), if_neg (by omega), conversion_ok e hoi]
      obtain ⟨b, hb1, hb2⟩ := Calls.split hc
      have htx : (if acc = [] then some st else h.call st (.text acc)) = some b := by
        by_cases ha : acc = []
        · rw [if_pos ha] at hb1 ⊢; cases hb1; rfl
        · rw [if_neg ha] at hb1 ⊢
          cases hb1 with
          | cons _ _ _ _ _ h1 h2 h3 => cases h3; exact h1
      cases hb2 with
      | cons _ _ b' _ _ h1 h2 h3 =>
        have h1' : h.call b c = some b' := h1
        rw [htx, Option.bind_some]
        dsimp only
        rw [h1', Option.bind_some, if_pos h2]
        exact ih hos hadj.tail b' [] (fun h => absurd rfl h) (by rw [if_pos rfl]; exact h3) m (by omega)

/-- The same for the whole parser. -/
theorem parseChrono_items (e : Enc) (h : ChronoHandler σ) (htext : ∀ st, h.call st (.text []) = some st) (is : List FmtItem)
    (hok : FormatOk e is) (tail : List Nat) (htail : tail = [] ∨ ∃ r, tail = 125 :: r) (st st' st'' : σ)
    (hc : Calls h st (is.map FmtItem.call) st') (hv : h.call st' .verify = some st'') :
    parseChrono e h st (formatText is ++ tail) = some (st'', tail) := by
  obtain ⟨⟨t, c, js, rfl⟩, hi, hadj⟩ := hok
  have := parse_items e h htext _ hi hadj tail htail st st' st'' [] (fun h => absurd rfl h) (by rw [if_pos rfl]; exact hc) hv
    ((formatText (.conv t c :: js) ++ tail).length + 1) (by simp; omega)
  unfold parseChrono
  rw [show formatText (.conv t c :: js) ++ tail = 37 :: (t ++ (formatText js ++ tail)) by simp [formatText, FmtItem.text]] at this ⊢
  dsimp only
  rw [if_neg (by decide), if_neg (by decide), if_neg (by decide)]
  exact this

end Scn
