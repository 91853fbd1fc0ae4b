import Verif.Spec.Istream
/-
The stream buffer follows the position of the stream.
-/
namespace Scn
open Spec
variable {α : Type}

/-- The stream buffer stands at a position. -/
structure StandsAt (b : StreamBuf) (before rest : List Nat) (ungot peeked : Bool) : Prop where
  back : b.hasPutBack = ungot
  peek : peeked = true → ∃ c, b.ch = some c ∧ rest = c :: b.begin ∧ b.prev = rest
  plain : peeked = false → b.ch = none ∧ b.begin = rest ∧
    (ungot = false → b.prev = match before with | [] => rest | x :: _ => x :: rest)

theorem extractor_run (x : Extractor α) : ∀ b before rest u p, StandsAt b before rest u p → Polite x before rest u p →
    (x.run b).map (fun r => (r.1, if r.2.ch = none then r.2.begin else r.2.prev)) = streamRun x before rest := by
  induction x with
  | done a =>
    intro b before rest u p h _
    cases p with
    | true =>
      obtain ⟨c, h1, h2, h3⟩ := h.peek rfl
      simp [Extractor.run, streamRun, h1, h3]
    | false =>
      obtain ⟨h1, h2, _⟩ := h.plain rfl
      simp [Extractor.run, streamRun, h1, h2]
  | fail e d => intro b before rest u p _ _; rfl
  | peek k ih =>
    intro b before rest u p h hp
    simp only [Extractor.run, streamRun]
    cases p with
    | true =>
      obtain ⟨c, h1, h2, h3⟩ := h.peek rfl
      have hu : b.underflow = (b, some c) := by unfold StreamBuf.underflow; rw [h1]
      rw [hu, h2, List.head?_cons]
      rw [h2] at hp
      exact ih (some c) _ _ _ _ _ (by rw [← h2]; exact h) hp
    | false =>
      obtain ⟨h1, h2, h3⟩ := h.plain rfl
      cases rest with
      | nil =>
        have hu : b.underflow = (b, none) := by unfold StreamBuf.underflow; rw [h1, h2]
        rw [hu]
        exact ih none _ _ _ _ _ h hp
      | cons c cs =>
        have hu : b.underflow = ({ b with prev := c :: cs, begin := cs, ch := some c }, some c) := by
          unfold StreamBuf.underflow; rw [h1, h2]
        rw [hu]
        exact ih (some c) _ _ _ _ _ ⟨h.back, fun _ => ⟨c, rfl, rfl, rfl⟩, fun h => by cases h⟩ hp
  | get k ih =>
    intro b before rest u p h hp
    rw [Extractor.run]
    cases p with
    | true =>
      obtain ⟨c, h1, h2, h3⟩ := h.peek rfl
      have hu : b.uflow = ({ b with ch := none }, some c) := by
        unfold StreamBuf.uflow StreamBuf.underflow; rw [h1]
      rw [hu]
      rw [h2] at hp ⊢
      exact ih (some c) _ _ _ _ _ ⟨h.back, (fun h => by cases h), fun _ => ⟨rfl, rfl, fun _ => by show b.prev = _; rw [h3, h2]⟩⟩ hp
    | false =>
      obtain ⟨h1, h2, h3⟩ := h.plain rfl
      cases rest with
      | nil =>
        have hu : b.uflow = (b, none) := by unfold StreamBuf.uflow StreamBuf.underflow; rw [h1, h2]
        rw [hu]
        exact ih none _ _ _ _ _ h hp
      | cons c cs =>
        have hu : b.uflow = ({ b with prev := c :: cs, begin := cs, ch := none }, some c) := by
          unfold StreamBuf.uflow StreamBuf.underflow; rw [h1, h2]
        rw [hu]
        exact ih (some c) _ _ _ _ _ ⟨h.back, (fun h => by cases h), fun _ => ⟨rfl, rfl, fun _ => rfl⟩⟩ hp
  | unget k ih =>
    intro b before rest u p h hp
    rw [Extractor.run]
    cases before with
    | nil => exact absurd hp id
    | cons x before =>
      obtain ⟨rfl, rfl, hp⟩ := hp
      obtain ⟨h1, h2, h3⟩ := h.plain rfl
      have h4 : b.prev = x :: rest := h3 rfl
      have hu : b.pbackfail none = some ({ b with hasPutBack := true, begin := b.prev }, true) := by
        unfold StreamBuf.pbackfail
        rw [if_neg (by simp), if_neg (by rw [h.back]; simp), h4]
        simp
      rw [hu]
      exact ih true _ _ _ _ _ ⟨rfl, (fun h => by cases h), fun _ => ⟨h1, h4, fun h => by cases h⟩⟩ hp
  | putback c k ih => intro b before rest u p _ hp; exact absurd hp id

end Scn
