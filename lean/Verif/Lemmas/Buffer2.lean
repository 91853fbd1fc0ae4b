import Verif.Lemmas.Buffer
import Verif.Props.Integers
import Verif.Props.Space
import Verif.Lemmas.Advance
/-
Forward buffers read one character per fill; integer fields over them.
-/
namespace Scn
open Spec

/-- A fresh buffer over a forward range: nothing is read yet, each fill delivers a character. -/
def Buf.forward (s : List Nat) : Buf := ⟨.forward, [], [], s.map fun c => [c]⟩

/-- A fresh buffer over a source delivered in the given pieces. -/
def Buf.start (k : BufKind) (chunks : List (List Nat)) : Buf := ⟨k, [], [], chunks⟩

theorem flatten_singletons (s : List Nat) : (s.map fun c => [c]).flatten = s := by
  induction s with
  | nil => rfl
  | cons c s ih => simp [ih]

theorem Buf.forward_whole (s : List Nat) : (Buf.forward s).whole = s := by
  simp [Buf.forward, Buf.whole, flatten_singletons]

theorem Buf.forward_ok (s : List Nat) : (Buf.forward s).Ok := by
  intro c hc
  simp only [Buf.forward, List.mem_map] at hc
  obtain ⟨x, _, rfl⟩ := hc
  simp

theorem Buf.start_whole (k : BufKind) (cs : List (List Nat)) : (Buf.start k cs).whole = cs.flatten := by
  simp [Buf.start, Buf.whole]

/-- Buffers whose fills deliver single characters. -/
structure Buf.Single (b : Buf) : Prop where
  kind : b.kind = .forward
  view : b.view.length ≤ 1
  empty : b.view = [] → b.putback = []
  pending : ∃ s : List Nat, b.pending = s.map fun c => [c]

theorem Buf.Single.ok {b : Buf} (h : b.Single) : b.Ok := by
  obtain ⟨s, hs⟩ := h.pending
  intro c hc
  rw [hs, List.mem_map] at hc
  obtain ⟨x, _, rfl⟩ := hc
  simp

theorem Buf.Single.fill {b : Buf} (h : b.Single) :
    (b.fill).1.Single ∧ ((b.fill).2 = true → (b.fill).1.available = b.available + 1) ∧
    ((b.fill).2 = false → (b.fill).1 = b) := by
  obtain ⟨k, p, v, cs⟩ := b
  obtain ⟨hk, hv, he, s, hs⟩ := h
  simp only at hk hv he hs
  subst hk hs
  cases s with
  | nil => exact ⟨⟨rfl, hv, he, [], rfl⟩, by simp [Buf.fill], by simp [Buf.fill]⟩
  | cons c s =>
    exact ⟨⟨rfl, by simp [Buf.fill], by simp [Buf.fill], s, rfl⟩, by simp [Buf.fill, Buf.available], by simp [Buf.fill]⟩

theorem Buf.Single.readAtAux {n : Nat} : ∀ {b b' : Buf} {pos : Nat} {r : Bool}, b.Single → Buf.readAtAux n b pos = some (b', r) →
    b'.Single ∧ b'.available ≤ max b.available (pos + 1) := by
  induction n with
  | zero => intro b b' pos r _ h; simp [Buf.readAtAux] at h
  | succ n ih =>
    intro b b' pos r hb h
    unfold Buf.readAtAux at h
    split at h
    · simp only [Option.some.injEq, Prod.mk.injEq] at h
      rw [← h.1]; exact ⟨hb, by omega⟩
    · rename_i hp
      obtain ⟨h1, h2, h3⟩ := hb.fill
      cases hf : b.fill with
      | mk b1 x =>
        rw [hf] at h h1 h2 h3
        cases x with
        | false =>
          simp only [Option.some.injEq, Prod.mk.injEq] at h
          rw [← h.1]; exact ⟨h1, by have := h3 rfl; dsimp only at this; rw [this]; omega⟩
        | true =>
          have := ih (b := b1) h1 h
          have h2 := h2 rfl
          dsimp only at h2
          exact ⟨this.1, by omega⟩

theorem Buf.Single.gets (ps : List Nat) : ∀ {b b' : Buf} {vs : List (Option Nat)} {pos : Nat}, b.Single →
    b.gets ps = some (b', vs) → (∀ p ∈ ps, p ≤ pos) → b.available ≤ pos + 1 →
    b'.Single ∧ b'.available ≤ pos + 1 := by
  induction ps with
  | nil =>
    intro b b' vs pos hb h _ ha
    simp only [Buf.gets, Option.some.injEq, Prod.mk.injEq] at h
    rw [← h.1]; exact ⟨hb, ha⟩
  | cons p ps ih =>
    intro b b' vs pos hb h hp ha
    unfold Buf.gets Buf.get Buf.readAt at h
    cases hr : Buf.readAtAux (b.pending.length + 2) b p with
    | none => rw [hr] at h; simp at h
    | some x =>
      obtain ⟨b1, r⟩ := x
      obtain ⟨h1, h2⟩ := hb.readAtAux hr
      rw [hr] at h
      have hpp := hp p (by simp)
      have hps : ∀ q ∈ ps, q ≤ pos := fun q hq => hp q (by simp [hq])
      cases r with
      | false =>
        simp only at h
        cases hg : Buf.gets b1 ps with
        | none => rw [hg] at h; simp at h
        | some y =>
          rw [hg] at h
          simp only [Option.map_some, Option.some.injEq, Prod.mk.injEq] at h
          rw [← h.1]
          exact ih h1 (b' := y.1) (vs := y.2) hg hps (by omega)
      | true =>
        simp only at h
        cases hc : b1.charAt p with
        | none => rw [hc] at h; simp at h
        | some c =>
          rw [hc] at h
          simp only [Option.map_some] at h
          cases hg : Buf.gets b1 ps with
          | none => rw [hg] at h; simp at h
          | some y =>
            rw [hg] at h
            simp only [Option.map_some, Option.some.injEq, Prod.mk.injEq] at h
            rw [← h.1]
            exact ih h1 (b' := y.1) (vs := y.2) hg hps (by omega)

/-- After any accesses up to `pos`, one of them to `pos`, a forward buffer has exactly the character
    at `pos` in its view. -/
theorem Buf.forward_touched (s : List Nat) (ps : List Nat) (pos c : Nat) (hs : s[pos]? = some c) (hmem : pos ∈ ps)
    (hle : ∀ p ∈ ps, p ≤ pos) :
    ∃ b vs, (Buf.forward s).gets ps = some (b, vs) ∧ b.putback.length = pos ∧ b.view = [c] := by
  have hlt : pos < s.length := (List.getElem?_eq_some_iff.mp hs).1
  have h0 : (Buf.forward s).Single := ⟨rfl, by simp [Buf.forward], by simp [Buf.forward], s, rfl⟩
  obtain ⟨b, hg, hl⟩ := Buf.gets_spec ps (Buf.forward s) (Buf.forward_ok s)
  refine ⟨b, _, hg, ?_⟩
  obtain ⟨hb, ha⟩ := h0.gets ps hg hle (by simp [Buf.forward, Buf.available])
  -- `pos` was reached
  have hreach : pos < b.available := by
    clear hb ha
    have key : ∀ (ps : List Nat) (b0 : Buf), b0.Ok → b0.whole = s → pos ∈ ps → ∀ b1 vs, b0.gets ps = some (b1, vs) →
        pos < b1.available := by
      intro ps
      induction ps with
      | nil => intro _ _ _ h; simp at h
      | cons p ps ih =>
        intro b0 hok hw hmem b1 vs hg
        obtain ⟨b2, h1, h2, h3⟩ := b0.get_spec hok p
        unfold Buf.gets at hg
        rw [h1] at hg
        simp only at hg
        obtain ⟨b3, h4, h5⟩ := Buf.gets_spec ps b2 h2.ok
        rw [h4] at hg
        simp only [Option.map_some, Option.some.injEq, Prod.mk.injEq] at hg
        obtain ⟨rfl, _⟩ := hg
        rcases List.mem_cons.mp hmem with h | h
        · subst h
          have := h3 (by rw [hw]; exact hlt)
          have := h5.available
          omega
        · exact ih b2 h2.ok (h2.whole.trans hw) h _ _ h4
    exact key ps _ (Buf.forward_ok s) (Buf.forward_whole s) hmem b _ hg
  have hw : b.whole = s := hl.whole.trans (Buf.forward_whole s)
  have hv := hb.view
  have hav : b.putback.length + b.view.length = pos + 1 := by
    unfold Buf.available at ha hreach; omega
  cases hvv : b.view with
  | nil =>
    have := hb.empty hvv
    rw [this, hvv] at hav; simp at hav
  | cons x xs =>
    rw [hvv] at hv hav
    have hxs : xs = [] := by
      cases xs with
      | nil => rfl
      | cons _ _ => simp at hv
    subst hxs
    have hpl : b.putback.length = pos := by simpa using hav
    refine ⟨hpl, ?_⟩
    have := b.charAt_whole pos hreach
    rw [hw, hs] at this
    unfold Buf.charAt at this
    rw [if_neg (by omega), hvv, hpl, Nat.sub_self] at this
    simp at this
    rw [this]

/-! ### Integer fields -/

theorem intField_digit (T : IntTy) (hT : T.Std) (c : Nat) (h1 : 48 ≤ c) (h2 : c ≤ 57) :
    intField .utf8 T .contiguous [c] = .ok (((c - 48 : Nat) : Int), []) := by
  have hx : InRange T ((c - 48 : Nat) : Int) := by
    obtain ⟨bits, sg⟩ := T
    unfold IntTy.Std at hT
    unfold InRange
    dsimp only at hT ⊢
    rcases hT with h | h | h | h <;> subst h <;> cases sg <;> simp <;> omega
  have hsk : skipSpace .utf8 .contiguous false [c] = .ok [c] := by
    have : ∀ d : Fin 10, skipSpace .utf8 .contiguous false [48 + d.val] = .ok [48 + d.val] := by decide +kernel
    have := this ⟨c - 48, by omega⟩
    rwa [show 48 + (c - 48) = c by omega] at this
  have ht : intText 10 ((c - 48 : Nat) : Int) = [c] := by
    have : ∀ d : Fin 10, intText 10 (d.val : Int) = [48 + d.val] := by decide +kernel
    have := this ⟨c - 48, by omega⟩
    rwa [show 48 + (c - 48) = c by omega] at this
  have := C03_roundtrip ⟨true, true⟩ T hT 10 (by decide) (by decide) _ hx [] (by simp [NoDigitFirst]) (by simp) (by simp)
  rw [ht] at this
  unfold intField readIntDefault
  rw [hsk]
  simpa using this

theorem readWhileSpace_mem {s r : List Nat} {l : Layout} (h : readWhileSpace .utf8 l s = some r) : ∀ c ∈ r, c ∈ s :=
  fun _ hc => (readWhileSpace_suffix _ _ _ _ h).subset hc

theorem intField_layouts (T : IntTy) (hT : T.Std) (s : List Nat) (h : ∀ c ∈ s, c < 128 ∧ c ≠ 16) (k : Nat) :
    intField .utf8 T (.segmented k) s = intField .utf8 T .contiguous s := by
  have hw := (C41_space_search_ascii k s (fun c hc => (h c hc).1)).2
  unfold intField skipSpace
  rw [hw]
  cases hr : readWhileSpace .utf8 .contiguous s with
  | none => rfl
  | some it =>
    dsimp only
    split
    · rfl
    · simp only [Res.bind_ok]
      have hit := readWhileSpace_mem hr
      have hq : (afterSign it).head? ≠ some 16 := by
        cases it with
        | nil => simp [afterSign]
        | cons x xs =>
          simp only [afterSign]
          split
          · cases xs with
            | nil => simp
            | cons y ys => simpa using (h y (hit y (by simp))).2
          · simpa using (h x (hit x (by simp))).2
      have hb : ∀ c ∈ it, c < 256 := fun c hc => by have := (h c (hit c hc)).1; omega
      unfold readIntDefault
      rw [readInt_W _ T hT 10 false it (by decide) (fun _ _ => hq) (fun _ => hb),
        readInt_W _ T hT 10 false it (by decide) (fun _ _ => hq) (fun _ => hb)]

end Scn
