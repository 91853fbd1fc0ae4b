import Verif.Spec.CustomScan
import Verif.Lemmas.Buffer
import Verif.Lemmas.Calls
import Verif.Lemmas.Continued
/-
Scanners of custom types see the rest of the source.
-/
namespace Scn
open Spec

variable {L A V : Type}

/-- The result on a view: the position in it. -/
theorem onView_rest (pre cur : List Nat) (loc : Option L) (p : ScanProg L A) (h : onRest cur loc p ≠ .ub) :
    ((p.onView false (pre ++ cur) pre.length loc).bind fun r => if r.2 ≤ (pre ++ cur).length then .ok (r.1, (pre ++ cur).drop r.2) else .ub) = onRest cur loc p := by
  induction p with
  | done a off =>
    simp only [onRest] at h ⊢
    by_cases ho : off ≤ cur.length
    · rw [if_pos ho]
      simp only [ScanProg.onView, Res.bind_ok]
      rw [if_pos (by simp only [List.length_append]; omega), List.drop_append]
      simp
    · rw [if_neg ho] at h; exact absurd rfl h
  | fail e => rfl
  | get off k ih =>
    simp only [onRest] at h ⊢
    by_cases ho : off ≤ cur.length
    · rw [if_pos ho] at h ⊢
      unfold ScanProg.onView
      rw [if_neg (by decide)]
      by_cases he : off = cur.length
      · rw [if_pos (by simp [he])]
        rw [List.getElem?_eq_none (by omega)] at h ⊢
        exact ih _ h
      · have hlt : off < cur.length := by omega
        rw [if_neg (by simp only [List.length_append]; omega), List.getElem?_append_right (by omega), show pre.length + off - pre.length = off by omega]
        rw [List.getElem?_eq_getElem hlt] at h ⊢
        exact ih _ h
    · rw [if_neg ho] at h; exact absurd rfl h
  | inc off k ih =>
    simp only [onRest] at h ⊢
    by_cases ho : off < cur.length
    · rw [if_pos ho] at h ⊢
      unfold ScanProg.onView
      rw [if_neg (by decide)]
      exact ih h
    · rw [if_neg ho] at h; exact absurd rfl h
  | segment off k ih =>
    simp only [onRest] at h ⊢
    by_cases ho : off ≤ cur.length
    · rw [if_pos ho] at h ⊢
      unfold ScanProg.onView
      rw [if_neg (by simp only [List.length_append]; simp; omega)]
      have hd : (pre ++ cur).drop (pre.length + off) = cur.drop off := by rw [List.drop_append]; simp
      rw [hd]
      exact ih _ h
    · rw [if_neg ho] at h; exact absurd rfl h
  | locale k ih =>
    simp only [onRest] at h ⊢
    unfold ScanProg.onView
    exact ih _ h

theorem customDefault_rest (loc : Option L) (p : ScanProg L A) (cur : List Nat) (h : onRest cur loc p ≠ .ub) :
    customDefault false loc p cur = onRest cur loc p := onView_rest [] cur loc p h

theorem customSpecs_rest (loc : Option L) (p : ScanProg L A) (pre cur : List Nat) (h : onRest cur loc p ≠ .ub) :
    customSpecs false (pre ++ cur) loc p cur = onRest cur loc p := by
  have := onView_rest pre cur loc p h
  unfold customSpecs
  rw [show (pre ++ cur).length - cur.length = pre.length by simp]
  exact this

/-- On a null view there is nothing to see. -/
theorem onView_null (loc : Option L) (p : ScanProg L A) (hp : OneByOne p) (h : onRest [] loc p ≠ .ub) (all : List Nat) (hall : all = []) :
    ((p.onView true all 0 loc).bind fun r => if r.2 ≤ all.length then .ok (r.1, all.drop r.2) else .ub) = onRest [] loc p := by
  subst hall
  induction p with
  | done a off =>
    simp only [onRest, List.length_nil] at h ⊢
    by_cases ho : off ≤ 0
    · rw [if_pos ho]
      simp only [ScanProg.onView, Res.bind_ok]
      rw [if_pos (by simpa using ho)]
      simp
    · rw [if_neg ho] at h; exact absurd rfl h
  | fail e => rfl
  | get off k ih =>
    simp only [onRest] at h ⊢
    by_cases ho : off ≤ ([] : List Nat).length
    · rw [if_pos ho] at h ⊢
      unfold ScanProg.onView
      rw [if_pos rfl]
      exact ih _ (hp _) h
    · rw [if_neg ho] at h; exact absurd rfl h
  | inc off k ih =>
    simp only [onRest] at h
    rw [if_neg (by simp)] at h
    exact absurd rfl h
  | segment off k ih => exact absurd hp (by simp [OneByOne])
  | locale k ih =>
    simp only [onRest] at h ⊢
    unfold ScanProg.onView
    exact ih _ (hp _) h

/-- On a buffer. -/
theorem onBuf_rest (loc : Option L) (p : ScanProg L A) (hp : OneByOne p) (base : Nat) (b : Buf) (hb : b.Ok) (hbase : base ≤ b.whole.length)
    (h : onRest (b.whole.drop base) loc p ≠ .ub) :
    (∃ e, onRest (b.whole.drop base) loc p = .err e ∧ p.onBuf base loc b = .err e) ∨
    ∃ a r b' off, onRest (b.whole.drop base) loc p = .ok (a, r) ∧ p.onBuf base loc b = .ok ((a, base + off), b') ∧ b.Later b' ∧
      r = b.whole.drop (base + off) ∧ base + off ≤ b.whole.length := by
  induction p generalizing b with
  | done a off =>
    simp only [onRest] at h ⊢
    by_cases ho : off ≤ (b.whole.drop base).length
    · rw [if_pos ho]
      rw [List.length_drop] at ho
      exact Or.inr ⟨a, _, b, off, rfl, rfl, Buf.Later.refl hb, by rw [List.drop_drop], by omega⟩
    · rw [if_neg ho] at h; exact absurd rfl h
  | fail e => exact Or.inl ⟨e, rfl, rfl⟩
  | get off k ih =>
    simp only [onRest] at h ⊢
    by_cases ho : off ≤ (b.whole.drop base).length
    · rw [if_pos ho] at h ⊢
      obtain ⟨b1, h1, h2, _⟩ := b.get_spec hb (base + off)
      rw [List.getElem?_drop] at h ⊢
      have := ih _ (hp _) b1 h2.ok (by rw [h2.whole]; exact hbase) (by rw [h2.whole]; exact h)
      unfold ScanProg.onBuf
      rw [h1]
      dsimp only
      rw [h2.whole] at this
      rcases this with h3 | ⟨a, r, b', o, h4, h5, h6, h7, h8⟩
      · exact Or.inl h3
      · exact Or.inr ⟨a, r, b', o, h4, h5, h2.trans h6, h7, h8⟩
    · rw [if_neg ho] at h; exact absurd rfl h
  | inc off k ih =>
    simp only [onRest] at h ⊢
    by_cases ho : off < (b.whole.drop base).length
    · rw [if_pos ho] at h ⊢
      obtain ⟨b1, h1, h2, _⟩ := Buf.readAtAux_spec _ b (base + off + 1) hb (Nat.le_refl _)
      have := ih hp b1 h2.ok (by rw [h2.whole]; exact hbase) (by rw [h2.whole]; exact h)
      unfold ScanProg.onBuf Buf.readAt
      rw [h1]
      dsimp only
      rw [h2.whole] at this
      rcases this with h3 | ⟨a, r, b', o, h4, h5, h6, h7, h8⟩
      · exact Or.inl h3
      · exact Or.inr ⟨a, r, b', o, h4, h5, h2.trans h6, h7, h8⟩
    · rw [if_neg ho] at h; exact absurd rfl h
  | segment off k ih => exact absurd hp (by simp [OneByOne])
  | locale k ih =>
    simp only [onRest] at h ⊢
    exact ih _ (hp _) b hb hbase h

/-! ### Whole calls -/

/-- The field is for an argument of a custom type whose scanner, given this specification, is to see the rest of the source and the locale. -/
def CustomMeans (loc : Option L) (c : CustomScanner L V) (f : CallField V) : Prop :=
  match f.spec with
  | none => ∃ q p, c.parse [] = some (q, p) ∧ f.read = fun s => onRest s loc p
  | some t => ∃ p, (∀ r, c.parse (t ++ 125 :: r) = some (125 :: r, p)) ∧ f.read = fun s => onRest s loc p

/-- The field with the reader the driver uses. -/
def actualField (env : Env V) (f : CallField V) : CallField V :=
  { f with read := match f.spec with
      | none => env.readDefault f.id
      | some t => if env.argTy f.id = .custom then fun s => (env.readCustom f.id (t ++ [125]) s).2 else f.read }

theorem onRest_suffix (rest : List Nat) (loc : Option L) (p : ScanProg L A) {a : A} {r : List Nat} (h : onRest rest loc p = .ok (a, r)) : r <:+ rest := by
  induction p with
  | done a off =>
    simp only [onRest] at h
    split at h
    · cases h; exact List.drop_suffix _ _
    · cases h
  | fail e => cases h
  | get off k ih =>
    simp only [onRest] at h
    split at h
    · exact ih _ h
    · cases h
  | inc off k ih =>
    simp only [onRest] at h
    split at h
    · exact ih h
    · cases h
  | segment off k ih =>
    simp only [onRest] at h
    split at h
    · exact ih _ h
    · cases h
  | locale k ih => simp only [onRest] at h; exact ih _ h

/-- Steps that read at least what they should. -/
theorem inOrder_refines {lit : List Nat → List Nat → Res (List Nat)} {all last : List Nat} (g : CallField V → CallField V)
    (hlit : ∀ t s r, lit t s = .ok r → r <:+ s) (fs : List (CallField V)) (hg : ∀ f ∈ fs, (g f).gap = f.gap ∧ (g f).id = f.id)
    (hadv : ∀ f ∈ fs, ∀ s x, f.read s = .ok x → x.2 <:+ s)
    (hr : ∀ f ∈ fs, ∀ s x, s <:+ all → f.read s = .ok x → (g f).read s = .ok x) :
    ∀ (s : List Nat) (q : List (Nat × V) × List Nat), s <:+ all → inOrder lit fs last s = .ok q → inOrder lit (fs.map g) last s = .ok q := by
  induction fs with
  | nil => intro s q _ h; exact h
  | cons f fs ih =>
    intro s q hs h
    simp only [inOrder, List.map_cons] at h ⊢
    rw [(hg f (by simp)).1, (hg f (by simp)).2]
    cases h1 : lit f.gap s with
    | ub => rw [h1] at h; cases h
    | err e => rw [h1] at h; cases h
    | ok s1 =>
      rw [h1, Res.bind_ok] at h
      rw [Res.bind_ok]
      have hs1 : s1 <:+ all := (hlit _ _ _ h1).trans hs
      cases h2 : f.read s1 with
      | ub => rw [h2] at h; cases h
      | err e => rw [h2] at h; cases h
      | ok x =>
        rw [h2, Res.bind_ok] at h
        rw [hr f (by simp) s1 x hs1 h2, Res.bind_ok]
        cases h3 : inOrder lit fs last x.2 with
        | ub => rw [h3] at h; cases h
        | err e => rw [h3] at h; cases h
        | ok q' =>
          rw [ih (fun f hf => hg f (by simp [hf])) (fun f hf => hadv f (by simp [hf])) (fun f hf => hr f (by simp [hf])) x.2 q'
            ((hadv f (by simp) s1 x h2).trans hs1) h3]
          rw [h3] at h
          exact h

end Scn
