import Verif.Lemmas.SpecRound
import Verif.Model.Strings
import Verif.Spec.Charset
/-
Lemmas on character sets: parsing a written set, the resulting tables, and reading with them.
-/
namespace Scn
open Spec

/-- What a handler does for one item. -/
def applyItem {σ : Type} (H : SetHandler σ) (st : σ) : SetItem → Option σ
  | .one c => some (H.single st c)
  | .range a b => H.range st a (b + 1)

def applyItems {σ : Type} (H : SetHandler σ) : σ → List SetItem → Option σ
  | st, [] => some st
  | st, i :: is => (applyItem H st i).bind fun st => applyItems H st is

theorem setCodePoint_encode {σ : Type} (H : SetHandler σ) (e : Enc) (st : σ) (cp : Nat) (h : IsScalar cp)
    (rest : List Nat) : setCodePoint H e st (encode e cp ++ rest) = some (st, some cp, rest) := by
  obtain ⟨c, cs, h1, h2, h3⟩ := encode_head e cp h
  rw [h1]
  simp only [List.cons_append, setCodePoint]
  rw [h2, if_neg (by simp)]
  have ht : (c :: (cs ++ rest)).take (c :: cs).length = c :: cs := by
    rw [← List.cons_append, List.take_left]
  have hd : (c :: (cs ++ rest)).drop (c :: cs).length = rest := by
    rw [← List.cons_append, List.drop_left]
  rw [ht, hd, h3]
  simp only
  rw [if_neg]
  have := h.1
  unfold invalidCp
  omega

/-- A single character: what follows does not make it a range. -/
theorem setLiteral_one {σ : Type} (H : SetHandler σ) (e : Enc) (st : σ) (c : Nat) (h : IsScalar c)
    (rest : List Nat) (hr : ∀ d t, rest = 45 :: d :: t → d = 93) :
    setLiteral H e st (encode e c ++ rest) = some (H.single st c, rest) := by
  simp only [setLiteral, setCodePoint_encode H e st c h rest]
  split
  · rename_i d t
    rw [if_neg (by simpa using hr d t rfl)]
  · rfl

theorem encode_cons (e : Enc) (cp : Nat) : ∃ c cs, encode e cp = c :: cs := by
  cases h : encode e cp with
  | nil => exact absurd h (encode_ne_nil e cp)
  | cons c cs => exact ⟨c, cs, rfl⟩

theorem encode_first_ne (e : Enc) (cp k : Nat) (h : IsScalar cp) (hk : k < 128) (hne : cp ≠ k) {c : Nat} {cs : List Nat}
    (hc : encode e cp = c :: cs) : c ≠ k := by
  rintro rfl
  exact hne (encode_mem_ascii e cp c h (by rw [hc]; simp) hk)

theorem setLiteral_range {σ : Type} (H : SetHandler σ) (e : Enc) (st : σ) (a b : Nat) (ha : IsScalar a)
    (hb : IsScalar b) (h93 : b ≠ 93) (hab : a ≤ b) (rest : List Nat) :
    setLiteral H e st (encode e a ++ 45 :: (encode e b ++ rest)) =
      (H.range st a (b + 1)).map fun st => (st, rest) := by
  obtain ⟨c, cs, hc⟩ := encode_cons e b
  have hne := encode_first_ne e b 93 hb (by decide) h93 hc
  simp only [setLiteral, setCodePoint_encode H e st a ha]
  have hcp := setCodePoint_encode H e st b hb rest
  rw [hc] at hcp ⊢
  simp only [List.cons_append] at hcp ⊢
  rw [if_pos hne, hcp]
  simp only
  rw [if_neg (by omega)]

/-- What follows item `i` does not turn it into something else. -/
def NextOk (i : SetItem) (rest : List Nat) : Prop :=
  match i with
  | .one _ => ∀ d t, rest = 45 :: d :: t → d = 93
  | .range _ _ => True

theorem setLiteral_item {σ : Type} (H : SetHandler σ) (e : Enc) (st : σ) (i : SetItem) (hi : i.Ok)
    (rest : List Nat) (hn : NextOk i rest) :
    setLiteral H e st (i.text e ++ rest) = (applyItem H st i).map fun st => (st, rest) := by
  cases i with
  | one c => exact setLiteral_one H e st c hi.1 rest hn
  | range a b =>
    obtain ⟨ha, hb, _, h93, hab⟩ := hi
    simp only [SetItem.text, List.append_assoc, List.cons_append]
    exact setLiteral_range H e st a b ha hb h93 hab rest

theorem item_first (e : Enc) (i : SetItem) (hi : i.Ok) :
    ∃ c cs, i.text e = c :: cs ∧ (∀ k, k < 128 → c = k → i.start = k) := by
  cases i with
  | one c =>
    obtain ⟨x, xs, hx⟩ := encode_cons e c
    exact ⟨x, xs, hx, fun k hk hxk => encode_mem_ascii e c k hi.1 (by rw [hx, hxk]; simp) hk⟩
  | range a b =>
    obtain ⟨x, xs, hx⟩ := encode_cons e a
    exact ⟨x, xs ++ 45 :: encode e b, by simp [SetItem.text, hx],
      fun k hk hxk => encode_mem_ascii e a k hi.1 (by rw [hx, hxk]; simp) hk⟩

theorem nextOk_of (e : Enc) (i : SetItem) (is : List SetItem) (rest : List Nat) (hok : ∀ j ∈ i :: is, j.Ok)
    (hs : Separated (i :: is)) : NextOk i (is.flatMap (SetItem.text e) ++ 93 :: rest) := by
  cases i with
  | range a b => trivial
  | one c =>
    intro d t h
    cases is with
    | nil => simp at h
    | cons j js =>
      have hj := hok j (by simp)
      obtain ⟨x, xs, hx, hk⟩ := item_first e j hj
      simp only [List.flatMap_cons, hx, List.append_assoc, List.cons_append] at h
      have hst := hk 45 (by decide) (by simpa using (List.cons.inj h).1)
      obtain ⟨rfl, rfl⟩ := hs.1 hst
      simp only [SetItem.text, encode_ascii e 45 (by decide)] at hx
      obtain ⟨rfl, rfl⟩ := List.cons.inj hx
      simp at h
      exact h.1.symm

/-- A handler's state that has not failed stays so. -/
def Sane {σ : Type} (H : SetHandler σ) (P : σ → Prop) : Prop :=
  (∀ st, P st → H.failed st = false) ∧ (∀ st c, P st → P (H.single st c)) ∧
  ∀ st a b st', P st → H.range st a b = some st' → P st'

theorem sane_item {σ : Type} {H : SetHandler σ} {P : σ → Prop} (hS : Sane H P) {st st' : σ} {i : SetItem}
    (h : P st) (hi : applyItem H st i = some st') : P st' := by
  cases i with
  | one c =>
    simp only [applyItem, Option.some.injEq] at hi
    exact hi ▸ hS.2.1 st c h
  | range a b => exact hS.2.2 st a (b + 1) st' h hi

theorem setLoop_items {σ : Type} (H : SetHandler σ) (P : σ → Prop) (hS : Sane H P) (e : Enc) (rest : List Nat)
    (items : List SetItem) (hok : ∀ i ∈ items, i.Ok) (hs : Separated items) (n : Nat) (hn : items.length < n)
    (st : σ) (hst : P st) :
    setLoop H e n st (items.flatMap (SetItem.text e) ++ 93 :: rest) =
      (applyItems H st items).map fun st => (st, true, rest) := by
  induction items generalizing n st with
  | nil =>
    obtain ⟨m, rfl⟩ : ∃ m, n = m + 1 := ⟨n - 1, by simp at hn; omega⟩
    simp only [List.flatMap_nil, List.nil_append, setLoop, applyItems, Option.map_some, hS.1 st hst]
    simp
  | cons i is ih =>
    obtain ⟨m, rfl⟩ : ∃ m, n = m + 1 := ⟨n - 1, by simp at hn; omega⟩
    have hi := hok i (by simp)
    obtain ⟨x, xs, hx, hk⟩ := item_first e i hi
    have h93 : x ≠ 93 := by
      intro h
      have := hk 93 (by decide) h
      cases i with
      | one c => exact hi.2 this
      | range a b => exact hi.2.2.1 this
    have hlit := setLiteral_item H e st i hi _ (nextOk_of e i is rest hok hs)
    have htail : Separated is := by
      cases i with
      | one c => cases is with
        | nil => trivial
        | cons j js => exact hs.2
      | range a b => exact hs
    simp only [List.flatMap_cons, List.append_assoc]
    rw [hx] at hlit ⊢
    simp only [List.cons_append] at hlit ⊢
    simp only [setLoop, hS.1 st hst, Bool.false_eq_true, if_false, if_neg h93, hlit, applyItems]
    cases ha : applyItem H st i with
    | none => rfl
    | some st' =>
      simp only [Option.map_some, Option.bind_some]
      exact ih (fun j hj => hok j (by simp [hj])) htail m (by simp at hn; omega) st' (sane_item hS hst ha)

/-- The handler state after the opening of a set. -/
def applyOpening {σ : Type} (H : SetHandler σ) (st : σ) (t : SetText) : σ :=
  let st := if t.inverted then H.inverted st else st
  if t.bracket then H.single st 93 else st

theorem items_len (e : Enc) (items : List SetItem) (rest : List Nat) (hok : ∀ i ∈ items, i.Ok) :
    items.length ≤ (items.flatMap (SetItem.text e) ++ 93 :: rest).length := by
  induction items with
  | nil => simp
  | cons i is ih =>
    obtain ⟨x, xs, hx, _⟩ := item_first e i (hok i (by simp))
    have := ih (fun j hj => hok j (by simp [hj]))
    simp only [List.flatMap_cons, hx, List.append_assoc, List.cons_append, List.length_cons, List.length_append] at *
    omega

theorem take_view (s rest : List Nat) : (s ++ rest).take ((s ++ rest).length - rest.length) = s := by
  rw [List.length_append, Nat.add_sub_cancel, List.take_left]

theorem parseSet_text {σ : Type} (H : SetHandler σ) (P : σ → Prop) (hS : Sane H P)
    (hi : ∀ st, P st → P (H.inverted st)) (e : Enc) (t : SetText) (ht : t.Ok) (rest : List Nat) (st : σ)
    (hst : P st) :
    parseSet H e st (t.text e ++ rest) =
      (applyItems H (applyOpening H st t) t.items).map fun st => (st, t.text e, rest) := by
  have hfin : ∀ (u : List Nat) (o : Option σ), t.text e ++ rest = u →
      setFinish H u (o.map fun st => (st, true, rest)) = o.map fun st => (st, t.text e, rest) := by
    intro u o hu
    subst hu
    cases o with
    | none => rfl
    | some st =>
      simp only [Option.map_some, setFinish]
      rw [take_view]
  have hlen := fun r => items_len e t.items r ht.items
  have hPst : P (if t.inverted then H.inverted st else st) := by
    cases t.inverted
    · exact hst
    · exact hi st hst
  cases hinv : t.inverted with
  | true =>
    cases hbr : t.bracket with
    | true =>
      have htxt : t.text e ++ rest = 91 :: 94 :: 93 :: (t.items.flatMap (SetItem.text e) ++ 93 :: rest) := by
        simp [SetText.text, SetText.opening, hinv, hbr]
      have hop : applyOpening H st t = H.single (H.inverted st) 93 := by simp [applyOpening, hinv, hbr]
      rw [hop, ← hfin _ _ htxt]
      conv => lhs; rw [htxt]
      simp only [parseSet]
      rw [setLoop_items H P hS e rest t.items ht.items ht.separated _ (by have := hlen rest; omega) _
        (hS.2.1 _ _ (hi st hst))]
    | false =>
      have hne : t.items ≠ [] := by
        rcases ht.nonempty with h | h
        · rw [hbr] at h; cases h
        · exact h
      obtain ⟨i, is, his⟩ : ∃ i is, t.items = i :: is := by
        cases h : t.items with
        | nil => exact absurd h hne
        | cons i is => exact ⟨i, is, rfl⟩
      obtain ⟨x, xs, hx, hk⟩ := item_first e i (ht.items i (by rw [his]; simp))
      have h93 : x ≠ 93 := by
        intro h
        have := hk 93 (by decide) h
        have hok := ht.items i (by rw [his]; simp)
        cases i with
        | one c => exact hok.2 this
        | range a b => exact hok.2.2.1 this
      have htxt : t.text e ++ rest = 91 :: 94 :: (t.items.flatMap (SetItem.text e) ++ 93 :: rest) := by
        simp [SetText.text, SetText.opening, hinv, hbr]
      have hop : applyOpening H st t = H.inverted st := by simp [applyOpening, hinv, hbr]
      have hs2 : t.items.flatMap (SetItem.text e) ++ 93 :: rest = x :: (xs ++ (is.flatMap (SetItem.text e) ++ 93 :: rest)) := by
        rw [his]; simp [hx]
      have hloop := setLoop_items H P hS e rest t.items ht.items ht.separated
        ((t.items.flatMap (SetItem.text e) ++ 93 :: rest).length + 1) (by have := hlen rest; omega) _ (hi st hst)
      rw [hop, ← hfin _ _ htxt]
      conv => lhs; rw [htxt]
      rw [hs2] at hloop ⊢
      simp only [parseSet]
      split
      · rename_i h; cases h
      · rename_i h; exact absurd (List.cons.inj h).1 h93
      · rw [hloop]
  | false =>
    have hbr : t.bracket = false := by
      cases h : t.bracket with
      | false => rfl
      | true => have := ht.bracket h; rw [hinv] at this; cases this
    have hne : t.items ≠ [] := by
      rcases ht.nonempty with h | h
      · rw [hbr] at h; cases h
      · exact h
    obtain ⟨i, is, his⟩ : ∃ i is, t.items = i :: is := by
      cases h : t.items with
      | nil => exact absurd h hne
      | cons i is => exact ⟨i, is, rfl⟩
    obtain ⟨x, xs, hx, hk⟩ := item_first e i (ht.items i (by rw [his]; simp))
    have h93 : x ≠ 93 := by
      intro h
      have := hk 93 (by decide) h
      have hok := ht.items i (by rw [his]; simp)
      cases i with
      | one c => exact hok.2 this
      | range a b => exact hok.2.2.1 this
    have h94 : x ≠ 94 := by
      intro h
      exact ht.caret hinv i (by rw [his]; rfl) (hk 94 (by decide) h)
    have htxt : t.text e ++ rest = 91 :: (t.items.flatMap (SetItem.text e) ++ 93 :: rest) := by
      simp [SetText.text, SetText.opening, hinv, hbr]
    have hop : applyOpening H st t = st := by simp [applyOpening, hinv, hbr]
    have hs2 : t.items.flatMap (SetItem.text e) ++ 93 :: rest = x :: (xs ++ (is.flatMap (SetItem.text e) ++ 93 :: rest)) := by
      rw [his]; simp [hx]
    have hloop := setLoop_items H P hS e rest t.items ht.items ht.separated
      ((t.items.flatMap (SetItem.text e) ++ 93 :: rest).length + 1) (by have := hlen rest; omega) st hst
    rw [hop, ← hfin _ _ htxt]
    conv => lhs; rw [htxt]
    rw [hs2] at hloop ⊢
    simp only [parseSet]
    split
    · rename_i h; cases h
    · rename_i h; exact absurd (List.cons.inj h).1 h94
    · rename_i h; exact absurd (List.cons.inj h).1 h93
    · rw [hloop]

end Scn
