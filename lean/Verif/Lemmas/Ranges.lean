import Verif.Spec.Ranges
import Verif.Lemmas.Records
/-
The scanners of ranges and tuples on text that shows a range or a tuple.
-/
namespace Scn
open Spec
variable {V C : Type}

/-- The layouts are good for well-formed text: contiguous sources, and buffers whose segments end between
    characters. -/
def GoodLayouts (e : Enc) (lay : List Nat → Layout) : Prop :=
  ∀ cps, (∀ c ∈ cps, IsScalar c) → GoodLayout e (lay (encodes e cps)) cps

theorem goodLayouts_contiguous (e : Enc) : GoodLayouts e (fun _ => .contiguous) := by
  intro cps _; cases e <;> trivial

theorem goodLayouts_whole (e : Enc) : GoodLayouts e (fun s => .segmented s.length) := by
  intro cps _
  cases e
  · exact ⟨cps, [], by simp, by rw [List.take_of_length_le (Nat.le_of_eq (by rw [encodes_utf8]))]⟩
  · trivial
  · trivial

theorem token_scalar {t : List Nat} (h : Token t) : ∀ c ∈ t, IsScalar c := by
  obtain ⟨c, r, rfl, hc, _, hr⟩ := h
  intro x hx
  rcases List.mem_cons.1 hx with rfl | hx
  · exact ascii_scalar hc
  · exact hr x hx

theorem token_drop {t : List Nat} (h : Token t) (rest : List Nat) : (t ++ rest).dropWhile isSpace = t ++ rest := by
  obtain ⟨c, r, rfl, _, hs, _⟩ := h
  rw [List.cons_append, List.dropWhile_cons, if_neg (by simp [hs])]

theorem matchUnits_self (t rest : List Nat) : matchUnits t (t ++ rest) = .ok rest := by
  induction t with
  | nil => rfl
  | cons c t ih => simp only [List.cons_append, matchUnits, ne_eq, not_true_eq_false, if_false]; exact ih

theorem skipSpace_drop (e : Enc) (lay : List Nat → Layout) (hl : GoodLayouts e lay) (p q : List Nat) (hp : ∀ c ∈ p, IsScalar c)
    (h : p.dropWhile isSpace = q) (hq : q ≠ []) : skipSpace e (lay (encodes e p)) false (encodes e p) = .ok (encodes e q) := by
  rw [skipSpace_encodes e _ _ hp (hl p hp), if_neg, h]
  rintro ⟨_, h2⟩
  rw [← dropWhile_nil_iff, h] at h2
  exact hq h2

theorem scanStr_token (e : Enc) (lay : List Nat → Layout) (hl : GoodLayouts e lay) (p t rest : List Nat) (hp : ∀ c ∈ p, IsScalar c)
    (h : p.dropWhile isSpace = t ++ rest) (hne : t ≠ []) : scanStr e lay (encodes e p) (encodes e t) = .ok (encodes e rest) := by
  unfold scanStr
  rw [skipSpace_drop e lay hl p _ hp h (by simp [hne]), Res.bind_ok, encodes_append, matchUnits_self]

theorem scanStr_empty (e : Enc) (lay : List Nat → Layout) (hl : GoodLayouts e lay) (p q : List Nat) (hp : ∀ c ∈ p, IsScalar c)
    (h : p.dropWhile isSpace = q) (hne : q ≠ []) : scanStr e lay (encodes e p) [] = .ok (encodes e q) := by
  unfold scanStr
  rw [skipSpace_drop e lay hl p _ hp h hne, Res.bind_ok]
  rfl

theorem scanStr_unlike (e : Enc) (lay : List Nat → Layout) (hl : GoodLayouts e lay) (p t q : List Nat) (c : Nat)
    (hp : ∀ c ∈ p, IsScalar c) (h : p.dropWhile isSpace = c :: q) (ht : Token t) (hc : t.head? ≠ some c) :
    scanStr e lay (encodes e p) (encodes e t) = .err .invalidScannedValue := by
  unfold scanStr
  rw [skipSpace_drop e lay hl p _ hp h (by simp), Res.bind_ok]
  obtain ⟨d, r, rfl, hd, _, _⟩ := ht
  have hmem : c ∈ p := by
    have : c ∈ p.dropWhile isSpace := by rw [h]; simp
    exact (List.dropWhile_sublist _).mem this
  have hcd : d ≠ c := by simpa using hc
  rw [encodes_cons, encode_ascii e d hd]
  rcases encodes_cases e c q (hp c hmem) with ⟨_, hE⟩ | ⟨hc', u, us, hu, hE⟩
  · rw [hE]; simp [matchUnits, hcd]
  · rw [hE]
    have : d ≠ u := by omega
    simp [matchUnits, this]

theorem moreItems_cons (sep : List Nat) (x : Item V) (xs : List (Item V)) :
    moreItems sep (x :: xs) = sep ++ (x.text ++ (x.after ++ moreItems sep xs)) := by simp [moreItems]

/-- What is asked of the items. -/
structure ItemsOk (e : Enc) (xs : List (Item V)) : Prop where
  text : ∀ x ∈ xs, ∀ c ∈ x.text, IsScalar c
  after : ∀ x ∈ xs, Spaces x.after

theorem ItemsOk.tail {e : Enc} {x : Item V} {xs : List (Item V)} (h : ItemsOk e (x :: xs)) : ItemsOk e xs :=
  ⟨fun y hy => h.text y (by simp [hy]), fun y hy => h.after y (by simp [hy])⟩

theorem moreItems_scalar {e : Enc} {sep : List Nat} (hsep : ∀ c ∈ sep, IsScalar c) {xs : List (Item V)} (h : ItemsOk e xs) :
    ∀ c ∈ moreItems sep xs, IsScalar c := by
  intro c hc
  obtain ⟨x, hx, hc⟩ := List.mem_flatMap.1 hc
  rcases List.mem_append.1 hc with hc | hc
  · exact hsep c hc
  · rcases List.mem_append.1 hc with hc | hc
    · exact h.text x hx c hc
    · exact (h.after x hx c hc).1

theorem spaces_drop {ws q : List Nat} (h : Spaces ws) (hq : q = [] ∨ ∃ c r, q = c :: r ∧ isSpace c = false) :
    (ws ++ q).dropWhile isSpace = q := dropWhile_stop _ _ _ (fun c hc => (h c hc).2) hq

theorem scalar_append {a b : List Nat} (ha : ∀ c ∈ a, IsScalar c) (hb : ∀ c ∈ b, IsScalar c) : ∀ c ∈ a ++ b, IsScalar c := by
  intro c hc
  rcases List.mem_append.1 hc with h | h
  · exact ha c h
  · exact hb c h

theorem token_stop {t : List Nat} (h : Token t) (rest : List Nat) :
    t ++ rest = [] ∨ ∃ c r, t ++ rest = c :: r ∧ isSpace c = false := by
  obtain ⟨c, r, rfl, _, hs, _⟩ := h
  exact Or.inr ⟨c, r ++ rest, rfl, hs⟩

/-- What comes after an item: another item's separator or the tail. -/
theorem more_stop {sep tail : List Nat} (hsep : Token sep) (htail : tail = [] ∨ ∃ c r, tail = c :: r ∧ isSpace c = false)
    (xs : List (Item V)) :
    moreItems sep xs ++ tail = [] ∨ ∃ c r, moreItems sep xs ++ tail = c :: r ∧ isSpace c = false := by
  cases xs with
  | nil => simpa [moreItems] using htail
  | cons x xs => rw [moreItems_cons, List.append_assoc]; exact token_stop hsep _

theorem head_drop {q : List Nat} (h : q = [] ∨ ∃ c r, q = c :: r ∧ isSpace c = false) : q.dropWhile isSpace = q := by
  rcases h with rfl | ⟨c, r, rfl, hc⟩
  · rfl
  · rw [List.dropWhile_cons, if_neg (by simp [hc])]

/-- The element of an item: from its text to what comes after it. -/
theorem item_read (e : Enc) (rd : List Nat → Res (V × List Nat)) (sep tail : List Nat) (hsep : Token sep)
    (htail : tail = [] ∨ ∃ c r, tail = c :: r ∧ isSpace c = false) (hts : ∀ c ∈ tail, IsScalar c)
    (x : Item V) (xs : List (Item V)) (hok : ItemsOk e (x :: xs)) (hrd : ReadsAs e rd x.val x.text x.follow)
    (hf : x.follow (x.after ++ (moreItems sep xs ++ tail))) :
    ∃ p, rd (encodes e (x.text ++ (x.after ++ (moreItems sep xs ++ tail)))) = .ok (x.val, encodes e p) ∧
      (∀ c ∈ p, IsScalar c) ∧ p.dropWhile isSpace = moreItems sep xs ++ tail := by
  have h1 : ∀ c ∈ x.after ++ (moreItems sep xs ++ tail), IsScalar c :=
    scalar_append (fun c hc => (hok.after x (by simp) c hc).1)
      (scalar_append (moreItems_scalar (token_scalar hsep) hok.tail) hts)
  obtain ⟨p, h2, h3, h4⟩ := hrd _ h1 hf
  refine ⟨p, h2, h3, ?_⟩
  rw [h4]
  exact spaces_drop (hok.after x (by simp)) (more_stop hsep htail xs)

theorem range_more (e : Enc) (lay : List Nat → Layout) (hl : GoodLayouts e lay) (b : Brackets) (sep close rest : List Nat)
    (hb : b.separator = encodes e sep ∧ b.closing = encodes e close) (hsep : Token sep) (hclose : Token close)
    (hdiff : close.head? ≠ sep.head?) (hrest : ∀ c ∈ rest, IsScalar c)
    (rd : List Nat → Res (V × List Nat)) (add : C → V → C) (xs : List (Item V)) :
    ∀ left acc p, xs.length ≤ left → ItemsOk e xs → (∀ x ∈ xs, ReadsAs e rd x.val x.text x.follow) →
      ItemsFollow sep xs (close ++ rest) → (∀ c ∈ p, IsScalar c) → p.dropWhile isSpace = moreItems sep xs ++ (close ++ rest) →
      ∃ q, rangeLoop e lay b rd add left false acc (encodes e p) = .ok (xs.foldl (fun a x => add a x.val) acc, encodes e q) ∧
        (∀ c ∈ q, IsScalar c) ∧ q.dropWhile isSpace = close ++ rest := by
  have hcs : ∀ c ∈ close ++ rest, IsScalar c := scalar_append (token_scalar hclose) hrest
  have hclose' : close ≠ [] := by obtain ⟨c, r, rfl, _⟩ := hclose; simp
  have hsep' : sep ≠ [] := by obtain ⟨c, r, rfl, _⟩ := hsep; simp
  induction xs with
  | nil =>
    intro left acc p _ _ _ _ hp hd
    refine ⟨p, ?_, hp, by simpa [moreItems] using hd⟩
    cases left with
    | zero => rfl
    | succ left =>
      have hd' : p.dropWhile isSpace = close ++ rest := by simpa [moreItems] using hd
      rw [rangeLoop, hb.2, scanStr_token e lay hl p close rest hp hd' hclose']
      rfl
  | cons x xs ih =>
    intro left acc p hlen hok hrd hf hp hd
    cases left with
    | zero => simp at hlen
    | succ left =>
      rw [moreItems_cons] at hd
      have hd' : p.dropWhile isSpace = sep ++ (x.text ++ (x.after ++ (moreItems sep xs ++ (close ++ rest)))) := by
        rw [hd]; simp [List.append_assoc]
      obtain ⟨q, hq1, hq2, hq3⟩ := item_read e rd sep (close ++ rest) hsep (token_stop hclose rest) hcs x xs hok
        (hrd x (by simp)) hf.1
      have hmis : scanStr e lay (encodes e p) b.closing = .err .invalidScannedValue := by
        rw [hb.2]
        obtain ⟨c, r, hc, _⟩ := hsep
        refine scanStr_unlike e lay hl p close _ c hp (by rw [hd', hc]; rfl) hclose ?_
        rw [hc] at hdiff; exact hdiff
      rw [rangeLoop, hmis]
      dsimp only
      rw [innerLoop, if_neg (by simp), hb.1, scanStr_token e lay hl p sep _ hp hd' hsep', Res.bind_ok, hq1, Res.bind_ok]
      exact ih left (add acc x.val) q (by simp at hlen; omega) hok.tail (fun y hy => hrd y (by simp [hy])) hf.2 hq2 hq3

theorem range_run (e : Enc) (lay : List Nat → Layout) (hl : GoodLayouts e lay) (b : Brackets) (opening sep close lead gap rest : List Nat)
    (hb : b.opening = encodes e opening ∧ b.separator = encodes e sep ∧ b.closing = encodes e close)
    (hopen : Token opening) (hsep : Token sep) (hclose : Token close)
    (hdiff : close.head? ≠ sep.head?) (hrest : ∀ c ∈ rest, IsScalar c) (hlead : Spaces lead) (hgap : Spaces gap)
    (rd : List Nat → Res (V × List Nat)) (add : C → V → C) (maxSize : Nat) (init : C) (xs : List (Item V)) (hlen : xs.length ≤ maxSize)
    (hok : ItemsOk e xs) (hst : ∀ x ∈ xs, StartsUnlike close x.text) (hrd : ∀ x ∈ xs, ReadsAs e rd x.val x.text x.follow)
    (hf : ItemsFollow sep xs (close ++ rest)) :
    scanRange e lay b rd add maxSize init (encodes e (lead ++ (opening ++ (itemsText sep gap xs ++ (close ++ rest))))) =
      .ok (xs.foldl (fun a x => add a x.val) init, encodes e rest) := by
  have hcs : ∀ c ∈ close ++ rest, IsScalar c := scalar_append (token_scalar hclose) hrest
  have hclose' : close ≠ [] := by obtain ⟨c, r, rfl, _⟩ := hclose; simp
  have hopen' : opening ≠ [] := by obtain ⟨c, r, rfl, _⟩ := hopen; simp
  have hit : ∀ c ∈ itemsText sep gap xs, IsScalar c := by
    cases xs with
    | nil => exact fun c hc => (hgap c hc).1
    | cons x xs =>
      exact scalar_append (hok.text x (by simp)) (scalar_append (fun c hc => (hok.after x (by simp) c hc).1)
        (moreItems_scalar (token_scalar hsep) hok.tail))
  unfold scanRange
  rw [hb.1, scanStr_token e lay hl _ opening _
    (scalar_append (fun c hc => (hlead c hc).1) (scalar_append (token_scalar hopen) (scalar_append hit hcs)))
    (spaces_drop hlead (token_stop hopen _)) hopen', Res.bind_ok]
  have key : ∃ q, rangeLoop e lay b rd add maxSize true init (encodes e (itemsText sep gap xs ++ (close ++ rest))) =
      .ok (xs.foldl (fun a x => add a x.val) init, encodes e q) ∧ (∀ c ∈ q, IsScalar c) ∧ q.dropWhile isSpace = close ++ rest := by
    cases xs with
    | nil =>
      have hd : (gap ++ (close ++ rest)).dropWhile isSpace = close ++ rest := spaces_drop hgap (token_stop hclose rest)
      refine ⟨gap ++ (close ++ rest), ?_, scalar_append hit hcs, hd⟩
      cases maxSize with
      | zero => rfl
      | succ left =>
        rw [rangeLoop, hb.2.2, itemsText, scanStr_token e lay hl (gap ++ (close ++ rest)) close rest (scalar_append hit hcs) hd hclose']
        rfl
    | cons x xs =>
      cases maxSize with
      | zero => simp at hlen
      | succ left =>
        obtain ⟨q, hq1, hq2, hq3⟩ := item_read e rd sep (close ++ rest) hsep (token_stop hclose rest) hcs x xs hok
          (hrd x (by simp)) hf.1
        have htxt : itemsText sep gap (x :: xs) ++ (close ++ rest) = x.text ++ (x.after ++ (moreItems sep xs ++ (close ++ rest))) := by
          simp [itemsText, List.append_assoc]
        have hsc := scalar_append hit hcs
        rw [htxt] at hsc
        have hmis : scanStr e lay (encodes e (itemsText sep gap (x :: xs) ++ (close ++ rest))) b.closing = .err .invalidScannedValue := by
          rw [hb.2.2, htxt]
          obtain ⟨ws, c, r, h1, h2, h3, h4⟩ := hst x (by simp)
          refine scanStr_unlike e lay hl _ close (r ++ (x.after ++ (moreItems sep xs ++ (close ++ rest)))) c hsc ?_ hclose h4
          rw [h1, List.append_assoc]
          exact dropWhile_stop _ _ _ h2 (Or.inr ⟨c, _, rfl, h3⟩)
        rw [rangeLoop, hmis]
        dsimp only
        rw [innerLoop, if_pos rfl, Res.bind_ok, htxt, hq1, Res.bind_ok]
        exact range_more e lay hl b sep close rest hb.2 hsep hclose hdiff hrest rd add xs left (add init x.val) q
          (by simp at hlen; omega) hok.tail (fun y hy => hrd y (by simp [hy])) hf.2 hq2 hq3
  obtain ⟨q, hq1, hq2, hq3⟩ := key
  rw [hq1, Res.bind_ok, hb.2.2, scanStr_token e lay hl q close rest hq2 hq3 hclose']
  rfl

theorem spaces_drop' {ws : List Nat} (h : Spaces ws) (q : List Nat) : (ws ++ q).dropWhile isSpace = q.dropWhile isSpace := by
  induction ws with
  | nil => rfl
  | cons c ws ih =>
    rw [List.cons_append, List.dropWhile_cons, if_pos (h c (by simp)).2]
    exact ih fun x hx => h x (by simp [hx])

theorem drop_scalar {p : List Nat} (h : ∀ c ∈ p, IsScalar c) : ∀ c ∈ p.dropWhile isSpace, IsScalar c :=
  fun c hc => h c ((List.dropWhile_sublist _).mem hc)

/-- The members of a tuple after the first (or all of them, from the position after the opening bracket). -/
theorem tuple_more (e : Enc) (lay : List Nat → Layout) (hl : GoodLayouts e lay) (b : Brackets) (sep tail : List Nat)
    (hb : b.separator = encodes e sep) (hsep : Token sep) (hts : ∀ c ∈ tail, IsScalar c)
    (ms : List ((List Nat → Res (V × List Nat)) × Item V)) :
    ∀ p, ItemsOk e (ms.map Prod.snd) → (∀ m ∈ ms, ReadsAs e m.1 m.2.val m.2.text m.2.follow) →
      ItemsFollow sep (ms.map Prod.snd) tail → (∀ c ∈ p, IsScalar c) →
      p.dropWhile isSpace = (moreItems sep (ms.map Prod.snd) ++ tail).dropWhile isSpace →
      ∃ q, tupleLoop e lay b (ms.map Prod.fst) false (encodes e p) = .ok (ms.map fun m => m.2.val, encodes e q) ∧
        (∀ c ∈ q, IsScalar c) ∧ q.dropWhile isSpace = tail.dropWhile isSpace := by
  have hsep' : sep ≠ [] := by obtain ⟨c, r, rfl, _⟩ := hsep; simp
  induction ms with
  | nil => intro p _ _ _ hp hd; exact ⟨p, rfl, hp, by simpa [moreItems] using hd⟩
  | cons m ms ih =>
    intro p hok hrd hf hp hd
    rw [List.map_cons, moreItems_cons] at hd
    have hd' : p.dropWhile isSpace =
        sep ++ (m.2.text ++ (m.2.after ++ (moreItems sep (ms.map Prod.snd) ++ tail))) := by
      rw [hd, List.append_assoc, token_drop hsep]; simp [List.append_assoc]
    have h1 : ∀ c ∈ m.2.after ++ (moreItems sep (ms.map Prod.snd) ++ tail), IsScalar c :=
      scalar_append (fun c hc => (hok.after m.2 (by simp) c hc).1)
        (scalar_append (moreItems_scalar (token_scalar hsep) hok.tail) hts)
    obtain ⟨q, hq1, hq2, hq3⟩ := hrd m (by simp) _ h1 hf.1
    rw [spaces_drop' (hok.after m.2 (by simp))] at hq3
    obtain ⟨q', h2, h3, h4⟩ := ih q hok.tail (fun y hy => hrd y (by simp [hy])) hf.2 hq2 hq3
    refine ⟨q', ?_, h3, h4⟩
    rw [List.map_cons, tupleLoop, innerLoop, if_neg (by simp), hb, scanStr_token e lay hl p sep _ hp hd' hsep', Res.bind_ok,
      hq1, Res.bind_ok, h2]
    rfl

theorem tuple_run (e : Enc) (lay : List Nat → Layout) (hl : GoodLayouts e lay) (b : Brackets) (opening sep close lead gap rest : List Nat)
    (hb : b.opening = encodes e opening ∧ b.separator = encodes e sep ∧ b.closing = encodes e close)
    (hopen : opening = [] ∨ Token opening) (hsep : Token sep) (hclose : close = [] ∨ Token close)
    (hrest : ∀ c ∈ rest, IsScalar c) (hlead : Spaces lead) (hgap : Spaces gap)
    (ms : List ((List Nat → Res (V × List Nat)) × Item V)) (hok : ItemsOk e (ms.map Prod.snd))
    (hrd : ∀ m ∈ ms, ReadsAs e m.1 m.2.val m.2.text m.2.follow)
    (hf : ItemsFollow sep (ms.map Prod.snd) (close ++ rest))
    (h0 : opening = [] → ∃ c r, itemsText sep gap (ms.map Prod.snd) = c :: r ∧ isSpace c = false)
    (h1 : close = [] → rest.dropWhile isSpace ≠ []) :
    ∃ p, scanTuple e lay b (ms.map Prod.fst)
        (encodes e (lead ++ (opening ++ (itemsText sep gap (ms.map Prod.snd) ++ (close ++ rest))))) =
      .ok (ms.map fun m => m.2.val, encodes e p) ∧ (∀ c ∈ p, IsScalar c) ∧ p.dropWhile isSpace = rest.dropWhile isSpace ∧
        (close ≠ [] → p = rest) := by
  have hcsc : ∀ c ∈ close, IsScalar c := by rcases hclose with rfl | h; · simp
                                            · exact token_scalar h
  have hosc : ∀ c ∈ opening, IsScalar c := by rcases hopen with rfl | h; · simp
                                              · exact token_scalar h
  have hcs : ∀ c ∈ close ++ rest, IsScalar c := scalar_append hcsc hrest
  have hit : ∀ c ∈ itemsText sep gap (ms.map Prod.snd), IsScalar c := by
    cases ms with
    | nil => exact fun c hc => (hgap c hc).1
    | cons m ms =>
      exact scalar_append (hok.text m.2 (by simp)) (scalar_append (fun c hc => (hok.after m.2 (by simp) c hc).1)
        (moreItems_scalar (token_scalar hsep) hok.tail))
  have hall := scalar_append (fun c hc => (hlead c hc).1) (scalar_append hosc (scalar_append hit hcs))
  have hstart : scanStr e lay (encodes e (lead ++ (opening ++ (itemsText sep gap (ms.map Prod.snd) ++ (close ++ rest))))) b.opening =
      .ok (encodes e (itemsText sep gap (ms.map Prod.snd) ++ (close ++ rest))) := by
    rw [hb.1]
    rcases hopen with rfl | h
    · obtain ⟨c, r, hc, hs⟩ := h0 rfl
      exact scanStr_empty e lay hl _ _ hall (by rw [spaces_drop' hlead, List.nil_append, hc, List.cons_append, List.dropWhile_cons,
        if_neg (by simp [hs])]) (by rw [hc]; simp)
    · exact scanStr_token e lay hl _ opening _ hall (spaces_drop hlead (token_stop h _)) (by obtain ⟨c, r, rfl, _⟩ := h; simp)
  have key : ∃ q, tupleLoop e lay b (ms.map Prod.fst) true (encodes e (itemsText sep gap (ms.map Prod.snd) ++ (close ++ rest))) =
      .ok (ms.map fun m => m.2.val, encodes e q) ∧ (∀ c ∈ q, IsScalar c) ∧
        q.dropWhile isSpace = (close ++ rest).dropWhile isSpace := by
    cases ms with
    | nil => exact ⟨gap ++ (close ++ rest), rfl, scalar_append hit hcs, spaces_drop' hgap _⟩
    | cons m ms =>
      have h2 : ∀ c ∈ m.2.after ++ (moreItems sep (ms.map Prod.snd) ++ (close ++ rest)), IsScalar c :=
        scalar_append (fun c hc => (hok.after m.2 (by simp) c hc).1)
          (scalar_append (moreItems_scalar (token_scalar hsep) hok.tail) hcs)
      obtain ⟨q, hq1, hq2, hq3⟩ := hrd m (by simp) _ h2 hf.1
      rw [spaces_drop' (hok.after m.2 (by simp))] at hq3
      obtain ⟨q', h3, h4, h5⟩ := tuple_more e lay hl b sep (close ++ rest) hb.2.1 hsep hcs ms q hok.tail
        (fun y hy => hrd y (by simp [hy])) hf.2 hq2 hq3
      refine ⟨q', ?_, h4, h5⟩
      have htxt : itemsText sep gap ((m :: ms).map Prod.snd) ++ (close ++ rest) =
          m.2.text ++ (m.2.after ++ (moreItems sep (ms.map Prod.snd) ++ (close ++ rest))) := by
        simp [itemsText, List.append_assoc]
      rw [htxt, List.map_cons, tupleLoop, innerLoop, if_pos rfl, Res.bind_ok, hq1, Res.bind_ok, h3]
      rfl
  obtain ⟨q, hq1, hq2, hq3⟩ := key
  unfold scanTuple
  rw [hstart, Res.bind_ok, hq1, Res.bind_ok, hb.2.2]
  rcases hclose with rfl | h
  · rw [List.nil_append] at hq3
    rw [show encodes e [] = [] from rfl, scanStr_empty e lay hl q _ hq2 hq3 (h1 rfl)]
    exact ⟨_, rfl, drop_scalar hrest, dropWhile_idem _, fun h => absurd rfl h⟩
  · rw [token_drop h] at hq3
    rw [scanStr_token e lay hl q close rest hq2 hq3 (by obtain ⟨c, r, rfl, _⟩ := h; simp)]
    exact ⟨rest, rfl, hrest, rfl, fun _ => rfl⟩

end Scn
