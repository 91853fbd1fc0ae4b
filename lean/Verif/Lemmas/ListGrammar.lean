import Verif.Spec.ListGrammar
import Verif.Lemmas.ListLine
import Verif.Lemmas.Boundary6
import Verif.Lemmas.Alone2
/-
Ranges and tuples are read exactly if they are written.
-/
namespace Scn
open Spec

variable {V C : Type}

theorem skipsTo_suffix {t p q : List Nat} (h : SkipsTo t p q) : q <:+ p :=
  (List.suffix_append t q).trans (h.1 ▸ List.dropWhile_suffix _)

theorem skipsTo_inj {t p q r : List Nat} (h : SkipsTo t p q) (h' : SkipsTo t p r) : q = r :=
  List.append_cancel_left (h.1.symm.trans h'.1)

theorem scanStr_exact {e : Enc} {lay : List Nat → Layout} (hl : GoodLayouts e lay) {t : List Nat} (ht : Mark t) {p : List Nat} (hp : ∀ c ∈ p, IsScalar c) :
    (∃ q, SkipsTo t p q ∧ scanStr e lay (encodes e p) t = .ok (encodes e q)) ∨
      ((∀ q, ¬ SkipsTo t p q) ∧ ∃ x, scanStr e lay (encodes e p) t = .err x) := by
  by_cases hd : p.dropWhile isSpace = []
  · refine Or.inr ⟨fun q h => h.2 (h.1.symm.trans hd), .endOfInput, ?_⟩
    unfold scanStr
    rw [skipSpace_encodes e _ _ hp (hl p hp), if_pos ⟨rfl, (dropWhile_nil_iff _ _).1 hd⟩]
    rfl
  · rcases ht with rfl | ⟨c, rfl, hc, hsp⟩
    · exact Or.inl ⟨p.dropWhile isSpace, ⟨rfl, hd⟩, scanStr_empty e lay hl p _ hp rfl hd⟩
    · have hE : encodes e [c] = [c] := encodes_asciis e [c] (by simpa using hc)
      cases hq : p.dropWhile isSpace with
      | nil => exact absurd hq hd
      | cons d q =>
        by_cases hcd : d = c
        · subst hcd
          refine Or.inl ⟨q, ⟨hq, by simp⟩, ?_⟩
          have := scanStr_token e lay hl p [d] q hp hq (by simp)
          rwa [hE] at this
        · refine Or.inr ⟨fun q' h => ?_, .invalidScannedValue, ?_⟩
          · have := h.1
            rw [hq] at this
            exact hcd (List.cons.inj this).1
          · have := scanStr_unlike e lay hl p [c] q d hp hq ⟨c, [], rfl, hc, hsp, by simp⟩ (by simpa using fun h => hcd h.symm)
            rwa [hE] at this

theorem reads_of {e : Enc} {rd : List Nat → Res (V × List Nat)} (h : Wholly e rd) {p : List Nat} (hp : ∀ c ∈ p, IsScalar c) {v : V} {r : List Nat}
    (hr : rd (encodes e p) = .ok (v, r)) : ∃ q, r = encodes e q ∧ Reads e rd p v q := by
  obtain ⟨q, hq, rfl⟩ := h p hp v r hr
  exact ⟨q, rfl, hq, hr⟩

theorem innerLoop_exact {e : Enc} {lay : List Nat → Layout} (hl : GoodLayouts e lay) {b : Brackets} (hsep : Mark b.separator)
    {rd : List Nat → Res (V × List Nat)} (hrd : Wholly e rd) (first : Bool) {p : List Nat} (hp : ∀ c ∈ p, IsScalar c) (v : V) (s : List Nat) :
    innerLoop e lay b rd first (encodes e p) = .ok (v, s) ↔
      ∃ p1 p2, (if first then p1 = p else SkipsTo b.separator p p1) ∧ Reads e rd p1 v p2 ∧ s = encodes e p2 := by
  unfold innerLoop
  cases first with
  | true =>
    rw [if_pos rfl, Res.bind_ok]
    constructor
    · intro h
      obtain ⟨q, hq, h1⟩ := reads_of hrd hp h
      exact ⟨p, q, by rw [if_pos rfl], h1, hq⟩
    · rintro ⟨p1, p2, h1, h2, rfl⟩
      rw [if_pos rfl] at h1
      subst h1
      exact h2.2
  | false =>
    rw [if_neg (by simp)]
    rcases scanStr_exact hl hsep hp with ⟨q, hq, hs⟩ | ⟨hq, x, hs⟩
    · rw [hs, Res.bind_ok]
      constructor
      · intro h
        obtain ⟨q2, hq2, h1⟩ := reads_of hrd (fun c hc => hp c ((skipsTo_suffix hq).subset hc)) h
        exact ⟨q, q2, by rw [if_neg (by simp)]; exact hq, h1, hq2⟩
      · rintro ⟨p1, p2, h1, h2, rfl⟩
        rw [if_neg (by simp)] at h1
        cases skipsTo_inj hq h1
        exact h2.2
    · rw [hs]
      constructor
      · intro h; cases h
      · rintro ⟨p1, p2, h1, h2, rfl⟩
        rw [if_neg (by simp)] at h1
        exact absurd h1 (hq p1)

theorem between_suffix {first : Bool} {sep p p1 p2 : List Nat} {v : V} {e : Enc} {rd : List Nat → Res (V × List Nat)}
    (h1 : if first then p1 = p else SkipsTo sep p p1) (h2 : Reads e rd p1 v p2) : p2 <:+ p := by
  cases first with
  | true => rw [if_pos rfl] at h1; subst h1; exact h2.1
  | false => rw [if_neg (by simp)] at h1; exact h2.1.trans (skipsTo_suffix h1)

theorem rangeLoop_exact {e : Enc} {lay : List Nat → Layout} (hl : GoodLayouts e lay) {b : Brackets} (hsep : Mark b.separator) (hcl : Mark b.closing)
    (hcs : ∀ p q r, SkipsTo b.separator p q → ¬ SkipsTo b.closing p r)
    {rd : List Nat → Res (V × List Nat)} (hrd : Wholly e rd) (add : C → V → C) (n : Nat) (first : Bool) (init : C) {p : List Nat}
    (hp : ∀ c ∈ p, IsScalar c) (c : C) (s : List Nat) :
    ((rangeLoop e lay b rd add n first init (encodes e p)).bind fun r => (scanStr e lay r.2 b.closing).map fun s2 => (r.1, s2)) = .ok (c, s) ↔
      ∃ vs q r, vs.length ≤ n ∧ Listed b.separator first (List.replicate vs.length (Reads e rd)) vs p q ∧ SkipsTo b.closing q r ∧ s = encodes e r ∧
        c = vs.foldl add init ∧ (first = true → vs ≠ [] → ∀ r', ¬ SkipsTo b.closing p r') := by
  induction n generalizing first init p with
  | zero =>
    rw [rangeLoop, Res.bind_ok]
    rcases scanStr_exact hl hcl hp with ⟨q, hq, hs⟩ | ⟨hq, x, hs⟩
    · dsimp only
      rw [hs]
      simp only [Res.map_ok, Res.ok.injEq, Prod.mk.injEq]
      constructor
      · rintro ⟨rfl, rfl⟩
        exact ⟨[], p, q, Nat.le_refl _, rfl, hq, rfl, rfl, fun _ h => absurd rfl h⟩
      · rintro ⟨vs, q', r, hn, h1, h2, rfl, rfl, _⟩
        cases vs with
        | cons v vs => simp at hn
        | nil =>
          have h1 : p = q' := h1
          subst h1
          cases skipsTo_inj hq h2
          exact ⟨rfl, rfl⟩
    · dsimp only
      rw [hs]
      constructor
      · intro h; cases h
      · rintro ⟨vs, q', r, hn, h1, h2, rfl, rfl, _⟩
        cases vs with
        | cons v vs => simp at hn
        | nil =>
          have h1 : p = q' := h1
          subst h1
          exact absurd h2 (hq r)
  | succ n ih =>
    rw [rangeLoop]
    rcases scanStr_exact hl hcl hp with ⟨q, hq, hs⟩ | ⟨hq, x, hs⟩
    · rw [hs]
      dsimp only
      rw [Res.bind_ok]
      dsimp only
      rw [hs]
      simp only [Res.map_ok, Res.ok.injEq, Prod.mk.injEq]
      constructor
      · rintro ⟨rfl, rfl⟩
        exact ⟨[], p, q, Nat.zero_le _, rfl, hq, rfl, rfl, fun _ h => absurd rfl h⟩
      · rintro ⟨vs, q', r, hn, h1, h2, rfl, rfl, h3⟩
        cases vs with
        | cons v vs =>
          cases first with
          | true => exact absurd hq (h3 rfl (by simp) q)
          | false =>
            obtain ⟨p1, p2, h4, -, -⟩ := h1
            rw [if_neg (by simp)] at h4
            exact absurd hq (hcs p p1 q h4)
        | nil =>
          have h1 : p = q' := h1
          subst h1
          cases skipsTo_inj hq h2
          exact ⟨rfl, rfl⟩
    · rw [hs]
      dsimp only
      constructor
      · intro h
        cases hin : innerLoop e lay b rd first (encodes e p) with
        | ub => rw [hin] at h; cases h
        | err y => rw [hin] at h; cases h
        | ok a =>
          obtain ⟨v, s1⟩ := a
          obtain ⟨p1, p2, h1, h2, rfl⟩ := (innerLoop_exact hl hsep hrd first hp v s1).1 hin
          rw [hin, Res.bind_ok] at h
          have hp2 := between_suffix h1 h2
          obtain ⟨vs, q', r, h3, h4, h5, h6, h7, -⟩ := (ih false (add init v) (fun c hc => hp c (hp2.subset hc))).1 h
          exact ⟨v :: vs, q', r, Nat.succ_le_succ h3, ⟨p1, p2, h1, h2, h4⟩, h5, h6, h7, fun _ _ => hq⟩
      · rintro ⟨vs, q', r, hn, h1, h2, rfl, rfl, h3⟩
        cases vs with
        | nil =>
          have h1 : p = q' := h1
          subst h1
          exact absurd h2 (hq r)
        | cons v vs =>
          obtain ⟨p1, p2, h4, h5, h6⟩ := h1
          rw [(innerLoop_exact hl hsep hrd first hp v _).2 ⟨p1, p2, h4, h5, rfl⟩, Res.bind_ok]
          have hp2 := between_suffix h4 h5
          exact (ih false (add init v) (fun c hc => hp c (hp2.subset hc))).2
            ⟨vs, q', r, Nat.le_of_succ_le_succ hn, h6, h2, rfl, rfl, by simp⟩

theorem listed_suffix {sep : List Nat} {Rs : List (List Nat → V → List Nat → Prop)} (hR : ∀ R ∈ Rs, ∀ p v q, R p v q → q <:+ p) {first : Bool} {vs : List V}
    {p q : List Nat} (h : Listed sep first Rs vs p q) : q <:+ p := by
  induction Rs generalizing first vs p with
  | nil =>
    cases vs with
    | nil =>
      have h : p = q := h
      rw [h]; exact List.suffix_refl _
    | cons v vs => exact h.elim
  | cons R Rs ih =>
    cases vs with
    | nil => exact h.elim
    | cons v vs =>
      obtain ⟨p1, p2, h1, h2, h3⟩ := h
      have h4 := (ih (fun R hR' => hR R (by simp [hR'])) h3).trans (hR R (by simp) _ _ _ h2)
      cases first with
      | true => rw [if_pos rfl] at h1; subst h1; exact h4
      | false => rw [if_neg (by simp)] at h1; exact h4.trans (skipsTo_suffix h1)

theorem tupleText_suffix {b : Brackets} {Rs : List (List Nat → V → List Nat → Prop)} (hR : ∀ R ∈ Rs, ∀ p v q, R p v q → q <:+ p) {vs : List V}
    {p q : List Nat} (h : TupleText b Rs vs p q) : q <:+ p := by
  obtain ⟨p1, q1, h1, h2, h3⟩ := h
  exact (skipsTo_suffix h3).trans ((listed_suffix hR h2).trans (skipsTo_suffix h1))

theorem tupleLoop_exact {e : Enc} {lay : List Nat → Layout} (hl : GoodLayouts e lay) {b : Brackets} (hsep : Mark b.separator)
    {rds : List (List Nat → Res (V × List Nat))} (hrd : ∀ rd ∈ rds, Wholly e rd) (first : Bool) {p : List Nat}
    (hp : ∀ c ∈ p, IsScalar c) (vs : List V) (s : List Nat) :
    tupleLoop e lay b rds first (encodes e p) = .ok (vs, s) ↔
      ∃ q, s = encodes e q ∧ Listed b.separator first (rds.map (Reads e)) vs p q := by
  induction rds generalizing first p vs with
  | nil =>
    rw [tupleLoop]
    simp only [Res.ok.injEq, Prod.mk.injEq]
    constructor
    · rintro ⟨rfl, rfl⟩
      exact ⟨p, rfl, rfl⟩
    · rintro ⟨q, rfl, h⟩
      cases vs with
      | nil =>
        have h : p = q := h
        exact ⟨rfl, by rw [h]⟩
      | cons v vs => exact h.elim
  | cons rd rds ih =>
    rw [tupleLoop]
    have hrd0 := hrd rd (by simp)
    have hrds : ∀ rd ∈ rds, Wholly e rd := fun r hr => hrd r (by simp [hr])
    constructor
    · intro h
      cases hin : innerLoop e lay b rd first (encodes e p) with
      | ub => rw [hin] at h; cases h
      | err y => rw [hin] at h; cases h
      | ok a =>
        obtain ⟨v, s1⟩ := a
        obtain ⟨p1, p2, h1, h2, rfl⟩ := (innerLoop_exact hl hsep hrd0 first hp v s1).1 hin
        rw [hin, Res.bind_ok] at h
        dsimp only at h
        have hp2 := between_suffix h1 h2
        cases ht : tupleLoop e lay b rds false (encodes e p2) with
        | ub => rw [ht] at h; cases h
        | err y => rw [ht] at h; cases h
        | ok a =>
          obtain ⟨ws, s2⟩ := a
          rw [ht] at h
          simp only [Res.map_ok, Res.ok.injEq, Prod.mk.injEq] at h
          obtain ⟨rfl, rfl⟩ := h
          obtain ⟨q, hq, h4⟩ := (ih hrds false (fun c hc => hp c (hp2.subset hc)) ws).1 ht
          exact ⟨q, hq, p1, p2, h1, h2, h4⟩
    · rintro ⟨q, rfl, h⟩
      cases vs with
      | nil => exact h.elim
      | cons v vs =>
        obtain ⟨p1, p2, h4, h5, h6⟩ := h
        rw [(innerLoop_exact hl hsep hrd0 first hp v _).2 ⟨p1, p2, h4, h5, rfl⟩, Res.bind_ok]
        have hp2 := between_suffix h4 h5
        dsimp only
        rw [(ih hrds false (fun c hc => hp c (hp2.subset hc)) vs).2 ⟨q, rfl, h6⟩]
        rfl

theorem scanTuple_exact {e : Enc} {lay : List Nat → Layout} (hl : GoodLayouts e lay) {b : Brackets} (hb : BracketMarks b)
    {rds : List (List Nat → Res (V × List Nat))} (hrd : ∀ rd ∈ rds, Wholly e rd) {p : List Nat} (hp : ∀ c ∈ p, IsScalar c) (vs : List V) (s : List Nat) :
    scanTuple e lay b rds (encodes e p) = .ok (vs, s) ↔ ∃ r, s = encodes e r ∧ TupleText b (rds.map (Reads e)) vs p r := by
  have hR : ∀ R ∈ rds.map (Reads (V := V) e), ∀ p v q, R p v q → q <:+ p := by
    intro R hR p v q h
    obtain ⟨rd, _, rfl⟩ := List.mem_map.1 hR
    exact h.1
  unfold scanTuple
  rcases scanStr_exact hl hb.opening hp with ⟨p1, hp1, hs⟩ | ⟨hq, x, hs⟩
  · have hp1' : ∀ c ∈ p1, IsScalar c := fun c hc => hp c ((skipsTo_suffix hp1).subset hc)
    rw [hs, Res.bind_ok]
    constructor
    · intro h
      cases ht : tupleLoop e lay b rds true (encodes e p1) with
      | ub => rw [ht] at h; cases h
      | err y => rw [ht] at h; cases h
      | ok a =>
        obtain ⟨ws, s2⟩ := a
        rw [ht, Res.bind_ok] at h
        obtain ⟨q, rfl, h2⟩ := (tupleLoop_exact hl hb.separator hrd true hp1' ws s2).1 ht
        have hq' : ∀ c ∈ q, IsScalar c := fun c hc => hp1' c ((listed_suffix hR h2).subset hc)
        dsimp only at h
        rcases scanStr_exact hl hb.closing hq' with ⟨r, hr, hs'⟩ | ⟨_, x, hs'⟩
        · rw [hs'] at h
          simp only [Res.map_ok, Res.ok.injEq, Prod.mk.injEq] at h
          obtain ⟨rfl, rfl⟩ := h
          exact ⟨r, rfl, p1, q, hp1, h2, hr⟩
        · rw [hs'] at h; cases h
    · rintro ⟨r, rfl, p1', q, h1, h2, h3⟩
      cases skipsTo_inj hp1 h1
      rw [(tupleLoop_exact hl hb.separator hrd true hp1' vs _).2 ⟨q, rfl, h2⟩, Res.bind_ok]
      have hq' : ∀ c ∈ q, IsScalar c := fun c hc => hp1' c ((listed_suffix hR h2).subset hc)
      dsimp only
      rcases scanStr_exact hl hb.closing hq' with ⟨r', hr, hs'⟩ | ⟨hn, x, hs'⟩
      · rw [hs']
        cases skipsTo_inj hr h3
        rfl
      · exact absurd h3 (hn r)
  · rw [hs]
    constructor
    · intro h; cases h
    · rintro ⟨r, rfl, p1', q, h1, h2, h3⟩
      exact absurd h1 (hq p1')

theorem scanRange_exact {e : Enc} {lay : List Nat → Layout} (hl : GoodLayouts e lay) {b : Brackets} (hb : BracketMarks b)
    (hcs : ∀ p q r, SkipsTo b.separator p q → ¬ SkipsTo b.closing p r)
    {rd : List Nat → Res (V × List Nat)} (hrd : Wholly e rd) (add : C → V → C) (n : Nat) (init : C) {p : List Nat}
    (hp : ∀ c ∈ p, IsScalar c) (c : C) (s : List Nat) :
    scanRange e lay b rd add n init (encodes e p) = .ok (c, s) ↔
      ∃ vs r, s = encodes e r ∧ c = vs.foldl add init ∧ RangeText b (Reads e rd) n vs p r := by
  unfold scanRange
  rcases scanStr_exact hl hb.opening hp with ⟨p1, hp1, hs⟩ | ⟨hq, x, hs⟩
  · have hp1' : ∀ c ∈ p1, IsScalar c := fun c hc => hp c ((skipsTo_suffix hp1).subset hc)
    rw [hs, Res.bind_ok, rangeLoop_exact hl hb.separator hb.closing hcs hrd add n true init hp1' c s]
    constructor
    · rintro ⟨vs, q, r, h1, h2, h3, h4, h5, h6⟩
      refine ⟨vs, r, h4, h5, h1, ⟨p1, q, hp1, h2, h3⟩, fun hne p1' r' h7 => ?_⟩
      cases skipsTo_inj hp1 h7
      exact h6 rfl hne r'
    · rintro ⟨vs, r, h4, h5, h1, ⟨p1', q, h7, h2, h3⟩, h6⟩
      cases skipsTo_inj hp1 h7
      exact ⟨vs, q, r, h1, h2, h3, h4, h5, fun _ hne r' => h6 hne p1 r' hp1⟩
  · rw [hs]
    constructor
    · intro h; cases h
    · rintro ⟨vs, r, h4, h5, h1, ⟨p1', q, h7, h2, h3⟩, h6⟩
      exact absurd h7 (hq p1')

/-- Different marks do not come first both. -/
theorem marks_differ {c d : Nat} (h : c ≠ d) (p q r : List Nat) (h1 : SkipsTo [c] p q) : ¬ SkipsTo [d] p r := by
  intro h2
  have := h1.1.symm.trans h2.1
  exact h (List.cons.inj this).1

/-! ### Collections -/

theorem listed_iff {sep : List Nat} {Rs Ss : List (List Nat → V → List Nat → Prop)} (hlen : Rs.length = Ss.length) {P : List Nat → Prop}
    (hP : ∀ p q, q <:+ p → P p → P q)
    (hR : ∀ R ∈ Rs, ∀ p v q, R p v q → q <:+ p) (h : ∀ i (h1 : i < Rs.length) (h2 : i < Ss.length) p v q, P p → (Rs[i] p v q ↔ Ss[i] p v q))
    (first : Bool) (vs : List V) (p q : List Nat) (hp : P p) : Listed sep first Rs vs p q ↔ Listed sep first Ss vs p q := by
  induction Rs generalizing Ss first vs p with
  | nil =>
    cases Ss with
    | cons S Ss => simp at hlen
    | nil => exact Iff.rfl
  | cons R Rs ih =>
    cases Ss with
    | nil => simp at hlen
    | cons S Ss =>
      cases vs with
      | nil => exact Iff.rfl
      | cons v vs =>
        have hmid : ∀ p1, (if first then p1 = p else SkipsTo sep p p1) → P p1 := by
          intro p1 h1
          cases first with
          | true => rw [if_pos rfl] at h1; subst h1; exact hp
          | false => rw [if_neg (by simp)] at h1; exact hP p p1 (skipsTo_suffix h1) hp
        have h0 : ∀ p v q, P p → (R p v q ↔ S p v q) := fun p v q hp => h 0 (by simp) (by simp) p v q hp
        have hs : ∀ p1 p2, (if first then p1 = p else SkipsTo sep p p1) → R p1 v p2 → (Listed sep false Rs vs p2 q ↔ Listed sep false Ss vs p2 q) := by
          intro p1 p2 h1 h2
          exact ih (by simpa using hlen) (fun R' h' => hR R' (by simp [h']))
            (fun i h1 h2 => h (i + 1) (by simpa using h1) (by simpa using h2)) false vs p2
            (hP p1 p2 (hR R (by simp) _ _ _ h2) (hmid p1 h1))
        constructor
        · rintro ⟨p1, p2, h1, h2, h3⟩
          exact ⟨p1, p2, h1, (h0 p1 v p2 (hmid p1 h1)).1 h2, (hs p1 p2 h1 h2).1 h3⟩
        · rintro ⟨p1, p2, h1, h2, h3⟩
          have h2' := (h0 p1 v p2 (hmid p1 h1)).2 h2
          exact ⟨p1, p2, h1, h2', (hs p1 p2 h1 h2').2 h3⟩

theorem collTexts_map (R : Dest → Specs → List Nat → Val → List Nat → Prop) (ms : List Coll) :
    CollTexts R ms = ms.map fun m => CollText R m {} [] := by
  induction ms with
  | nil => rw [CollTexts]; rfl
  | cons m ms ih => rw [CollTexts, ih]; rfl

/-- Ranges and tuples with the brackets of the library, of elements that read whole characters. -/
inductive Coll.Ok (e : Enc) : Coll → Prop
  | item {d : Dest} (h : d.ByCharacter e) : Coll.Ok e (.item d)
  | range {b : Brackets} {n : Nat} {el : Coll} (hb : b = .sequence ∨ b = .set) (h : Coll.Ok e el) : Coll.Ok e (.range b n el)
  | tuple {b : Brackets} {ms : List Coll} (hb : b = .tuple ∨ b = .mapEntry) (h : ∀ m ∈ ms, Coll.Ok e m) : Coll.Ok e (.tuple b ms)

theorem range_marks {b : Brackets} (hb : b = .sequence ∨ b = .set) :
    BracketMarks b ∧ ∀ p q r, SkipsTo b.separator p q → ¬ SkipsTo b.closing p r := by
  rcases hb with rfl | rfl
  · exact ⟨⟨Or.inr ⟨_, rfl, by decide, by decide⟩, Or.inr ⟨_, rfl, by decide, by decide⟩, Or.inr ⟨_, rfl, by decide, by decide⟩⟩,
      marks_differ (by decide)⟩
  · exact ⟨⟨Or.inr ⟨_, rfl, by decide, by decide⟩, Or.inr ⟨_, rfl, by decide, by decide⟩, Or.inr ⟨_, rfl, by decide, by decide⟩⟩,
      marks_differ (by decide)⟩

theorem tuple_marks {b : Brackets} (hb : b = .tuple ∨ b = .mapEntry) : BracketMarks b := by
  rcases hb with rfl | rfl
  · exact ⟨Or.inr ⟨_, rfl, by decide, by decide⟩, Or.inr ⟨_, rfl, by decide, by decide⟩, Or.inr ⟨_, rfl, by decide, by decide⟩⟩
  · exact ⟨Or.inl rfl, Or.inl rfl, Or.inr ⟨_, rfl, by decide, by decide⟩⟩

/-- Specifications that are described by a padded field, with a set of characters that can be read. -/
def GoodSpecs (e : Enc) (sp : Specs) : Prop := (∃ F, Describes e sp F) ∧ handleNonascii e sp ≠ .ub

/-- How a value of a built-in type is read within a range. -/
def itemRead (e wide : Enc) (gloc : LocaleData) (d : Dest) (sp : Specs) (s : List Nat) : Res (Val × List Nat) :=
  builtinScan e wide gloc 0 (viewLayout sp s) d sp s

theorem itemRead_wholly {e : Enc} (wide : Enc) {gloc : LocaleData} (hloc : PlainLocale e gloc) {d : Dest} (hd : d.ByCharacter e) {sp : Specs}
    (hsp : GoodSpecs e sp) : Wholly e (itemRead e wide gloc d sp) := by
  intro p hp v r h
  unfold itemRead builtinScan Dest.readSpecs at h
  split at h
  · cases h
  · cases h
  · obtain ⟨⟨F, hF⟩, hset⟩ := hsp
    exact argRead_keeps hF (specsReader_keeps hloc hset hd) (goodLayouts_view e sp _) hp h

theorem rangeText_iff {b : Brackets} {R S : List Nat → V → List Nat → Prop} {P : List Nat → Prop} (hP : ∀ p q, q <:+ p → P p → P q)
    (hR : ∀ p v q, R p v q → q <:+ p) (h : ∀ p v q, P p → (R p v q ↔ S p v q)) (n : Nat) (vs : List V) (p q : List Nat) (hp : P p) :
    RangeText b R n vs p q ↔ RangeText b S n vs p q := by
  have key : TupleText b (List.replicate vs.length R) vs p q ↔ TupleText b (List.replicate vs.length S) vs p q := by
    unfold TupleText
    refine exists_congr fun p1 => exists_congr fun q1 => and_congr_right fun h1 => and_congr_left fun _ => ?_
    refine listed_iff (by simp) hP (fun R' hR' => ?_) (fun i h1 h2 p v q hp => ?_) true vs p1 q1 (hP p p1 (skipsTo_suffix h1) hp)
    · rw [(List.mem_replicate.1 hR').2]; exact hR
    · rw [List.getElem_replicate, List.getElem_replicate]; exact h p v q hp
  unfold RangeText
  rw [key]

theorem collScan_exact {e : Enc} (wide : Enc) {gloc : LocaleData} (hloc : PlainLocale e gloc) (h0 : GoodSpecs e {}) {c : Coll} (hc : c.Ok e) :
    ∀ sp, GoodSpecs e sp → ∀ init p, (∀ x ∈ p, IsScalar x) → 
      (∀ v q, CollText (fun d sp => Reads e (itemRead e wide gloc d sp)) c sp init p v q → q <:+ p) ∧
      ∀ v s, c.scan e wide gloc sp init (encodes e p) = .ok (v, s) ↔
        ∃ q, s = encodes e q ∧ CollText (fun d sp => Reads e (itemRead e wide gloc d sp)) c sp init p v q := by
  induction hc with
  | item hd =>
    rename_i d
    intro sp hsp init p hp
    refine ⟨fun v q h => ?_, fun v s => ?_⟩
    · rw [CollText] at h
      obtain ⟨x, rfl, h⟩ := h
      exact h.1
    · rw [collScan_item]
      change (itemRead e wide gloc d sp (encodes e p)).map _ = _ ↔ _
      constructor
      · intro h
        cases hr : itemRead e wide gloc d sp (encodes e p) with
        | ub => rw [hr] at h; cases h
        | err y => rw [hr] at h; cases h
        | ok a =>
          obtain ⟨x, r⟩ := a
          rw [hr] at h
          simp only [Res.map_ok, Res.ok.injEq, Prod.mk.injEq] at h
          obtain ⟨rfl, rfl⟩ := h
          obtain ⟨q, rfl, h2⟩ := reads_of (itemRead_wholly wide hloc hd hsp) hp hr
          exact ⟨q, rfl, by rw [CollText]; exact ⟨x, rfl, h2⟩⟩
      · rintro ⟨q, rfl, h⟩
        rw [CollText] at h
        obtain ⟨x, rfl, h⟩ := h
        rw [h.2]
        rfl
  | range hb hel ih =>
    rename_i b n el
    intro sp hsp init p hp
    obtain ⟨hm, hcs⟩ := range_marks hb
    have ih := ih sp hsp []
    have hwh : Wholly e (fun s => el.scan e wide gloc sp [] s) := by
      intro p hp v r h
      obtain ⟨q, rfl, h2⟩ := ((ih p hp).2 v r).1 h
      exact ⟨q, (ih p hp).1 v q h2, rfl⟩
    have hrel : ∀ p v q, (∀ x ∈ p, IsScalar x) →
        (Reads e (fun s => el.scan e wide gloc sp [] s) p v q ↔ CollText (fun d sp => Reads e (itemRead e wide gloc d sp)) el sp [] p v q) := by
      intro p v q hp
      constructor
      · rintro ⟨h1, h2⟩
        obtain ⟨q', h3, h4⟩ := ((ih p hp).2 v _).1 h2
        have hq' := (ih p hp).1 v q' h4
        have := encodes_inj e (fun c hc => hp c (h1.subset hc)) (fun c hc => hp c (hq'.subset hc)) h3
        rw [this]; exact h4
      · intro h
        exact ⟨(ih p hp).1 v q h, ((ih p hp).2 v _).2 ⟨q, rfl, h⟩⟩
    have htext : ∀ vs q, RangeText b (Reads e (fun s => el.scan e wide gloc sp [] s)) n vs p q ↔
        RangeText b (CollText (fun d sp => Reads e (itemRead e wide gloc d sp)) el sp []) n vs p q := fun vs q =>
      rangeText_iff (P := fun p => ∀ x ∈ p, IsScalar x) (fun p q h hp x hx => hp x (h.subset hx)) (fun p v q h => h.1) hrel n vs p q hp
    refine ⟨fun v q h => ?_, fun v s => ?_⟩
    · rw [CollText] at h
      obtain ⟨vs, rfl, h⟩ := h
      refine tupleText_suffix (fun R hR => ?_) ((htext vs q).2 h).2.1
      rw [(List.mem_replicate.1 hR).2]
      exact fun p v q h => h.1
    · rw [collScan_range]
      have hx := scanRange_exact (goodLayouts_viewSource e) hm hcs hwh (fun l v => l ++ [v]) n init hp
      constructor
      · intro h
        cases hr : scanRange e viewSource b (fun s => el.scan e wide gloc sp [] s) (fun l v => l ++ [v]) n init (encodes e p) with
        | ub => rw [hr] at h; cases h
        | err y => rw [hr] at h; cases h
        | ok a =>
          obtain ⟨x, r⟩ := a
          rw [hr] at h
          simp only [Res.map_ok, Res.ok.injEq, Prod.mk.injEq] at h
          obtain ⟨rfl, rfl⟩ := h
          obtain ⟨vs, q, rfl, rfl, h2⟩ := (hx x r).1 hr
          refine ⟨q, rfl, ?_⟩
          rw [CollText]
          have hf := foldl_snoc (fun x : CollVal => x) vs init
          rw [List.map_id'] at hf
          exact ⟨vs, by rw [hf], (htext vs q).1 h2⟩
      · rintro ⟨q, rfl, h⟩
        rw [CollText] at h
        obtain ⟨vs, rfl, h⟩ := h
        rw [(hx (init ++ vs) (encodes e q)).2 ⟨vs, q, rfl, ?_, (htext vs q).2 h⟩]
        · rfl
        · have hf := foldl_snoc (fun x : CollVal => x) vs init
          rw [List.map_id'] at hf
          exact hf.symm
  | tuple hb hms ih =>
    rename_i b ms
    intro sp hsp init p hp
    have hm := tuple_marks hb
    have hwh : ∀ rd ∈ ms.map (fun m s => m.scan e wide gloc {} [] s), Wholly e rd := by
      intro rd hrd
      obtain ⟨m, hm, rfl⟩ := List.mem_map.1 hrd
      intro p hp v r h
      obtain ⟨q, rfl, h2⟩ := ((ih m hm {} h0 [] p hp).2 v r).1 h
      exact ⟨q, (ih m hm {} h0 [] p hp).1 v q h2, rfl⟩
    have hrel : ∀ m ∈ ms, ∀ p v q, (∀ x ∈ p, IsScalar x) →
        (Reads e (fun s => m.scan e wide gloc {} [] s) p v q ↔ CollText (fun d sp => Reads e (itemRead e wide gloc d sp)) m {} [] p v q) := by
      intro m hm p v q hp
      have ih := ih m hm {} h0 []
      constructor
      · rintro ⟨h1, h2⟩
        obtain ⟨q', h3, h4⟩ := ((ih p hp).2 v _).1 h2
        have hq' := (ih p hp).1 v q' h4
        have := encodes_inj e (fun c hc => hp c (h1.subset hc)) (fun c hc => hp c (hq'.subset hc)) h3
        rw [this]; exact h4
      · intro h
        exact ⟨(ih p hp).1 v q h, ((ih p hp).2 v _).2 ⟨q, rfl, h⟩⟩
    have hsuf : ∀ R ∈ (ms.map (fun m s => m.scan e wide gloc {} [] s)).map (Reads e), ∀ p v q, R p v q → q <:+ p := by
      intro R hR
      obtain ⟨rd, _, rfl⟩ := List.mem_map.1 hR
      exact fun p v q h => h.1
    have htext : ∀ vs q, TupleText b ((ms.map (fun m s => m.scan e wide gloc {} [] s)).map (Reads e)) vs p q ↔
        TupleText b (CollTexts (fun d sp => Reads e (itemRead e wide gloc d sp)) ms) vs p q := by
      intro vs q
      rw [collTexts_map]
      unfold TupleText
      refine exists_congr fun p1 => exists_congr fun q1 => and_congr_right fun h1 => and_congr_left fun _ => ?_
      refine listed_iff (by simp) (P := fun p => ∀ x ∈ p, IsScalar x) (fun p q h hp x hx => hp x (h.subset hx)) hsuf (fun i h1 h2 p v q hp => ?_) true vs p1 q1
        (fun x hx => hp x ((skipsTo_suffix h1).subset hx))
      simp only [List.getElem_map]
      exact hrel _ (List.getElem_mem _) p v q hp
    refine ⟨fun v q h => ?_, fun v s => ?_⟩
    · rw [CollText] at h
      obtain ⟨vs, rfl, h⟩ := h
      exact tupleText_suffix hsuf ((htext vs q).2 h)
    · rw [collScan_tuple]
      have hx := scanTuple_exact (goodLayouts_viewSource e) hm hwh hp
      constructor
      · intro h
        cases hr : scanTuple e viewSource b (ms.map fun m s => m.scan e wide gloc {} [] s) (encodes e p) with
        | ub => rw [hr] at h; cases h
        | err y => rw [hr] at h; cases h
        | ok a =>
          obtain ⟨x, r⟩ := a
          rw [hr] at h
          simp only [Res.map_ok, Res.ok.injEq, Prod.mk.injEq] at h
          obtain ⟨rfl, rfl⟩ := h
          obtain ⟨q, rfl, h2⟩ := (hx x r).1 hr
          exact ⟨q, rfl, by rw [CollText]; exact ⟨x, rfl, (htext x q).1 h2⟩⟩
      · rintro ⟨q, rfl, h⟩
        rw [CollText] at h
        obtain ⟨vs, rfl, h⟩ := h
        rw [(hx vs (encodes e q)).2 ⟨q, rfl, (htext vs q).2 h⟩]
        rfl

/-! ### Integers -/

/-- Decimal integers: a byte 0x10 makes no difference. -/
theorem readInt_ten (k : Src) (T : IntTy) (hT : T.Std) (uo : Bool) (s : List Nat) (hbytes : k.narrow = true → ∀ c ∈ s, c < 256) :
    readInt k T ⟨10, uo, none⟩ s = scanIntW T 10 uo s := by
  by_cases hq : k.contiguous = true → k.narrow = true → (afterSign s).head? ≠ some 16
  · exact readInt_W k T hT 10 uo s (by omega) hq hbytes
  · rw [readInt_eq, parseIntegerPrefix_eq]
    cases s with
    | nil => rfl
    | cons c cs =>
      dsimp only [scanIntW]
      rw [afterSignPrefix_sign]
      have hneg : (decide ((if c = 45 then Sign.minus else Sign.plus) = Sign.minus)) = (c == 45) := by
        by_cases h : c = 45 <;> simp [h]
      by_cases hbad : (if c = 45 then Sign.minus else Sign.plus) = Sign.minus ∧ (T.signed = false ∨ uo = true)
      · rw [if_pos hbad, if_pos]
        refine ⟨?_, hbad.2⟩
        rw [← hneg]; simpa using hbad.1
      · have hbad' : ¬ ((c == 45) = true ∧ (T.signed = false ∨ uo = true)) := by
          rintro ⟨h1, h2⟩
          apply hbad
          rw [← hneg] at h1
          exact ⟨by simpa using h1, h2⟩
        rw [if_neg hbad, if_neg hbad', ← hneg]
        unfold afterSignPrefix basePrefix chooseBase
        simp only [show ¬ (10 = 2) by decide, show ¬ (10 = 8) by decide, show ¬ (10 = 16) by decide, show ¬ (10 = 0) by decide, if_false,
          Bool.false_eq_true, finish, backtrack, ite_self]
        refine readDigits_spec k T hT _ 10 (by omega) (by omega) ?_ _ ?_
        · intro hs
          by_cases h : c = 45
          · exact absurd ⟨by simp [h], Or.inl hs⟩ hbad
          · simp [h]
        · intro hn x hx
          apply hbytes hn
          by_cases h : c = 45 ∨ c = 43
          · rw [if_pos h] at hx; simp [hx]
          · rw [if_neg h] at hx; exact hx

theorem scanInt_ten (T : IntTy) (s : List Nat) (x : Int) (q : List Nat) :
    scanInt T 10 false s = .ok (x, q) ↔
      ∃ sg ds, s = sg ++ (ds ++ q) ∧ (sg = [] ∨ sg = [43] ∨ sg = [45] ∧ T.signed = true) ∧ ds ≠ [] ∧ (∀ c ∈ ds, IsDigit 10 c) ∧
        (∀ c, q.head? = some c → ¬ IsDigit 10 c) ∧ x = signed (decide (sg = [45])) (value 10 ds) ∧ InRange T x := by
  have hds : ∀ neg t, scanDigits T neg 10 t = .ok (x, q) ↔ ∃ ds, t = ds ++ q ∧ ds ≠ [] ∧ (∀ c ∈ ds, IsDigit 10 c) ∧
      (∀ c, q.head? = some c → ¬ IsDigit 10 c) ∧ x = signed neg (value 10 ds) ∧ InRange T x := by
    intro neg t
    constructor
    · intro h
      unfold scanDigits at h
      split at h
      · cases h
      · rename_i hne
        split at h
        · rename_i hin
          simp only [Res.ok.injEq, Prod.mk.injEq] at h
          obtain ⟨rfl, rfl⟩ := h
          refine ⟨digitRun 10 t, (List.takeWhile_append_dropWhile).symm, hne, fun c hc => ?_, fun c hc => ?_, rfl, hin⟩
          · simpa using (mem_takeWhile hc).2
          · intro hd
            have := List.head?_dropWhile_not (fun c => decide (IsDigit 10 c)) t
            unfold afterRun at hc
            rw [hc] at this
            simp [hd] at this
        · cases h
    · rintro ⟨ds, rfl, h1, h2, h3, rfl, h4⟩
      have hr : digitRun 10 (ds ++ q) = ds ∧ afterRun 10 (ds ++ q) = q := by
        unfold digitRun afterRun
        rw [List.takeWhile_append_of_pos (by simpa using h2), List.dropWhile_append_of_pos (by simpa using h2)]
        cases q with
        | nil => simp
        | cons c q =>
          have := h3 c rfl
          simp [this]
      unfold scanDigits
      rw [hr.1, hr.2, if_neg h1, if_pos h4]
  have hten : ∀ t, chooseBase 10 t = (10, t) := fun t => by simp [chooseBase]
  unfold scanInt
  cases s with
  | nil =>
    constructor
    · intro h; cases h
    · rintro ⟨sg, ds, h, _, h2, _⟩
      have := h.symm
      simp at this
      exact absurd this.2.1 h2
  | cons c cs =>
    dsimp only
    rw [hten]
    constructor
    · intro h
      split at h
      · cases h
      · rename_i hbad
        obtain ⟨ds, h1, h2, h3, h4, h5, h6⟩ := (hds _ _).1 h
        dsimp only at h1
        by_cases h45 : c = 45
        · subst h45
          rw [if_pos (Or.inl rfl)] at h1
          refine ⟨[45], ds, by rw [h1]; rfl, Or.inr (Or.inr ⟨rfl, ?_⟩), h2, h3, h4, h5, h6⟩
          cases hT : T.signed with
          | true => rfl
          | false => exact absurd ⟨rfl, Or.inl hT⟩ hbad
        · have hb : (c == 45) = false := by simpa using h45
          rw [hb] at h5
          by_cases h43 : c = 43
          · subst h43
            rw [if_pos (Or.inr rfl)] at h1
            exact ⟨[43], ds, by rw [h1]; rfl, Or.inr (Or.inl rfl), h2, h3, h4, h5, h6⟩
          · rw [if_neg (by omega)] at h1
            exact ⟨[], ds, h1, Or.inl rfl, h2, h3, h4, h5, h6⟩
    · rintro ⟨sg, ds, h1, hsg, h2, h3, h4, h5, h6⟩
      rcases hsg with rfl | rfl | ⟨rfl, hT⟩
      · have hc : IsDigit 10 c := by
          cases ds with
          | nil => exact absurd rfl h2
          | cons d ds =>
            rw [List.nil_append, List.cons_append] at h1
            rw [(List.cons.inj h1).1]
            exact h3 d (by simp)
        have hcr : c ≠ 45 ∧ c ≠ 43 := by
          constructor <;> (rintro rfl; revert hc; decide)
        rw [if_neg (by simp [hcr.1]), if_neg (by omega), hds]
        have hb : (c == 45) = false := by simpa using hcr.1
        rw [hb]
        exact ⟨ds, h1, h2, h3, h4, h5, h6⟩
      · rw [List.cons_append, List.nil_append] at h1
        obtain ⟨rfl, rfl⟩ := List.cons.inj h1
        rw [if_neg (by simp), if_pos (by decide), hds]
        exact ⟨ds, rfl, h2, h3, h4, h5, h6⟩
      · rw [List.cons_append, List.nil_append] at h1
        obtain ⟨rfl, rfl⟩ := List.cons.inj h1
        rw [if_neg (by simp [hT]), if_pos (by decide), hds]
        exact ⟨ds, rfl, h2, h3, h4, h5, h6⟩

theorem goodSpecs_default (e : Enc) : GoodSpecs e {} :=
  ⟨FillOk.describes ⟨32, by unfold IsScalar; decide, by cases e <;> decide⟩, by unfold handleNonascii; simp⟩

theorem goodSpecs_parsed {cfg : RegexCfg} {e : Enc} {f : List Nat} (hf : ∀ c ∈ f, IsScalar c) {ty : ArgTy} {s p : List Nat} {st : Setter}
    (hs : s <:+ encodes e f) (h : parseSpecs cfg e ty ⟨{}, false⟩ s = some (st, p)) (he : st.err = false) : GoodSpecs e st.specs :=
  ⟨(parseSpecs_fillOk hf hs h he).describes, (parseSpecs_accepted h he).ok.set⟩

/-- Elements of integer types of up to 32 bits are read exactly if they are written. -/
theorem itemRead_integer {e : Enc} (wide : Enc) (gloc : LocaleData) {T : IntTy} (hT : T.bits = 8 ∨ T.bits = 16 ∨ T.bits = 32) {ty : ArgTy}
    (hty : IntType (.int T ty)) {p : List Nat} (hp : ∀ c ∈ p, IsScalar c) (v : Val) (q : List Nat) :
    Reads e (itemRead e wide gloc (.int T ty) {}) p v q ↔ ∃ x, v = .int x ∧ IntegerAt T p x q := by
  have hstd : T.Std := by unfold IntTy.Std; rcases hT with h | h | h <;> simp [h]
  have hd : ∀ c ∈ p.dropWhile isSpace, IsScalar c := fun c hc => hp c ((List.dropWhile_suffix _).subset hc)
  have hread : itemRead e wide gloc (.int T ty) {} (encodes e p) =
      if p.dropWhile isSpace = [] then .err .endOfInput
      else (scanInt T 10 false (p.dropWhile isSpace)).map fun r => (.int r.1, encodes e r.2) := by
    unfold itemRead builtinScan Dest.readSpecs
    rw [typeCheck_default _ hty]
    dsimp only [Dest.specsReader]
    rw [argRead_plain _ {} ⟨rfl, rfl, rfl⟩]
    rw [if_pos (show ((intSpecsReader e gloc T {}).mapVal Val.int).skipWs = true from rfl)]
    rw [skipSpace_encodes e _ _ hp (goodLayouts_view e {} _ p hp)]
    by_cases hn : p.dropWhile isSpace = []
    · rw [if_pos ⟨rfl, (dropWhile_nil_iff _ _).1 hn⟩, if_pos hn]
      rfl
    · rw [if_neg (fun h => hn ((dropWhile_nil_iff _ _).2 h.2)), if_neg hn, Res.bind_ok]
      show (readInt (srcOf e _) T ⟨10, false, none⟩ _).map _ = _
      rw [readInt_ten _ T hstd false _ ?_, scanIntW_encodes e T 10 false _ hd]
      · have hW : scanIntW T 10 false (p.dropWhile isSpace) = scanInt T 10 false (p.dropWhile isSpace) := by
          unfold scanIntW scanInt
          cases p.dropWhile isSpace with
          | nil => rfl
          | cons c cs =>
            dsimp only
            split
            · rfl
            · rename_i h
              have hb := chooseBase_bounds 10 (if c = 45 ∨ c = 43 then cs else c :: cs) (by omega) (by omega)
              apply scanDigitsW_good T hstd _ _ _ hb.1 hb.2 (good_upto32 T hT _ hb.1 hb.2 _)
              intro hc
              cases hsg : T.signed with
              | true => rfl
              | false => exact absurd ⟨hc, Or.inl hsg⟩ h
        rw [hW]
        cases scanInt T 10 false (p.dropWhile isSpace) <;> rfl
      · intro he
        cases e with
        | utf8 => exact utf8s_bytes _ hd
        | utf16 => cases he
        | utf32 => cases he
  unfold Reads
  rw [hread]
  constructor
  · rintro ⟨h1, h2⟩
    split at h2
    · cases h2
    · cases hi : scanInt T 10 false (p.dropWhile isSpace) with
      | ub => rw [hi] at h2; cases h2
      | err x => rw [hi] at h2; cases h2
      | ok a =>
        obtain ⟨x, r⟩ := a
        rw [hi] at h2
        simp only [Res.map_ok, Res.ok.injEq, Prod.mk.injEq] at h2
        obtain ⟨rfl, h3⟩ := h2
        have h4 := (scanInt_ten T _ x r).1 hi
        have hr : r <:+ p := by
          obtain ⟨sg, ds, h5, -⟩ := h4
          have : r <:+ p.dropWhile isSpace := by rw [h5]; exact ⟨sg ++ ds, by simp⟩
          exact this.trans (List.dropWhile_suffix _)
        have := encodes_inj e (fun c hc => hp c (hr.subset hc)) (fun c hc => hp c (h1.subset hc)) h3
        subst this
        exact ⟨x, rfl, h4⟩
  · rintro ⟨x, rfl, h⟩
    have hi := (scanInt_ten T _ x q).2 h
    obtain ⟨sg, ds, h5, -, h6, -⟩ := h
    refine ⟨(show q <:+ p.dropWhile isSpace by rw [h5]; exact ⟨sg ++ ds, by simp⟩).trans (List.dropWhile_suffix _), ?_⟩
    rw [if_neg, hi]
    · rfl
    · rw [h5]; intro h
      have := (List.append_eq_nil_iff.1 (List.append_eq_nil_iff.1 h).2).1
      exact h6 this

theorem listed_map {W : Type} {sep : List Nat} (f : W → V) (R : List Nat → W → List Nat → Prop) (vs : List V) (first : Bool) (p q : List Nat) :
    Listed sep first (List.replicate vs.length fun p v q => ∃ x, v = f x ∧ R p x q) vs p q ↔
      ∃ xs, vs = xs.map f ∧ Listed sep first (List.replicate xs.length R) xs p q := by
  induction vs generalizing first p with
  | nil =>
    constructor
    · intro h; exact ⟨[], rfl, h⟩
    · rintro ⟨xs, h1, h2⟩
      cases xs with
      | nil => exact h2
      | cons x xs => cases h1
  | cons v vs ih =>
    constructor
    · rintro ⟨p1, p2, h1, ⟨x, rfl, h2⟩, h3⟩
      obtain ⟨xs, rfl, h4⟩ := (ih false p2).1 h3
      exact ⟨x :: xs, rfl, p1, p2, h1, h2, h4⟩
    · rintro ⟨xs, h1, h2⟩
      cases xs with
      | nil => cases h1
      | cons x xs =>
        rw [List.map_cons] at h1
        obtain ⟨rfl, rfl⟩ := List.cons.inj h1
        obtain ⟨p1, p2, h3, h4, h5⟩ := h2
        exact ⟨p1, p2, h3, ⟨x, rfl, h4⟩, (ih false p2).2 ⟨xs, rfl, h5⟩⟩

theorem rangeText_map {W : Type} {b : Brackets} (f : W → V) (R : List Nat → W → List Nat → Prop) (n : Nat) (vs : List V) (p q : List Nat) :
    RangeText b (fun p v q => ∃ x, v = f x ∧ R p x q) n vs p q ↔ ∃ xs, vs = xs.map f ∧ RangeText b R n xs p q := by
  constructor
  · rintro ⟨h1, ⟨p1, q1, h2, h3, h4⟩, h5⟩
    obtain ⟨xs, rfl, h6⟩ := (listed_map f R vs true p1 q1).1 h3
    exact ⟨xs, rfl, by simpa using h1, ⟨p1, q1, h2, h6, h4⟩, fun hne => h5 (by simpa using hne)⟩
  · rintro ⟨xs, rfl, h1, ⟨p1, q1, h2, h3, h4⟩, h5⟩
    exact ⟨by simpa using h1, ⟨p1, q1, h2, (listed_map f R _ true p1 q1).2 ⟨xs, rfl, h3⟩, h4⟩, fun hne => h5 (by simpa using hne)⟩

end Scn
