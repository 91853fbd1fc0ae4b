import Verif.Spec.Float
import Verif.Lemmas.IntReader
import Verif.Lemmas.Space2
import Verif.Lemmas.Literal
import Verif.Lemmas.Format
/-
The numeral that is read is the longest one.
-/
namespace Scn
open Spec

theorem takeWhile_all_append {p : Nat → Bool} {a : List Nat} (h : ∀ c ∈ a, p c = true) (b : List Nat) : (a ++ b).takeWhile p = a ++ b.takeWhile p := by
  induction a with
  | nil => rfl
  | cons x a ih =>
    rw [List.cons_append, List.takeWhile_cons, if_pos (h x (by simp)), ih (fun c hc => h c (by simp [hc]))]; rfl

theorem takeWhile_prefix' (p : Nat → Bool) (s : List Nat) : s.takeWhile p <+: s := List.takeWhile_prefix p

theorem mem_takeWhile_true {p : Nat → Bool} {s : List Nat} {c : Nat} (h : c ∈ s.takeWhile p) : p c = true := by
  induction s with
  | nil => cases h
  | cons x s ih =>
    rw [List.takeWhile_cons] at h
    split at h
    · rcases List.mem_cons.1 h with rfl | h
      · assumption
      · exact ih h
    · cases h

/-- The test for digits. -/
def digitB (base : Nat) (c : Nat) : Bool := decide (charToInt c < base)

theorem digitB_iff {base : Nat} (hb : base ≤ 255) (c : Nat) : digitB base c = true ↔ IsDigit base c := by
  unfold digitB
  rw [decide_eq_true_iff]
  exact charToInt_lt_iff base c hb

theorem floatDigit_classic (base : Nat) (b : Bool) : floatDigit .classic base b = digitB base := by
  funext c
  unfold floatDigit digitB FloatLoc.classic
  simp

theorem drop_of_prefix {t s : List Nat} (h : t <+: s) : t ++ s.drop t.length = s := by
  obtain ⟨u, rfl⟩ := h
  rw [List.drop_left]

/-- Digits and separators. -/
def LocDigit (loc : FloatLoc) (base c : Nat) : Prop := IsDigit base c ∨ (loc.sep ≠ 0 ∧ c = loc.sep)

theorem floatDigit_true {loc : FloatLoc} {base : Nat} (hb : base ≤ 255) (c : Nat) : floatDigit loc base true c = true ↔ LocDigit loc base c := by
  unfold floatDigit LocDigit
  rw [← charToInt_lt_iff base c hb]
  simp

theorem floatDigit_false {loc : FloatLoc} {base : Nat} (hb : base ≤ 255) (c : Nat) : floatDigit loc base false c = true ↔ IsDigit base c := by
  unfold floatDigit
  rw [← charToInt_lt_iff base c hb]
  simp

/-- What `readSignificand` reads. -/
theorem significand_loc (loc : FloatLoc) {base : Nat} (hb : base ≤ 255) (h46 : ¬ LocDigit loc base loc.point) {c : Nat} (cs : List Nat) (hc : LocDigit loc base c) :
    ∃ t, readSignificand loc base (c :: cs) = some t ∧ LocSignificand loc base t ∧ t <+: c :: cs ∧
      (∀ m, LocSignificand loc base m → m <+: c :: cs → m.length ≤ t.length) ∧
      ∀ m d r, LocSignificand loc base m → c :: cs = m ++ d :: r → ¬ LocDigit loc base d → d ≠ loc.point → m = t := by
  generalize hs : c :: cs = s
  have hfirst : ∃ c cs, s = c :: cs ∧ LocDigit loc base c := ⟨c, cs, hs.symm, hc⟩
  clear hs
  have hi : s.takeWhile (floatDigit loc base true) ≠ [] := by
    obtain ⟨c, cs, rfl, hc⟩ := hfirst
    rw [List.takeWhile_cons, if_pos ((floatDigit_true hb c).2 hc)]; simp
  have hsig : ∀ i f, s = i ++ f → (∀ c ∈ i, LocDigit loc base c) → (∀ d r, f = d :: r → ¬ LocDigit loc base d) → s.takeWhile (floatDigit loc base true) = i := by
    intro i f h1 h2 h3
    rw [h1, takeWhile_all_append (fun c hc => (floatDigit_true hb c).2 (h2 c hc))]
    cases f with
    | nil => simp
    | cons d r =>
      rw [List.takeWhile_cons, if_neg (by rw [floatDigit_true hb]; exact h3 d r rfl)]; simp
  -- the value
  let i := s.takeWhile (floatDigit loc base true)
  let t := i ++ readPoint loc (s.drop i.length)
  let u := t ++ (s.drop t.length).takeWhile (floatDigit loc base false)
  have hval : readSignificand loc base s = some u := by
    unfold readSignificand
    split
    · rename_i h; exact absurd h hi
    · rfl
  have hid : ∀ c ∈ i, LocDigit loc base c := fun c hc => (floatDigit_true hb c).1 (mem_takeWhile_true hc)
  have hip : i <+: s := List.takeWhile_prefix _
  have hrest := drop_of_prefix hip
  -- the two shapes
  have hshape : (∃ r, s = i ++ loc.point :: r ∧ u = i ++ loc.point :: r.takeWhile (floatDigit loc base false)) ∨
      ((∀ r, s ≠ i ++ loc.point :: r) ∧ u = i) := by
    have hnext : ∀ d r, s.drop i.length = d :: r → ¬ LocDigit loc base d := by
      intro d r hd hdig
      have h1 : s.takeWhile (floatDigit loc base true) = i := rfl
      have h2 : s = i ++ d :: r := by rw [← hrest, hd]
      have h3 := takeWhile_all_append (p := floatDigit loc base true) (a := i) (fun c hc => (floatDigit_true hb c).2 (hid c hc)) (d :: r)
      rw [← h2, h1, List.takeWhile_cons, if_pos ((floatDigit_true hb d).2 hdig)] at h3
      have := congrArg List.length h3
      simp at this
    cases hr : s.drop i.length with
    | nil =>
      right
      have ht : t = i := by show i ++ readPoint loc (s.drop i.length) = i; rw [hr]; simp [readPoint]
      refine ⟨fun r h => ?_, ?_⟩
      · rw [h, List.drop_left] at hr; cases hr
      · show t ++ (s.drop t.length).takeWhile (floatDigit loc base false) = i
        rw [ht, hr]; simp
    | cons d r =>
      by_cases hd : d = loc.point
      · subst hd
        left
        have ht : t = i ++ [loc.point] := by show i ++ readPoint loc (s.drop i.length) = _; rw [hr]; simp [readPoint]
        have hs : s = i ++ loc.point :: r := by rw [← hrest, hr]
        refine ⟨r, hs, ?_⟩
        show t ++ (s.drop t.length).takeWhile (floatDigit loc base false) = _
        have : s.drop t.length = r := by
          rw [ht, List.length_append, ← List.drop_drop, hr]; rfl
        rw [this, ht]; simp
      · right
        have ht : t = i := by
          show i ++ readPoint loc (s.drop i.length) = i
          rw [hr]; unfold readPoint; dsimp only; rw [if_neg hd, List.append_nil]
        refine ⟨fun r' h => ?_, ?_⟩
        · rw [h, List.drop_left] at hr; cases hr; exact hd rfl
        · show t ++ (s.drop t.length).takeWhile (floatDigit loc base false) = i
          rw [ht, hr, List.takeWhile_cons, if_neg (by rw [floatDigit_false hb]; exact fun h => hnext d r hr (Or.inl h))]; simp
  have hne : ∀ m, LocSignificand loc base m → m <+: s → ∃ i' f, m = i' ++ f ∧ i' ≠ [] ∧ (∀ c ∈ i', LocDigit loc base c) ∧ (f = [] ∨ ∃ ds, f = loc.point :: ds ∧ ∀ c ∈ ds, IsDigit base c) := by
    rintro m ⟨i', f, rfl, h1, h2, h3⟩ hp
    refine ⟨i', f, rfl, ?_, h1, h2⟩
    rintro rfl
    rcases h2 with rfl | ⟨ds, rfl, _⟩
    · simp at h3
    · obtain ⟨c, cs, rfl, hc⟩ := hfirst
      obtain ⟨v, hv⟩ := hp
      cases hv
      exact h46 hc
  refine ⟨u, hval, ?_, ?_, ?_, ?_⟩
  · rcases hshape with ⟨r, hs, hu⟩ | ⟨_, hu⟩
    · rw [hu]
      exact ⟨i, loc.point :: r.takeWhile (floatDigit loc base false), rfl, hid, Or.inr ⟨_, rfl, fun c hc => (floatDigit_false hb c).1 (mem_takeWhile_true hc)⟩, Or.inl hi⟩
    · rw [hu]
      exact ⟨i, [], by simp, hid, Or.inl rfl, Or.inl hi⟩
  · rcases hshape with ⟨r, hs, hu⟩ | ⟨_, hu⟩
    · rw [hu, hs]
      exact (List.prefix_append_right_inj i).2 ((List.cons_prefix_cons).2 ⟨rfl, List.takeWhile_prefix _⟩)
    · rw [hu]; exact hip
  · intro m hm hp
    obtain ⟨i', f, rfl, hi', h1, h2⟩ := hne m hm hp
    obtain ⟨v, hv⟩ := hp
    rcases h2 with rfl | ⟨ds, rfl, h2⟩
    · have : s.takeWhile (floatDigit loc base true) = i' ++ v.takeWhile (floatDigit loc base true) := by
        rw [← hv, List.append_nil, takeWhile_all_append (fun c hc => (floatDigit_true hb c).2 (h1 c hc))]
      have hle : i'.length ≤ i.length := by show _ ≤ (s.takeWhile (floatDigit loc base true)).length; rw [this]; simp
      have : i.length ≤ u.length := by
        rcases hshape with ⟨r, hs, hu⟩ | ⟨_, hu⟩ <;> rw [hu] <;> simp
      simp; omega
    · have hii : s.takeWhile (floatDigit loc base true) = i' := hsig i' (loc.point :: ds ++ v) (by rw [← hv]; simp) h1 (by intro d r h; cases h; exact h46)
      rcases hshape with ⟨r, hs, hu⟩ | ⟨hno, _⟩
      · have hr : r = ds ++ v := by
          have h4 : i ++ loc.point :: r = i' ++ (loc.point :: (ds ++ v)) := by rw [← hs, ← hv]; simp
          have h5 : i = i' := hii
          rw [h5] at h4
          exact (List.cons.inj (List.append_cancel_left h4)).2
        rw [hu, hr, takeWhile_all_append (fun c hc => (floatDigit_false hb c).2 (h2 c hc)), ← hii]
        show ((s.takeWhile (floatDigit loc base true)) ++ loc.point :: ds).length ≤ ((s.takeWhile (floatDigit loc base true)) ++ loc.point :: (ds ++ _)).length
        simp
      · refine absurd ?_ (hno (ds ++ v))
        rw [← hv]
        show i' ++ loc.point :: ds ++ v = (s.takeWhile (floatDigit loc base true)) ++ _
        rw [hii]; simp
  · intro m d r hm hs hd hd46
    obtain ⟨i', f, rfl, hi', h1, h2⟩ := hne m hm ⟨d :: r, hs.symm⟩
    rcases h2 with rfl | ⟨ds, rfl, h2⟩
    · have hii : s.takeWhile (floatDigit loc base true) = i' := hsig i' (d :: r) (by rw [hs]; simp) h1 (by intro d' r' h; cases h; exact hd)
      have hii : i = i' := hii
      rcases hshape with ⟨r', hs', hu⟩ | ⟨_, hu⟩
      · rw [hs, hii] at hs'
        simp at hs'
        exact absurd hs'.1 hd46
      · rw [hu, hii]; simp
    · have hii : s.takeWhile (floatDigit loc base true) = i' := hsig i' (loc.point :: ds ++ d :: r) (by rw [hs]; simp) h1 (by intro d' r' h; cases h; exact h46)
      have hii : i = i' := hii
      rcases hshape with ⟨r', hs', hu⟩ | ⟨hno, hu⟩
      · have hr : r' = ds ++ d :: r := by
          have h4 : i' ++ loc.point :: r' = i' ++ (loc.point :: (ds ++ d :: r)) := by rw [← hii, ← hs', hs, hii]; simp
          exact (List.cons.inj (List.append_cancel_left h4)).2
        rw [hu, hr, takeWhile_all_append (fun c hc => (floatDigit_false hb c).2 (h2 c hc)), List.takeWhile_cons, if_neg (by rw [floatDigit_false hb]; exact fun h => hd (Or.inl h)), hii]
        simp
      · exact absurd (by rw [hs, hii]; simp) (hno (ds ++ d :: r))

theorem locDigit_classic (base c : Nat) : LocDigit .classic base c ↔ IsDigit base c := by
  unfold LocDigit FloatLoc.classic; simp

theorem locSignificand_classic (base : Nat) (t : List Nat) : LocSignificand .classic base t ↔ Significand base t := by
  unfold LocSignificand Significand FloatLoc.classic; simp

theorem significand_loc_none {loc : FloatLoc} {base : Nat} (hb : base ≤ 255) {s : List Nat} (h : ∀ c cs, s = c :: cs → ¬ LocDigit loc base c) :
    readSignificand loc base s = none := by
  unfold readSignificand
  cases s with
  | nil => rfl
  | cons c cs => rw [List.takeWhile_cons, if_neg (by rw [floatDigit_true hb]; exact h c cs rfl)]

theorem significand_none {base : Nat} (hb : base ≤ 255) {s : List Nat} (h : ∀ c cs, s = c :: cs → ¬ IsDigit base c) :
    readSignificand .classic base s = none :=
  significand_loc_none hb fun c cs hs h' => h c cs hs ((locDigit_classic base c).1 h')

/-- What `readExponent` reads. -/
theorem exponent_spec (letters s : List Nat) :
    (readExponent letters s = [] ∨ Exponent letters (readExponent letters s)) ∧ readExponent letters s <+: s ∧
      ∀ y, Exponent letters y → y <+: s → y.length ≤ (readExponent letters s).length := by
  have hb : (10 : Nat) ≤ 255 := by decide
  cases s with
  | nil =>
    refine ⟨Or.inl rfl, List.prefix_refl _, ?_⟩
    rintro y ⟨c, sg, ds, rfl, _⟩ hp
    obtain ⟨v, hv⟩ := hp
    cases hv
  | cons c cs =>
    by_cases hc : c ∈ letters
    · -- the sign
      obtain ⟨sg, hsg, hsig, hsgp, hmax⟩ : ∃ sg, (match parseNumericSign cs with | some (_, some _) => cs.take 1 | _ => []) = sg ∧
          (sg = [] ∨ sg = [43] ∨ sg = [45]) ∧ sg <+: cs ∧ ∀ sg' r, (sg' = [] ∨ sg' = [43] ∨ sg' = [45]) → cs = sg' ++ r → (∀ d r', r = d :: r' → IsDigit 10 d) → r ≠ [] → sg' = sg := by
        cases cs with
        | nil =>
          refine ⟨[], rfl, Or.inl rfl, List.prefix_refl _, ?_⟩
          intro sg' r _ h _ hr
          have := congrArg List.length h
          simp at this
          exact absurd (List.eq_nil_of_length_eq_zero (by omega)) hr
        | cons d ds =>
          by_cases h1 : d = 45
          · subst h1
            refine ⟨[45], rfl, Or.inr (Or.inr rfl), ⟨ds, rfl⟩, ?_⟩
            rintro sg' r (rfl | rfl | rfl) h hd hr
            · exact absurd (hd _ _ h.symm) (by decide)
            · cases h
            · rfl
          · by_cases h2 : d = 43
            · subst h2
              refine ⟨[43], rfl, Or.inr (Or.inl rfl), ⟨ds, rfl⟩, ?_⟩
              rintro sg' r (rfl | rfl | rfl) h hd hr
              · exact absurd (hd _ _ h.symm) (by decide)
              · rfl
              · cases h
            · refine ⟨[], ?_, Or.inl rfl, ⟨_, rfl⟩, ?_⟩
              · unfold parseNumericSign; dsimp only; rw [if_neg h1, if_neg h2]
              · rintro sg' r (rfl | rfl | rfl) h hd hr
                · rfl
                · cases h; exact absurd rfl h2
                · cases h; exact absurd rfl h1
      have hval : readExponent letters (c :: cs) = if (cs.drop sg.length).takeWhile (digitB 10) = [] then [] else c :: (sg ++ (cs.drop sg.length).takeWhile (digitB 10)) := by
        show (if c ∈ letters then _ else _) = _
        rw [if_pos hc]; exact hsg ▸ rfl
      have hcs := drop_of_prefix hsgp
      rw [hval]
      refine ⟨?_, ?_, ?_⟩
      · split
        · exact Or.inl rfl
        · rename_i hne
          exact Or.inr ⟨c, sg, _, rfl, hc, hsig, hne, fun d hd => (digitB_iff hb d).1 (mem_takeWhile_true hd)⟩
      · split
        · exact List.nil_prefix
        · rw [List.cons_prefix_cons]
          refine ⟨rfl, ?_⟩
          rw [← hcs]
          exact (List.prefix_append_right_inj sg).2 (by rw [hcs]; exact List.takeWhile_prefix _)
      · rintro y ⟨c', sg', ds, rfl, _, hs', hds, hdig⟩ ⟨v, hv⟩
        obtain ⟨rfl, hv2⟩ := List.cons.inj hv
        have hv' : cs = sg' ++ (ds ++ v) := by rw [← hv2]; show (sg' ++ ds) ++ v = _; simp
        have : sg' = sg := by
          refine hmax sg' (ds ++ v) hs' hv' ?_ (by simp [hds])
          intro d r' h
          cases ds with
          | nil => exact absurd rfl hds
          | cons a ds => cases h; exact hdig _ (by simp)
        subst this
        have hd : cs.drop sg'.length = ds ++ v := by rw [hv', List.drop_left]
        rw [hd, takeWhile_all_append (fun d h => (digitB_iff hb d).2 (hdig d h)), if_neg (by simp [hds])]
        simp
    · have hval : readExponent letters (c :: cs) = [] := by
        show (if c ∈ letters then _ else _) = _
        rw [if_neg hc]
      rw [hval]
      refine ⟨Or.inl rfl, List.nil_prefix, ?_⟩
      rintro y ⟨c', sg, ds, rfl, hc', _⟩ ⟨v, hv⟩
      cases hv
      exact absurd hc' hc

/-- A numeral: a significand, with an exponent or not. -/
def Num (loc : FloatLoc) (base : Nat) (letters : List Nat) (bare exp : Prop) (t : List Nat) : Prop :=
  ∃ m x, t = m ++ x ∧ LocSignificand loc base m ∧ (x = [] ∧ bare ∨ exp ∧ Exponent letters x)

theorem locdec_num (loc : FloatLoc) (fixed sci : Bool) (t : List Nat) : LocDecText loc fixed sci t ↔ Num loc 10 [101, 69] (fixed = true) (sci = true) t := Iff.rfl

theorem locdec_classic (fixed sci : Bool) : LocDecText .classic fixed sci = DecText fixed sci := by
  funext t; unfold LocDecText DecText; simp only [locSignificand_classic]

theorem hex_num (t : List Nat) : HexText t ↔ Num .classic 16 [112, 80] True True t := by
  unfold HexText Num; simp only [locSignificand_classic]; simp

theorem longest_self {P : List Nat → Prop} {p : List Nat} (h : P p) : Longest P p p := ⟨h, List.prefix_refl _, fun _ _ hq => hq.length_le⟩

theorem longest_mono {P : List Nat → Prop} {s s' p : List Nat} (h : Longest P s p) (h1 : p <+: s') (h2 : s' <+: s) : Longest P s' p :=
  ⟨h.1, h1, fun q hq hp => h.2.2 q hq (hp.trans h2)⟩

theorem exists_longest {P : List Nat → Prop} {s q : List Nat} (hq : P q) (hp : q <+: s) : ∃ p, Longest P s p := by
  have : ∀ n, ∀ q, P q → q <+: s → s.length - q.length ≤ n → ∃ p, Longest P s p := by
    intro n
    induction n with
    | zero =>
      intro q hq hp hn
      exact ⟨q, hq, hp, fun r _ hr => by have := hr.length_le; omega⟩
    | succ n ih =>
      intro q hq hp hn
      by_cases h : ∃ r, P r ∧ r <+: s ∧ q.length < r.length
      · obtain ⟨r, h1, h2, h3⟩ := h
        exact ih r h1 h2 (by have := h2.length_le; omega)
      · exact ⟨q, hq, hp, fun r h1 h2 => Classical.byContradiction fun h3 => h ⟨r, h1, h2, by omega⟩⟩
  exact this _ q hq hp (Nat.le_refl _)

theorem prefix_eq_of_length {a b s : List Nat} (ha : a <+: s) (hb : b <+: s) (h : a.length = b.length) : a = b := by
  obtain ⟨u, rfl⟩ := ha
  obtain ⟨v, hv⟩ := hb
  exact (List.append_inj hv h.symm).1.symm

theorem longest_unique {P : List Nat → Prop} {s p q : List Nat} (h : Longest P s p) (h' : Longest P s q) : p = q :=
  prefix_eq_of_length h.2.1 h'.2.1 (Nat.le_antisymm (h'.2.2 p h.1 h.2.1) (h.2.2 q h'.1 h'.2.1))

/-- The numeral that is read greedily is the longest. -/
theorem num_longest (loc : FloatLoc) {base : Nat} (hb : base ≤ 255) (h46 : ¬ LocDigit loc base loc.point) {letters : List Nat}
    (hl : ∀ l ∈ letters, ¬ LocDigit loc base l ∧ l ≠ loc.point) (bare exp : Prop) {c : Nat} (cs : List Nat) (hc : LocDigit loc base c) :
    ∃ m, readSignificand loc base (c :: cs) = some m ∧
      (exp → (readExponent letters ((c :: cs).drop m.length) = [] → bare → Longest (Num loc base letters bare exp) (c :: cs) m) ∧
        (readExponent letters ((c :: cs).drop m.length) = [] → ¬ bare → ∀ q, Num loc base letters bare exp q → ¬ q <+: c :: cs) ∧
        (readExponent letters ((c :: cs).drop m.length) ≠ [] → Longest (Num loc base letters bare exp) (c :: cs) (m ++ readExponent letters ((c :: cs).drop m.length)))) ∧
      (¬ exp → bare → Longest (Num loc base letters bare exp) (c :: cs) m) := by
  obtain ⟨m, h1, h2, h3, h4, h5⟩ := significand_loc loc hb h46 cs hc
  refine ⟨m, h1, ?_, ?_⟩
  · intro hexp
    obtain ⟨e1, e2, e3⟩ := exponent_spec letters ((c :: cs).drop m.length)
    have hs := drop_of_prefix h3
    -- numerals with exponents
    have hx : ∀ m' x, LocSignificand loc base m' → Exponent letters x → m' ++ x <+: c :: cs → m' = m ∧ x <+: (c :: cs).drop m.length := by
      intro m' x hm hx ⟨v, hv⟩
      obtain ⟨l, sg, ds, rfl, hl', _⟩ := hx
      have : m' = m := h5 m' l (sg ++ ds ++ v) hm (by rw [← hv]; simp) (hl l hl').1 (hl l hl').2
      subst this
      refine ⟨rfl, v, ?_⟩
      rw [← hv, List.append_assoc, List.drop_left]
    refine ⟨?_, ?_, ?_⟩
    · intro h0 hbare
      refine ⟨⟨m, [], by simp, h2, Or.inl ⟨rfl, hbare⟩⟩, h3, ?_⟩
      rintro q ⟨m', x, rfl, hm, ⟨rfl, _⟩ | ⟨_, hxx⟩⟩ hq
      · simp at hq ⊢; exact h4 m' hm hq
      · obtain ⟨_, hxp⟩ := hx m' x hm hxx hq
        have := e3 x hxx hxp
        rw [h0] at this
        obtain ⟨l, sg, ds, rfl, _⟩ := hxx
        simp at this
    · intro h0 hbare
      rintro q ⟨m', x, rfl, hm, ⟨rfl, h⟩ | ⟨_, hxx⟩⟩ hq
      · exact hbare h
      · obtain ⟨_, hxp⟩ := hx m' x hm hxx hq
        have := e3 x hxx hxp
        rw [h0] at this
        obtain ⟨l, sg, ds, rfl, _⟩ := hxx
        simp at this
    · intro h0
      refine ⟨⟨m, _, rfl, h2, Or.inr ⟨hexp, e1.resolve_left h0⟩⟩, ?_, ?_⟩
      · rw [← hs]
        exact (List.prefix_append_right_inj m).2 (by rw [hs]; exact e2)
      · rintro q ⟨m', x, rfl, hm, ⟨rfl, _⟩ | ⟨_, hxx⟩⟩ hq
        · simp at hq ⊢
          have := h4 m' hm hq
          omega
        · obtain ⟨rfl, hxp⟩ := hx m' x hm hxx hq
          have := e3 x hxx hxp
          simp; omega
  · intro hexp hbare
    refine ⟨⟨m, [], by simp, h2, Or.inl ⟨rfl, hbare⟩⟩, h3, ?_⟩
    rintro q ⟨m', x, rfl, hm, ⟨rfl, _⟩ | ⟨h, hxx⟩⟩ hq
    · simp at hq ⊢; exact h4 m' hm hq
    · exact absurd h hexp

/-- `readHexfloat` reads the longest numeral. -/
theorem hexfloat_longest {c : Nat} (cs : List Nat) (hc : IsDigit 16 c) :
    ∃ t, readHexfloat .classic (c :: cs) = .ok t ∧ Longest HexText (c :: cs) t := by
  obtain ⟨m, h1, h2, _⟩ := num_longest .classic (base := 16) (by decide) (by rw [locDigit_classic]; decide) (letters := [112, 80]) (by simp only [locDigit_classic]; decide) True True cs ((locDigit_classic 16 c).2 hc)
  have h2 := h2 trivial
  have e : HexText = Num .classic 16 [112, 80] True True := by funext t; exact propext (hex_num t)
  rw [e]
  unfold readHexfloat
  rw [h1]
  refine ⟨_, rfl, ?_⟩
  by_cases h : readExponent [112, 80] ((c :: cs).drop m.length) = []
  · rw [h, List.append_nil]; exact h2.1 h trivial
  · exact h2.2.2 h

theorem hexfloat_none {s : List Nat} (h : ∀ c cs, s = c :: cs → ¬ IsDigit 16 c) : readHexfloat .classic s = .err .invalidScannedValue := by
  unfold readHexfloat
  rw [significand_none (by decide) h]

/-- `readRegularFloat` reads the longest numeral. -/
theorem regular_loc (loc : FloatLoc) (h46 : ¬ LocDigit loc 10 loc.point) (hl : ∀ l ∈ [101, 69], ¬ LocDigit loc 10 l ∧ l ≠ loc.point) (o : FloatOpts)
    (ho : o.fixed = true ∨ o.sci = true) {c : Nat} (cs : List Nat) (hc : LocDigit loc 10 c) :
    (∃ kd t, readRegularFloat loc o (c :: cs) = .ok (kd, t) ∧ (kd = .fixed ∨ kd = .scientific) ∧ Longest (LocDecText loc o.fixed o.sci) (c :: cs) t) ∨
      (readRegularFloat loc o (c :: cs) = .err .invalidScannedValue ∧ ∀ q, LocDecText loc o.fixed o.sci q → ¬ q <+: c :: cs) := by
  obtain ⟨m, h1, h2, h3⟩ := num_longest loc (base := 10) (by decide) h46 (letters := [101, 69]) hl (o.fixed = true) (o.sci = true) cs hc
  have e : LocDecText loc o.fixed o.sci = Num loc 10 [101, 69] (o.fixed = true) (o.sci = true) := by funext t; exact propext (locdec_num loc _ _ t)
  rw [e]
  unfold readRegularFloat
  rw [h1]
  dsimp only
  by_cases hs : o.sci = true
  · have h2 := h2 hs
    rw [if_pos hs]
    by_cases h : readExponent [101, 69] ((c :: cs).drop m.length) = []
    · by_cases hf : o.fixed = true
      · left
        refine ⟨.fixed, m, ?_, Or.inl rfl, h2.1 h hf⟩
        rw [h]; simp [hf]
      · right
        refine ⟨?_, h2.2.1 h hf⟩
        rw [h]; simp [hf, hs]
    · left
      refine ⟨.scientific, _, ?_, Or.inr rfl, h2.2.2 h⟩
      have : (readExponent [101, 69] ((c :: cs).drop m.length)).isEmpty = false := by
        cases hx : readExponent [101, 69] ((c :: cs).drop m.length) with
        | nil => exact absurd hx h
        | cons => rfl
      rw [this]; simp
  · left
    have hf : o.fixed = true := ho.resolve_right hs
    refine ⟨.fixed, m, ?_, Or.inl rfl, h3 hs hf⟩
    rw [if_neg hs]
    simp [hs]

theorem regular_longest (o : FloatOpts) (ho : o.fixed = true ∨ o.sci = true) {c : Nat} (cs : List Nat) (hc : IsDigit 10 c) :
    (∃ kd t, readRegularFloat .classic o (c :: cs) = .ok (kd, t) ∧ (kd = .fixed ∨ kd = .scientific) ∧ Longest (DecText o.fixed o.sci) (c :: cs) t) ∨
      (readRegularFloat .classic o (c :: cs) = .err .invalidScannedValue ∧ ∀ q, DecText o.fixed o.sci q → ¬ q <+: c :: cs) := by
  have := regular_loc .classic (by rw [locDigit_classic]; decide) (by simp only [locDigit_classic]; decide) o ho cs ((locDigit_classic 10 c).2 hc)
  rw [locdec_classic] at this
  exact this

theorem regular_none (o : FloatOpts) {s : List Nat} (h : ∀ c cs, s = c :: cs → ¬ IsDigit 10 c) :
    readRegularFloat .classic o s = .err .invalidScannedValue := by
  unfold readRegularFloat
  rw [significand_none (by decide) h]

/-! ### The units of numerals -/

/-- ASCII, and no whitespace. -/
def PlainUnit (c : Nat) : Prop := c < 128 ∧ isCpSpace c = false

theorem plainUnit_digit {base c : Nat} (hb : base ≤ 36) (h : IsDigit base c) : PlainUnit c := by
  have : c < 128 := by
    obtain ⟨d, hd, _⟩ := h
    unfold digit? at hd
    repeat' split at hd
    all_goals first | omega | cases hd
  refine ⟨this, ?_⟩
  have hd : IsDigit 36 c := by
    obtain ⟨d, hd, hl⟩ := h
    exact ⟨d, hd, by omega⟩
  revert hd
  have : ∀ c < 128, IsDigit 36 c → isCpSpace c = false := by decide +kernel
  exact this c ‹_›

theorem plain_significand {base : Nat} (hb : base ≤ 36) {m : List Nat} (h : Significand base m) : ∀ c ∈ m, PlainUnit c := by
  obtain ⟨i, f, rfl, h1, h2, _⟩ := h
  intro c hc
  rcases List.mem_append.1 hc with hc | hc
  · exact plainUnit_digit hb (h1 c hc)
  · rcases h2 with rfl | ⟨ds, rfl, h2⟩
    · cases hc
    · rcases List.mem_cons.1 hc with rfl | hc
      · exact ⟨by decide, by decide⟩
      · exact plainUnit_digit hb (h2 c hc)

theorem plain_exponent {letters x : List Nat} (hl : ∀ l ∈ letters, PlainUnit l) (h : Exponent letters x) : ∀ c ∈ x, PlainUnit c := by
  obtain ⟨l, sg, ds, rfl, h1, h2, _, h3⟩ := h
  intro c hc
  rcases List.mem_cons.1 hc with rfl | hc
  · exact hl _ h1
  · rcases List.mem_append.1 hc with hc | hc
    · rcases h2 with rfl | rfl | rfl
      · cases hc
      · simp at hc; subst hc; exact ⟨by decide, by decide⟩
      · simp at hc; subst hc; exact ⟨by decide, by decide⟩
    · exact plainUnit_digit (by decide) (h3 c hc)

theorem plain_dec {f s : Bool} {t : List Nat} (h : DecText f s t) : ∀ c ∈ t, PlainUnit c := by
  obtain ⟨m, x, rfl, h1, h2⟩ := h
  intro c hc
  rcases List.mem_append.1 hc with hc | hc
  · exact plain_significand (by decide) h1 c hc
  · rcases h2 with ⟨rfl, _⟩ | ⟨_, h2⟩
    · cases hc
    · refine plain_exponent ?_ h2 c hc
      intro l hl; simp at hl; rcases hl with rfl | rfl <;> exact ⟨by decide, by decide⟩

theorem plain_hex {t : List Nat} (h : HexText t) : ∀ c ∈ t, PlainUnit c := by
  obtain ⟨m, x, rfl, h1, h2⟩ := h
  intro c hc
  rcases List.mem_append.1 hc with hc | hc
  · exact plain_significand (by decide) h1 c hc
  · rcases h2 with rfl | h2
    · cases hc
    · refine plain_exponent ?_ h2 c hc
      intro l hl; simp at hl; rcases hl with rfl | rfl <;> exact ⟨by decide, by decide⟩

theorem plain_strtod {t : List Nat} (h : StrtodText t) : ∀ c ∈ t, PlainUnit c := by
  rcases h with h | ⟨x, h, rfl, hx, hh⟩
  · exact plain_dec h
  · intro c hc
    rcases List.mem_cons.1 hc with rfl | hc
    · exact ⟨by decide, by decide⟩
    · rcases List.mem_cons.1 hc with rfl | hc
      · rcases hx with rfl | rfl <;> exact ⟨by decide, by decide⟩
      · exact plain_hex hh c hc

/-- The text up to whitespace has the numeral. -/
theorem untilSpace_plain (e : Enc) {p : List Nat} (r : List Nat) (hp : ∀ c ∈ p, PlainUnit c) (hb : e = .utf8 → ∀ c ∈ p ++ r, c < 256) :
    ∃ q, readUntilSpace e .contiguous (p ++ r) = some q ∧ q <:+ r := by
  have key : ∀ p : List Nat, (∀ c ∈ p, PlainUnit c) → ∃ q, readUntilCp e isCpSpace (p ++ r) = some q ∧ q <:+ r := by
    intro p
    induction p with
    | nil => intro _; exact readUntilCp_total e isCpSpace r
    | cons c p ih =>
      intro hp
      obtain ⟨q, h1, h2⟩ := ih (fun d hd => hp d (by simp [hd]))
      obtain ⟨hc, hs⟩ := hp c (by simp)
      have hsc : IsScalar c := ⟨by omega, by omega⟩
      have hr := readCpInto_encode e c hsc (p ++ r)
      have hd : decodeCp e (encode e c) = some c := by obtain ⟨a, b, h1, h2, h3⟩ := encode_head e c hsc; rw [h1, h3]
      rw [encode_ascii e c hc] at hr hd
      refine ⟨q, ?_, h2⟩
      have := readUntilCp_step e isCpSpace (c :: (p ++ r)) (p ++ r) [c] hr
      rw [List.cons_append, this, if_neg (by simp), hd]
      simp only [hs, Bool.false_eq_true, if_false]
      exact h1
  have : readUntilSpace e .contiguous (p ++ r) = readUntilCp e isCpSpace (p ++ r) := by
    cases e with
    | utf8 =>
      show findSpace (p ++ r) = _
      rw [findSpace_ref _ (hb rfl), readUntilCp_ref_aux isCpSpace (by decide) _ _ (Nat.le_refl _) (hb rfl)]
    | utf16 => rfl
    | utf32 => rfl
  rw [this]
  exact key p hp

end Scn
