import Verif.Spec.RegexMatch
import Verif.Lemmas.Regex
import Verif.Lemmas.Readers
import Verif.Lemmas.Ranges
/-
Regular expressions: flags, captures and names.
-/
namespace Scn
open Spec

/-! ### Flags -/

theorem foldl_bits (flags : List Nat) (k : Nat) : ∀ f : Nat,
    (flags.foldl (fun f c => f ||| flagBit c) f).testBit k = (f.testBit k || flags.any fun c => (flagBit c).testBit k) := by
  induction flags with
  | nil => simp
  | cons c cs ih =>
    intro f
    rw [List.foldl_cons, ih, Nat.testBit_or, List.any_cons, Bool.or_assoc]

theorem and_pow (f k : Nat) : (f &&& 2 ^ k ≠ 0) ↔ f.testBit k = true := by
  constructor
  · intro h
    obtain ⟨i, hi⟩ := Nat.exists_testBit_of_ne_zero h
    rw [Nat.testBit_and, Nat.testBit_two_pow, Bool.and_eq_true, decide_eq_true_eq] at hi
    rw [hi.2]; exact hi.1
  · intro h h0
    have := congrArg (fun x => x.testBit k) h0
    simp [Nat.testBit_and, h] at this

/-- The bits of a set of flags. -/
def flagBits (flags : List Nat) : Nat := flags.foldl (fun f c => f ||| flagBit c) 0

theorem flagBits_and {flags : List Nat} {c k : Nat} (hk : ∀ d, (flagBit d).testBit k = decide (d = c)) : (flagBits flags &&& 2 ^ k ≠ 0) ↔ c ∈ flags := by
  rw [and_pow]
  unfold flagBits
  rw [foldl_bits]
  simp [hk]

theorem flagBit_bit (d : Nat) : (flagBit d).testBit 0 = decide (d = 109) ∧ (flagBit d).testBit 1 = decide (d = 115) ∧
    (flagBit d).testBit 2 = decide (d = 105) ∧ (flagBit d).testBit 3 = decide (d = 110) := by
  unfold flagBit
  split
  · rename_i h; subst h; decide
  · rename_i h1
    split
    · rename_i h; subst h; decide
    · rename_i h2
      split
      · rename_i h; subst h; decide
      · rename_i h3
        split
        · rename_i h; subst h; decide
        · rename_i h4; simp [h1, h2, h3, h4]

theorem bit_m (flags : List Nat) : (flagBits flags &&& 1 ≠ 0) ↔ 109 ∈ flags := flagBits_and (k := 0) fun d => (flagBit_bit d).1
theorem bit_s (flags : List Nat) : (flagBits flags &&& 2 ≠ 0) ↔ 115 ∈ flags := flagBits_and (k := 1) fun d => (flagBit_bit d).2.1
theorem bit_i (flags : List Nat) : (flagBits flags &&& 4 ≠ 0) ↔ 105 ∈ flags := flagBits_and (k := 2) fun d => (flagBit_bit d).2.2.1
theorem bit_n (flags : List Nat) : (flagBits flags &&& 8 ≠ 0) ↔ 110 ∈ flags := flagBits_and (k := 3) fun d => (flagBit_bit d).2.2.2

theorem bit_m' (flags : List Nat) : (flagBits flags &&& 1 = 0) ↔ 109 ∉ flags := by rw [← bit_m]; simp

/-! ### Captures -/

theorem groupText_part {s : List Nat} {b n : Nat} (h : b + n ≤ s.length) : IsPart s b n (groupText s (b, n)) := by
  refine ⟨s.take b, (s.drop b).drop n, ?_, ?_, ?_⟩
  · unfold groupText
    rw [List.append_assoc, List.take_append_drop, List.take_append_drop]
  · rw [List.length_take]; omega
  · unfold groupText
    rw [List.length_take, List.length_drop]; omega

/-- The captures made group by group. -/
theorem captures_of {s : List Nat} {gs : List (Option (Nat × Nat))} {names : List (Nat × List Nat)} {vs : List (Option RegexMatch)} {n : Nat}
    (hwhole : gs.head? = some (some (0, n))) (hin : ∀ b n, some (b, n) ∈ gs → b + n ≤ s.length) (nm : Nat → Option (List Nat))
    (hvs : ∀ i : Nat, vs[i]? = (gs[i]?).map fun g => g.map fun g => ⟨groupText s g, nm i⟩)
    (hnm : ∀ (i : Nat) g, gs[i]? = some (some g) → ∀ x, nm i = some x ↔ (i, x) ∈ names) : Captures s gs names vs (s.drop n) where
  count := by
    have h1 := hvs gs.length
    rw [List.getElem?_eq_none (Nat.le_refl _)] at h1
    have h2 := List.getElem?_eq_none_iff.1 h1
    rcases Nat.lt_or_ge vs.length gs.length with h | h
    · have h3 := hvs vs.length
      rw [List.getElem?_eq_none (Nat.le_refl _), List.getElem?_eq_getElem h] at h3
      cases h3
    · omega
  absent i h := by rw [hvs, h]; rfl
  present i b m h := by
    refine ⟨_, _, by rw [hvs, h]; rfl, groupText_part (hin b m (List.mem_of_getElem? h)), hnm i _ h⟩
  whole := by
    have h0 : gs[0]? = some (some (0, n)) := by rw [← List.head?_eq_getElem?]; exact hwhole
    refine ⟨groupText s (0, n), nm 0, ?_, ?_⟩
    · rw [List.head?_eq_getElem?, hvs, h0]; rfl
    · unfold groupText; simp

theorem searchEnd_head {gs : List (Option (Nat × Nat))} {n : Nat} (h : gs.head? = some (some (0, n))) : searchEnd gs = some n := by
  cases gs with
  | nil => cases h
  | cons g gs =>
    simp only [List.head?_cons, Option.some.injEq] at h
    subst h
    simp [searchEnd]

/-- The reading of captures that are named by their groups only. -/
theorem matchesOf_found {O : Type} {E : Engine O} (hE : EngineOk E) {o : O} {p s : List Nat} {gs : List (Option (Nat × Nat))} (h : E.search o p s = .found gs)
    (nm : Nat × Nat → Option (List Nat)) {names : List (Nat × List Nat)} (hnm : ∀ (i : Nat) g, gs[i]? = some (some g) → ∀ x, nm g = some x ↔ (i, x) ∈ names) :
    ∃ vs rest, matchesOf (fun g => ⟨groupText s g, nm g⟩) (.found gs) s = .ok (vs, rest) ∧ Captures s gs names vs rest := by
  obtain ⟨n, hn⟩ := hE.whole o p s gs h
  refine ⟨_, _, ?_, captures_of (names := names) hn (hE.inside o p s gs h) (fun i => ((gs[i]?).join.bind nm)) (vs := gs.map fun g => g.map fun g => ⟨groupText s g, nm g⟩) ?_ ?_⟩
  · show (match searchEnd gs with | none => Res.ub | some n => _) = _
    rw [searchEnd_head hn]
  · intro i
    rw [List.getElem?_map]
    cases gs[i]? with
    | none => rfl
    | some g => cases g <;> rfl
  · intro i g hg x
    rw [hg]
    exact hnm i g hg x

/-! ### The names of RE2 -/

theorem nameGroups_ok {names : List (Nat × List Nat)} : ∀ (vs : List (Option RegexMatch)) (i : Nat),
    (∀ x ∈ names, ∀ k : Nat, x.1 = i + k → k < vs.length → ∃ v, vs[k]? = some (some v)) →
    ∃ ws, nameGroups names i vs = some ws ∧ ∀ k : Nat, ws[k]? = (vs[k]?).map fun v => v.map fun v =>
      match names.find? (fun x => x.1 == i + k) with
      | none => v
      | some x => { v with name := some x.2 } := by
  intro vs
  induction vs with
  | nil => intro i _; exact ⟨[], rfl, by simp⟩
  | cons v vs ih =>
    intro i h
    obtain ⟨ws, h1, h2⟩ := ih (i + 1) fun x hx k hk hl => by
      have := h x hx (k + 1) (by omega) (by simpa using hl)
      simpa using this
    have hk : ∀ k : Nat, ws[k]? = (vs[k]?).map fun v => v.map fun v =>
        match names.find? (fun x => x.1 == i + (k + 1)) with
        | none => v
        | some x => { v with name := some x.2 } := by
      intro k
      have : i + 1 + k = i + (k + 1) := by omega
      rw [h2, this]
    cases hf : names.find? (fun x => x.1 == i) with
    | none =>
      refine ⟨v :: ws, by rw [nameGroups, hf]; simp [h1], ?_⟩
      intro k
      cases k with
      | zero => cases v <;> simp [hf]
      | succ k => simpa using hk k
    | some x =>
      have hx := List.mem_of_find?_eq_some hf
      have hi : x.1 = i := by simpa using List.find?_some hf
      obtain ⟨w, hw⟩ := h x hx 0 (by omega) (by simp)
      simp only [List.getElem?_cons_zero, Option.some.injEq] at hw
      subst hw
      refine ⟨some { w with name := some x.2 } :: ws, by rw [nameGroups, hf]; simp [h1], ?_⟩
      intro k
      cases k with
      | zero => simp [hf]
      | succ k => simpa using hk k

theorem nameGroups_none {names : List (Nat × List Nat)} : ∀ (vs : List (Option RegexMatch)) (i k : Nat) (n : List Nat),
    vs[k]? = some none → (i + k, n) ∈ names → nameGroups names i vs = none := by
  intro vs
  induction vs with
  | nil => intro i k n h; simp at h
  | cons v vs ih =>
    intro i k n h hn
    cases k with
    | zero =>
      simp only [List.getElem?_cons_zero, Option.some.injEq] at h
      subst h
      rw [nameGroups]
      cases hf : names.find? (fun x => x.1 == i) with
      | none =>
        have := List.find?_eq_none.1 hf _ hn
        simp at this
      | some x => rfl
    | succ k =>
      have := ih (i + 1) k n (by simpa using h) (by rw [show i + 1 + k = i + (k + 1) by omega]; exact hn)
      rw [nameGroups, this]
      cases names.find? (fun x => x.1 == i) <;> simp

theorem find_name {names : List (Nat × List Nat)} (one : ∀ x ∈ names, ∀ y ∈ names, x.1 = y.1 → x = y) (i : Nat) (n : List Nat) :
    (names.find? (fun x => x.1 == i)).map Prod.snd = some n ↔ (i, n) ∈ names := by
  constructor
  · intro h
    cases hf : names.find? (fun x => x.1 == i) with
    | none => rw [hf] at h; cases h
    | some x =>
      rw [hf] at h
      have h1 : x.1 = i := by simpa using List.find?_some hf
      have h2 : x.2 = n := by simpa using h
      rw [← h1, ← h2]; exact List.mem_of_find?_eq_some hf
  · intro h
    cases hf : names.find? (fun x => x.1 == i) with
    | none => have := List.find?_eq_none.1 hf _ h; simp at this
    | some x =>
      have h1 : x.1 = i := by simpa using List.find?_some hf
      rw [one x (List.mem_of_find?_eq_some hf) (i, n) h h1]
      rfl

theorem re2Matches_found {E : Engine Re2Opts} (hE : EngineOk E) {p s : List Nat} {f : Nat} {gs : List (Option (Nat × Nat))}
    (h : E.search (re2Flags f).1 ((re2Flags f).2 ++ p) s = .found gs)
    (hall : ∀ x ∈ E.names (re2Flags f).1 ((re2Flags f).2 ++ p), ∃ g, gs[x.1]? = some (some g)) :
    ∃ vs rest, re2Matches E p f s = .ok (vs, rest) ∧ Captures s gs (E.names (re2Flags f).1 ((re2Flags f).2 ++ p)) vs rest := by
  obtain ⟨n, hn⟩ := hE.whole _ _ s gs h
  obtain ⟨gt, rfl⟩ : ∃ gt, gs = some (0, n) :: gt := by
    cases gs with
    | nil => cases hn
    | cons g gt => exact ⟨gt, by rw [Option.some.inj hn]⟩
  obtain ⟨ws, h1, h2⟩ := nameGroups_ok (names := E.names (re2Flags f).1 ((re2Flags f).2 ++ p)) (gt.map fun g => g.map fun g => (⟨groupText s g, none⟩ : RegexMatch)) 1
    fun x hx k hk hl => by
      obtain ⟨g, hg⟩ := hall x hx
      rw [hk, show 1 + k = k + 1 by omega, List.getElem?_cons_succ] at hg
      exact ⟨⟨groupText s g, none⟩, by rw [List.getElem?_map, hg]; rfl⟩
  refine ⟨some ⟨s.take n, none⟩ :: ws, s.drop n, ?_, ?_⟩
  · unfold re2Matches
    simp only [h]
    rw [searchEnd_head hn]
    dsimp only [List.tail_cons]
    rw [h1]
  · refine captures_of hn (hE.inside _ _ s _ h) (fun i => ((E.names (re2Flags f).1 ((re2Flags f).2 ++ p)).find? (fun x => x.1 == i)).map Prod.snd) ?_ ?_
    · intro i
      cases i with
      | zero =>
        have h0 : (E.names (re2Flags f).1 ((re2Flags f).2 ++ p)).find? (fun x => x.1 == 0) = none := by
          apply List.find?_eq_none.2
          intro x hx
          have := hE.names _ _ x hx
          simp; omega
        simp [h0, groupText]
      | succ i =>
        rw [List.getElem?_cons_succ, List.getElem?_cons_succ, h2, List.getElem?_map, show 1 + i = i + 1 by omega]
        cases gt[i]? with
        | none => rfl
        | some g =>
          cases g with
          | none => rfl
          | some g =>
            cases (E.names (re2Flags f).1 ((re2Flags f).2 ++ p)).find? (fun x => x.1 == i + 1) <;> rfl
    · intro i g _ x
      exact find_name (fun x hx y hy => hE.one _ _ x y hx hy) i x

/-! ### The names of Boost -/

theorem findText_some {needle : List Nat} (hn : needle ≠ []) : ∀ {s : List Nat} {k : Nat}, findText needle s = some k → needle <+: s.drop k ∧ ∀ j < k, ¬ needle <+: s.drop j := by
  intro s
  induction s with
  | nil => intro k h; simp [findText, hn] at h
  | cons c cs ih =>
    intro k h
    rw [findText] at h
    split at h
    · rename_i hp
      cases h
      exact ⟨List.isPrefixOf_iff_prefix.1 hp, fun j hj => absurd hj (Nat.not_lt_zero _)⟩
    · rename_i hp
      cases hf : findText needle cs with
      | none => rw [hf] at h; cases h
      | some m =>
        rw [hf] at h
        have hk : m + 1 = k := Option.some.inj h
        subst hk
        obtain ⟨a, b⟩ := ih hf
        refine ⟨a, ?_⟩
        intro j hj
        cases j with
        | zero => rw [List.drop_zero, ← List.isPrefixOf_iff_prefix]; exact hp
        | succ j => exact b j (by omega)

theorem findText_none {needle : List Nat} : ∀ {s : List Nat}, findText needle s = none → ∀ j, ¬ (needle <+: s.drop j ∧ needle ≠ []) := by
  intro s
  induction s with
  | nil =>
    rintro _ j ⟨h1, h2⟩
    rw [List.drop_nil] at h1
    exact h2 (List.prefix_nil.1 h1)
  | cons c cs ih =>
    rintro h j ⟨h1, h2⟩
    rw [findText] at h
    split at h
    · cases h
    · rename_i hp
      cases j with
      | zero => exact hp (List.isPrefixOf_iff_prefix.2 h1)
      | succ j =>
        refine ih ?_ j ⟨h1, h2⟩
        cases hf : findText needle cs with
        | none => rfl
        | some m => rw [hf] at h; cases h

theorem findText_close (t : List Nat) : ∀ name : List Nat, 62 ∉ name → findText [62] (name ++ 62 :: t) = some name.length := by
  intro name
  induction name with
  | nil => intro _; simp [findText]
  | cons c cs ih =>
    intro h
    simp only [List.mem_cons, not_or] at h
    rw [List.cons_append, findText, if_neg (by simp [List.isPrefixOf]; exact h.1), ih h.2]
    simp

theorem patternNames_total (pattern : List Nat) : ∀ (fuel i : Nat), pattern.length < fuel + i → 0 < fuel → ∃ ns, patternNames fuel pattern i = some ns := by
  intro fuel
  induction fuel with
  | zero => intro i _ h; omega
  | succ fuel ih =>
    intro i h _
    rw [patternNames]
    by_cases hl : pattern.length ≤ i
    · rw [if_pos hl]; exact ⟨_, rfl⟩
    · rw [if_neg hl]
      cases hf : findText [40, 63, 60] (pattern.drop i) with
      | none => exact ⟨_, rfl⟩
      | some k =>
        have hpos : 0 < fuel := by omega
        obtain ⟨ns, hns⟩ := ih (i + k + 3) (by omega) hpos
        dsimp only
        split
        · exact ⟨ns, hns⟩
        · cases findText [62] (pattern.drop (i + k + 3)) with
          | none => exact ⟨_, rfl⟩
          | some m => rw [hns]; exact ⟨_, rfl⟩

theorem patternNames_mem {pattern : List Nat} {a : Nat} {name : List Nat} (h : NameAt pattern a name) :
    ∀ (fuel i : Nat), pattern.length < fuel + i → 0 < fuel → i ≤ a → ∃ ns, patternNames fuel pattern i = some ns ∧ name ∈ ns := by
  have hpre : [40, 63, 60] <+: pattern.drop a := by
    obtain ⟨t, ht⟩ := h.here
    exact ⟨name ++ [62] ++ t, by rw [← ht]; simp⟩
  have hlen : a + 3 ≤ pattern.length := by
    have := hpre.length_le
    rw [List.length_drop] at this
    simp at this; omega
  intro fuel
  induction fuel with
  | zero => intro i _ h; omega
  | succ fuel ih =>
    intro i hfu _ hia
    have hl : ¬ pattern.length ≤ i := by omega
    have hi : [40, 63, 60] <+: (pattern.drop i).drop (a - i) := by rw [List.drop_drop, show i + (a - i) = a by omega]; exact hpre
    cases hf : findText [40, 63, 60] (pattern.drop i) with
    | none => exact absurd ⟨hi, by simp⟩ (findText_none hf (a - i))
    | some k =>
      obtain ⟨h1, h2⟩ := findText_some (by simp) hf
      have hk : k ≤ a - i := by
        rcases Nat.lt_or_ge (a - i) k with hlt | hge
        · exact absurd hi (h2 _ hlt)
        · exact hge
      rw [List.drop_drop] at h1
      -- two occurrences do not overlap
      have hstep : i + k = a ∨ i + k + 3 ≤ a := by
        rcases Nat.lt_or_ge a (i + k + 3) with hlt | hge
        · left
          have c0 : ∀ j t, [40, 63, 60] <+: List.drop j t → t[j]? = some 40 ∧ t[j + 1]? = some 63 ∧ t[j + 2]? = some 60 := by
            rintro j t ⟨u, hu⟩
            have : ∀ m, t[j + m]? = (List.drop j t)[m]? := fun m => by rw [List.getElem?_drop]
            refine ⟨?_, ?_, ?_⟩
            · have := this 0; rw [← hu] at this; simpa using this
            · have := this 1; rw [← hu] at this; simpa using this
            · have := this 2; rw [← hu] at this; simpa using this
          obtain ⟨x0, x1, x2⟩ := c0 _ _ h1
          obtain ⟨y0, -, -⟩ := c0 _ _ hpre
          rcases (show a = i + k ∨ a = i + k + 1 ∨ a = i + k + 2 by omega) with e | e | e
          · exact e.symm
          · rw [e, x1] at y0; cases y0
          · rw [e, x2] at y0; cases y0
        · exact Or.inr hge
      have hpos : 0 < fuel := by omega
      rw [patternNames, if_neg hl, hf]
      dsimp only
      rcases hstep with heq | hge
      · rw [if_neg (by rw [heq]; exact h.unescaped)]
        have hgt : findText [62] (pattern.drop (i + k + 3)) = some name.length ∧ (pattern.drop (i + k + 3)).take name.length = name := by
          obtain ⟨t, ht⟩ := h.here
          have hd : pattern.drop (i + k + 3) = name ++ 62 :: t := by
            rw [show i + k + 3 = a + 3 by omega, ← List.drop_drop, ← ht]; simp
          rw [hd]
          exact ⟨findText_close t name h.simple, by simp⟩
        rw [hgt.1]
        obtain ⟨ns, hns⟩ := patternNames_total pattern fuel (i + k + 3) (by omega) hpos
        dsimp only
        rw [hns, hgt.2]
        exact ⟨_, rfl, by simp⟩
      · obtain ⟨ns, hns, hm⟩ := ih (i + k + 3) (by omega) hpos hge
        split
        · exact ⟨ns, hns, hm⟩
        · cases hf2 : findText [62] (pattern.drop (i + k + 3)) with
          | none =>
            exfalso
            obtain ⟨t, ht⟩ := h.here
            refine findText_none hf2 (a - (i + k + 3) + 3 + name.length) ⟨?_, by simp⟩
            rw [List.drop_drop, show i + k + 3 + (a - (i + k + 3) + 3 + name.length) = a + (3 + name.length) by omega, ← List.drop_drop, ← ht,
              show 3 + name.length = ([40, 63, 60] ++ name).length by simp; omega, List.append_assoc, List.drop_left']
            · exact ⟨t, by simp⟩
            · rfl
          | some m => rw [hns]; exact ⟨_, rfl, by simp [hm]⟩

theorem namedGroup_some {names : List (Nat × List Nat)} {gs : List (Option (Nat × Nat))} {x : List Nat} {h : Nat × Nat} (hn : namedGroup names gs x = some h) :
    ∃ i, (i, x) ∈ names ∧ gs[i]? = some (some h) := by
  obtain ⟨y, hy, hs⟩ := List.exists_of_findSome?_eq_some hn
  by_cases hx : y.2 = x
  · rw [if_pos hx] at hs
    refine ⟨y.1, by rw [← hx]; exact hy, ?_⟩
    cases hg : gs[y.1]? with
    | none => rw [hg] at hs; cases hs
    | some g => rw [hg] at hs; rw [show g = some h from hs]
  · rw [if_neg hx] at hs; cases hs

theorem namedGroup_found {names : List (Nat × List Nat)} {gs : List (Option (Nat × Nat))} {x : List Nat} {i : Nat} {g : Nat × Nat}
    (hone : ∀ a ∈ names, ∀ b ∈ names, a.2 = b.2 → a = b) (hm : (i, x) ∈ names) (hg : gs[i]? = some (some g)) : namedGroup names gs x = some g := by
  cases h : namedGroup names gs x with
  | none =>
    have := List.findSome?_eq_none_iff.1 h _ hm
    rw [if_pos rfl] at this
    dsimp only at this
    rw [hg] at this
    cases this
  | some g' =>
    obtain ⟨j, hj, hg'⟩ := namedGroup_some h
    have := congrArg Prod.fst (hone _ hm _ hj rfl)
    dsimp only at this
    rw [← this, hg] at hg'
    exact (Option.some.inj hg').symm

theorem boostMatches_found {E : Engine BoostOpts} (hE : EngineOk E) {p s : List Nat} {f : Nat} {gs : List (Option (Nat × Nat))}
    (h : E.search (boostFlags f) p s = .found gs)
    (hone : ∀ a ∈ E.names (boostFlags f) p, ∀ b ∈ E.names (boostFlags f) p, a.2 = b.2 → a = b)
    (hat : ∀ x ∈ E.names (boostFlags f) p, ∃ a, NameAt p a x.2)
    (hdiff : ∀ x ∈ E.names (boostFlags f) p, ∀ g, gs[x.1]? = some (some g) → ∀ (j : Nat) g', gs[j]? = some (some g') →
      groupText s g' = groupText s g → j = x.1) :
    ∃ vs rest, boostMatches E p f s = .ok (vs, rest) ∧ Captures s gs (E.names (boostFlags f) p) vs rest := by
  obtain ⟨listed, hl⟩ := patternNames_total p (p.length + 1) 0 (by omega) (by omega)
  have hmem : ∀ x ∈ E.names (boostFlags f) p, x.2 ∈ listed := by
    intro x hx
    obtain ⟨a, ha⟩ := hat x hx
    obtain ⟨ns, h1, h2⟩ := patternNames_mem ha (p.length + 1) 0 (by omega) (by omega) (by omega)
    rw [hl] at h1
    rw [Option.some.inj h1]
    exact h2
  have key : ∀ (i : Nat) g, gs[i]? = some (some g) → ∀ x, boostName (E.names (boostFlags f) p) listed gs s g = some x → (i, x) ∈ E.names (boostFlags f) p := by
    intro i g hg x hx
    have hp := List.find?_some hx
    rw [beq_iff_eq] at hp
    cases hn : namedGroup (E.names (boostFlags f) p) gs x with
    | none => rw [hn] at hp; cases hp
    | some g' =>
      rw [hn] at hp
      obtain ⟨j, hj, hg'⟩ := namedGroup_some hn
      have := hdiff _ hj g' hg' i g hg (Option.some.inj hp).symm
      rw [this]; exact hj
  obtain ⟨vs, rest, h1, h2⟩ := matchesOf_found hE h (boostName (E.names (boostFlags f) p) listed gs s) (names := E.names (boostFlags f) p) (by
    intro i g hg x
    refine ⟨key i g hg x, fun hx => ?_⟩
    have hsome : (boostName (E.names (boostFlags f) p) listed gs s g).isSome = true := by
      unfold boostName
      rw [List.find?_isSome]
      exact ⟨x, hmem _ hx, by rw [namedGroup_found hone hx hg]; simp⟩
    obtain ⟨z, hz⟩ := Option.isSome_iff_exists.1 hsome
    have := hE.one _ _ _ _ (key i g hg z hz) hx rfl
    have h2 := congrArg Prod.snd this
    dsimp only at h2
    rw [hz, h2])
  refine ⟨vs, rest, ?_, h2⟩
  unfold boostMatches
  rw [hl]
  simp only [h]
  exact h1

/-! ### Reading -/

theorem regexSpecs_plain (p flags : List Nat) : Plain (regexSpecs p flags) := ⟨rfl, rfl, rfl⟩

theorem regexSpecs_type (dst : Enc) {p : List Nat} (hp : p ≠ []) (flags : List Nat) :
    runTypeCheck (if dst = .utf8 then .narrowRegex else .wideRegex) (regexSpecs p flags) = some true := by
  have h1 : (regexSpecs p flags).setString ≠ [] := by
    cases p with
    | nil => exact absurd rfl hp
    | cons c cs =>
      show escapeSlashes (c :: cs) ≠ []
      rw [escapeSlashes]
      split <;> simp
  have h2 : checkRegex (regexSpecs p flags) = true := by
    have h3 : (regexSpecs p flags).type = .regex ∨ (regexSpecs p flags).type = .regexEscaped := by
      unfold regexSpecs
      cases decide (47 ∈ p)
      · exact Or.inl rfl
      · exact Or.inr rfl
    unfold checkRegex
    rcases h3 with h3 | h3 <;> rw [h3] <;> simp [h1]
  split <;> simp only [runTypeCheck, if_neg h1, h2]

/-- Reading with a regular expression calls the engine, behind the leading whitespace. -/
theorem matchesSpecs_at (e : Enc) (impl : List Nat → Nat → List Nat → Res (List (Option RegexMatch) × List Nat)) {p flags : List Nat} (hp0 : p ≠ [])
    (hp : regexPattern (regexSpecs p flags) = some p) {ws u : List Nat} (hw : Spaces ws) (hu : ∀ c ∈ u, IsScalar c) (hne : u ≠ [])
    (hfirst : u.dropWhile isSpace = u) :
    matchesSpecs e e impl (regexSpecs p flags) (fun _ => .contiguous) (encodes e (ws ++ u)) = impl p (flagBits flags) (encodes e u) := by
  have hall : ∀ c ∈ ws ++ u, IsScalar c := scalar_append (fun c hc => (hw c hc).1) hu
  unfold matchesSpecs
  rw [regexSpecs_type e hp0]
  dsimp only
  rw [argRead_plain e _ (regexSpecs_plain p flags), show (matchesReader impl (decide (e = e)) (regexSpecs p flags)).skipWs = true from rfl, if_pos rfl, skipSpace_encodes e _ _ hall (goodLayouts_contiguous e _ hall), if_neg, spaces_drop' hw, hfirst]
  · show (matchesReader impl (decide (e = e)) (regexSpecs p flags)).read .contiguous (encodes e u) = _
    simp only [matchesReader, decide_true]
    rw [if_neg (by simp), if_neg (by simp), hp]
    rfl
  · rintro ⟨-, h⟩
    have h2 := List.takeWhile_append_dropWhile (p := isSpace) (l := ws ++ u)
    rw [h, spaces_drop' hw, hfirst] at h2
    have := congrArg List.length h2
    simp at this
    exact hne this

/-- Reading a string with a regular expression: the text of the match, if it ends between characters. -/
theorem string_at (e wide : Enc) (cfgl : LocaleData) (old : Nat) {p flags : List Nat} (hp0 : p ≠ []) (hp : regexPattern (regexSpecs p flags) = some p)
    (u : List Nat) : Dest.readSpecs e wide cfgl old (.string e) (regexSpecs p flags) (fun _ => .contiguous) (encodes e u) =
      (match cfgl.regex e p (flagBits flags) (encodes e u) with
      | .bad => Res.err .invalidFormatString
      | .none => .err .invalidScannedValue
      | .found n => (readString e e (encodes e u) ((encodes e u).drop n)).map fun r => (Val.string r.1, r.2)) := by
  have h3 : (regexSpecs p flags).type = .regex ∨ (regexSpecs p flags).type = .regexEscaped := by
    unfold regexSpecs
    cases decide (47 ∈ p)
    · exact Or.inl rfl
    · exact Or.inr rfl
  have ht : runTypeCheck (Dest.string e).argTy (regexSpecs p flags) = some true := by
    have h1 : (regexSpecs p flags).setString ≠ [] := by
      cases p with
      | nil => exact absurd rfl hp0
      | cons c cs =>
        show escapeSlashes (c :: cs) ≠ []
        rw [escapeSlashes]
        split <;> simp
    have h2 : checkString (regexSpecs p flags) = true := by
      unfold checkString
      rcases h3 with h3 | h3 <;> rw [h3] <;> simp [h1]
    cases e <;> simp only [Dest.argTy, runTypeCheck] <;> simp [runTypeCheck, h2]
  have hk : strKind (regexSpecs p flags) = none := by
    unfold strKind
    rcases h3 with h3 | h3 <;> rw [h3]
  have hr : Dest.specsReader e wide cfgl old (regexSpecs p flags) (.string e) = (regexReader e e cfgl (regexSpecs p flags)).mapVal .string := by
    show (match strKind (regexSpecs p flags) with
      | some k => (stringReader e e (regexSpecs p flags) k).mapVal Val.string
      | none => (regexReader e e cfgl (regexSpecs p flags)).mapVal .string) = _
    rw [hk]
  unfold Dest.readSpecs
  rw [ht, hr]
  dsimp only
  rw [argRead_plain e _ (regexSpecs_plain p flags)]
  show Res.map _ (Res.bind (match regexPattern (regexSpecs p flags) with
    | none => Res.ub
    | some p =>
      match cfgl.regex e p (flagBits flags) (encodes e u) with
      | .bad => Res.err .invalidFormatString
      | .none => .err .invalidScannedValue
      | .found n => .ok ((encodes e u).drop n)) _) = _
  rw [hp]
  dsimp only
  cases cfgl.regex e p (flagBits flags) (encodes e u) <;> rfl

/-- What the two uses of an engine have in common: the outcome, and the match. -/
def SameMatch (s : List Nat) (m : Match) (r : Res (List (Option RegexMatch) × List Nat)) : Prop :=
  match m with
  | .bad => r = .err .invalidFormatString
  | .none => r = .err .invalidScannedValue
  | .found n => ∃ nm vs, r = .ok (some ⟨s.take n, nm⟩ :: vs, s.drop n)

theorem matchesOf_same {O : Type} {E : Engine O} (hE : EngineOk E) (o : O) (p s : List Nat) (nm : Nat × Nat → Option (List Nat)) :
    ∃ m, searchMatch (E.search o p s) = some m ∧ SameMatch s m (matchesOf (fun g => ⟨groupText s g, nm g⟩) (E.search o p s) s) := by
  cases h : E.search o p s with
  | bad => exact ⟨_, rfl, rfl⟩
  | failed => exact ⟨_, rfl, rfl⟩
  | none => exact ⟨_, rfl, rfl⟩
  | found gs =>
    obtain ⟨n, hn⟩ := hE.whole o p s gs h
    have he := searchEnd_head hn
    refine ⟨.found n, by rw [searchMatch, he]; rfl, ?_⟩
    cases gs with
    | nil => cases hn
    | cons g gt =>
      have hg : g = some (0, n) := Option.some.inj hn
      subst hg
      refine ⟨nm (0, n), gt.map fun g => g.map fun g => ⟨groupText s g, nm g⟩, ?_⟩
      simp [matchesOf, he, groupText]

/-- Strings and captures agree if the two uses of the engine have a match in common that ends between characters. -/
theorem agree_of_same (e wide : Enc) (loc : LocaleData) (old : Nat) {p flags : List Nat} (hp0 : p ≠ []) (hp : regexPattern (regexSpecs p flags) = some p)
    (impl : List Nat → Nat → List Nat → Res (List (Option RegexMatch) × List Nat)) {u : List Nat} (hu : ∀ c ∈ u, IsScalar c) (hne : u ≠ [])
    (hf : u.dropWhile isSpace = u) (hsame : SameMatch (encodes e u) (loc.regex e p (flagBits flags) (encodes e u)) (impl p (flagBits flags) (encodes e u)))
    (hcut : ∀ n, loc.regex e p (flagBits flags) (encodes e u) = .found n → ∃ a b, u = a ++ b ∧ n = (encodes e a).length) :
    (∀ err, matchesSpecs e e impl (regexSpecs p flags) (fun _ => .contiguous) (encodes e u) = .err err →
        Dest.readSpecs e wide loc old (.string e) (regexSpecs p flags) (fun _ => .contiguous) (encodes e u) = .err err) ∧
      (∀ v rest, matchesSpecs e e impl (regexSpecs p flags) (fun _ => .contiguous) (encodes e u) = .ok (v, rest) →
        ∃ t nm, v.head? = some (some ⟨t, nm⟩) ∧
          Dest.readSpecs e wide loc old (.string e) (regexSpecs p flags) (fun _ => .contiguous) (encodes e u) = .ok (.string t, rest)) ∧
      matchesSpecs e e impl (regexSpecs p flags) (fun _ => .contiguous) (encodes e u) ≠ .ub := by
  have h1 := matchesSpecs_at e impl hp0 hp (ws := []) (fun _ h => absurd h List.not_mem_nil) hu hne hf
  rw [List.nil_append] at h1
  rw [h1, string_at e wide loc old hp0 hp]
  cases hm : loc.regex e p (flagBits flags) (encodes e u) with
  | bad =>
    rw [hm] at hsame
    rw [show impl p (flagBits flags) (encodes e u) = _ from hsame]
    exact ⟨fun err h => (by cases h; rfl), fun v rest h => (by cases h), by simp⟩
  | none =>
    rw [hm] at hsame
    rw [show impl p (flagBits flags) (encodes e u) = _ from hsame]
    exact ⟨fun err h => (by cases h; rfl), fun v rest h => (by cases h), by simp⟩
  | found n =>
    rw [hm] at hsame
    obtain ⟨nm, vs, h2⟩ := hsame
    obtain ⟨a, b, rfl, rfl⟩ := hcut n hm
    rw [h2]
    refine ⟨fun err h => (by cases h), fun v rest h => ?_, by simp⟩
    cases h
    refine ⟨_, _, rfl, ?_⟩
    have hd : (encodes e (a ++ b)).drop (encodes e a).length = encodes e b := by rw [encodes_append]; simp
    have ht : (encodes e (a ++ b)).take (encodes e a).length = encodes e a := by rw [encodes_append]; simp
    dsimp only
    rw [hd, ht, readString_encodes e a b (fun c hc => hu c (List.mem_append_left _ hc))]
    rfl

theorem searchMatch_head {gs : List (Option (Nat × Nat))} {n : Nat} (hw : ∃ m, gs.head? = some (some (0, m))) (h : searchMatch (.found gs) = some (.found n)) :
    gs.head? = some (some (0, n)) := by
  obtain ⟨m, hm⟩ := hw
  rw [searchMatch, searchEnd_head hm] at h
  simp only [Option.map_some, Option.some.injEq, Match.found.injEq] at h
  rw [← h]; exact hm

theorem searchMatch_found {r : Search} {n : Nat} (h : searchMatch r = some (.found n)) : ∃ gs, r = .found gs := by
  cases r with
  | found gs => exact ⟨gs, rfl⟩
  | bad => simp [searchMatch] at h
  | failed => simp [searchMatch] at h
  | none => simp [searchMatch] at h

theorem toyEngine_found {O : Type} {o : O} {p s : List Nat} {gs : List (Option (Nat × Nat))} (h : (toyEngine O).search o p s = .found gs) :
    gs = [some (0, 2), some (0, 1)] ∧ 2 ≤ s.length := by
  unfold toyEngine at h
  dsimp only at h
  split at h
  · rename_i hp
    cases h
    exact ⟨rfl, (List.isPrefixOf_iff_prefix.1 hp).length_le⟩
  · cases h

theorem toyEngine_ok (O : Type) : EngineOk (toyEngine O) where
  whole o p s gs h := ⟨2, by rw [(toyEngine_found h).1]; rfl⟩
  inside o p s gs h b n hm := by
    obtain ⟨h1, h2⟩ := toyEngine_found h
    rw [h1] at hm
    simp only [List.mem_cons, Option.some.injEq, Prod.mk.injEq, List.not_mem_nil, or_false] at hm
    rcases hm with ⟨rfl, rfl⟩ | ⟨rfl, rfl⟩ <;> omega
  names o p x hx := by
    simp only [toyEngine, List.mem_cons, List.not_mem_nil, or_false] at hx
    rw [hx]; decide
  one o p x y hx hy _ := by
    simp only [toyEngine, List.mem_cons, List.not_mem_nil, or_false] at hx hy
    rw [hx, hy]

end Scn
