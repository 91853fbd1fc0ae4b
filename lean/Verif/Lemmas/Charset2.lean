import Verif.Lemmas.Charset
/-
Character sets: the tables built from a set, and reading with them.
-/
namespace Scn
open Spec

theorem setBits_testBit (bits f n j : Nat) :
    (setBits bits f n).testBit j = (bits.testBit j || (decide (f ≤ j) && decide (j < f + n))) := by
  induction n generalizing bits f with
  | zero =>
    have : (decide (f ≤ j) && decide (j < f + 0)) = false := by
      rw [Bool.and_eq_false_iff, decide_eq_false_iff_not, decide_eq_false_iff_not]; omega
    rw [setBits, this, Bool.or_false]
  | succ n ih =>
    rw [setBits, ih, testBit_or_shift, Bool.or_assoc]
    congr 1
    rw [Bool.eq_iff_iff]
    simp only [Bool.or_eq_true, Bool.and_eq_true, decide_eq_true_eq]
    omega

/-- The ASCII characters an item puts into the table of literals. -/
def itemBit : SetItem → Nat → Bool
  | .one c, x => decide (c ≤ 127) && x == c
  | .range a b, x => decide (b < 127) && (decide (a ≤ x) && decide (x ≤ b))

/-- The item reaches beyond the table. -/
def itemWide : SetItem → Bool
  | .one c => decide (127 < c)
  | .range _ b => decide (127 ≤ b)

/-- Everything but the table and the flag. -/
def Specs.plain (sp : Specs) : Specs := { sp with literals := 0, nonascii := false }

theorem setter_single (st : Setter) (c : Nat) :
    (∀ x, (setterSet.single st c).specs.literals.testBit x = (st.specs.literals.testBit x || itemBit (.one c) x)) ∧
    (setterSet.single st c).specs.nonascii = (st.specs.nonascii || itemWide (.one c)) ∧
    (setterSet.single st c).err = st.err ∧ (setterSet.single st c).specs.plain = st.specs.plain := by
  simp only [setterSet, Setter.onCharsetSingle, itemBit, itemWide]
  by_cases h : c ≤ 127
  · rw [if_pos h]
    refine ⟨fun x => ?_, ?_, rfl, rfl⟩
    · simp only [testBit_or_shift, h, decide_true, Bool.true_and]
      congr 1
      rw [Bool.eq_iff_iff]; simp; exact eq_comm
    · simp; intro h'; omega
  · rw [if_neg h]
    refine ⟨fun x => by simp [h], by simp; right; omega, rfl, rfl⟩

theorem setter_item (st : Setter) (i : SetItem) (hi : i.Ok) :
    ∃ st', applyItem setterSet st i = some st' ∧
      (∀ x, st'.specs.literals.testBit x = (st.specs.literals.testBit x || itemBit i x)) ∧
      st'.specs.nonascii = (st.specs.nonascii || itemWide i) ∧ st'.err = st.err ∧
      st'.specs.plain = st.specs.plain := by
  cases i with
  | one c => exact ⟨_, rfl, setter_single st c⟩
  | range a b =>
    obtain ⟨_, _, _, _, hab⟩ := hi
    simp only [applyItem, setterSet, Setter.onCharsetRange, itemBit, itemWide]
    rw [if_neg (by omega)]
    by_cases h : b + 1 ≤ 127
    · rw [if_pos h]
      refine ⟨_, rfl, fun x => ?_, ?_, rfl, rfl⟩
      · simp only [setBits_testBit]
        congr 1
        rw [Bool.eq_iff_iff]; simp only [Bool.and_eq_true, decide_eq_true_eq]; omega
      · have : decide (127 ≤ b) = false := by rw [decide_eq_false_iff_not]; omega
        simp only [this, Bool.or_false]
    · rw [if_neg h]
      refine ⟨_, rfl, fun x => ?_, ?_, rfl, rfl⟩
      · have : decide (b < 127) = false := by rw [decide_eq_false_iff_not]; omega
        simp only [this, Bool.false_and, Bool.or_false]
      · have : decide (127 ≤ b) = true := by rw [decide_eq_true_eq]; omega
        simp only [this, Bool.or_true]

theorem setter_items (st : Setter) (items : List SetItem) (hok : ∀ i ∈ items, i.Ok) :
    ∃ st', applyItems setterSet st items = some st' ∧
      (∀ x, st'.specs.literals.testBit x = (st.specs.literals.testBit x || items.any (itemBit · x))) ∧
      st'.specs.nonascii = (st.specs.nonascii || items.any itemWide) ∧ st'.err = st.err ∧
      st'.specs.plain = st.specs.plain := by
  induction items generalizing st with
  | nil => exact ⟨st, rfl, by simp, by simp, rfl, rfl⟩
  | cons i is ih =>
    obtain ⟨s1, h1, h2, h3, h4, h5⟩ := setter_item st i (hok i (by simp))
    obtain ⟨s2, g1, g2, g3, g4, g5⟩ := ih s1 (fun j hj => hok j (by simp [hj]))
    refine ⟨s2, by rw [applyItems, h1]; exact g1, fun x => ?_, ?_, g4.trans h4, g5.trans h5⟩
    · rw [g2, h2, List.any_cons, Bool.or_assoc]
    · rw [g3, h3, List.any_cons, Bool.or_assoc]

theorem inExtra_nil (x : Nat) : inExtra [] x = false := rfl
theorem inExtra_cons (p : Nat × Nat) (l : List (Nat × Nat)) (x : Nat) :
    inExtra (p :: l) x = ((decide (p.1 ≤ x) && decide (x < p.2)) || inExtra l x) := rfl

theorem addRange_inExtra (b e x : Nat) (hbe : b < e) (l : List (Nat × Nat)) (hl : ∀ p ∈ l, p.1 < p.2) :
    inExtra (addRange b e l) x = (inExtra l x || (decide (b ≤ x) && decide (x < e))) ∧
    ∀ p ∈ addRange b e l, p.1 < p.2 := by
  induction l with
  | nil => exact ⟨by simp [addRange, inExtra_cons, inExtra_nil], by simpa [addRange] using hbe⟩
  | cons q t ih =>
    obtain ⟨u, v⟩ := q
    have huv : u < v := hl (u, v) (by simp)
    obtain ⟨h1, h2⟩ := ih (fun p hp => hl p (by simp [hp]))
    simp only [addRange]
    by_cases hu : u = e
    · rw [if_pos hu]
      refine ⟨?_, ?_⟩
      · rw [inExtra_cons, inExtra_cons, Bool.eq_iff_iff]
        simp only [Bool.or_eq_true, Bool.and_eq_true, decide_eq_true_eq]
        by_cases hx : inExtra t x = true <;> simp only [hx, or_true, true_or] <;> simp <;> omega
      · intro p hp
        rcases List.mem_cons.1 hp with rfl | hp
        · simp only; omega
        · exact hl p (by simp [hp])
    · rw [if_neg hu]
      by_cases hv : v = b
      · rw [if_pos hv]
        refine ⟨?_, ?_⟩
        · rw [inExtra_cons, inExtra_cons, Bool.eq_iff_iff]
          simp only [Bool.or_eq_true, Bool.and_eq_true, decide_eq_true_eq]
          by_cases hx : inExtra t x = true <;> simp only [hx, or_true, true_or] <;> simp <;> omega
        · intro p hp
          rcases List.mem_cons.1 hp with rfl | hp
          · simp only; omega
          · exact hl p (by simp [hp])
      · rw [if_neg hv]
        refine ⟨?_, ?_⟩
        · rw [inExtra_cons, inExtra_cons, h1, Bool.or_assoc]
        · intro p hp
          rcases List.mem_cons.1 hp with rfl | hp
          · exact huv
          · exact h2 p hp

/-- The nonascii handler has seen the items so far. -/
structure Seen (st : NonAscii) (f : Nat → Bool) : Prop where
  err : st.err = false
  proper : ∀ p ∈ st.ranges, p.1 < p.2
  has : ∀ x, 127 < x → inExtra st.ranges x = f x

theorem seen_range {st : NonAscii} {f : Nat → Bool} (h : Seen st f) (b e : Nat) (hbe : b < e) :
    Seen (st.onRange b e) (fun x => f x || (decide (b ≤ x) && decide (x < e))) := by
  unfold NonAscii.onRange
  split
  · rename_i he
    refine ⟨h.err, h.proper, fun x hx => ?_⟩
    rw [h.has x hx]
    have : decide (x < e) = false := by rw [decide_eq_false_iff_not]; omega
    rw [this, Bool.and_false, Bool.or_false]
  · refine ⟨h.err, fun p hp => (addRange_inExtra b e 0 hbe _ h.proper).2 p hp, fun x hx => ?_⟩
    rw [← h.has x hx]
    exact (addRange_inExtra b e x hbe _ h.proper).1

theorem seen_single {st : NonAscii} {f : Nat → Bool} (h : Seen st f) (c : Nat) :
    Seen (nonAsciiSet.single st c) (fun x => f x || x == c) := by
  have := seen_range h c (c + 1) (by omega)
  refine ⟨this.err, this.proper, fun x hx => ?_⟩
  rw [show (nonAsciiSet.single st c) = st.onRange c (c + 1) from rfl, this.has x hx]
  congr 1
  rw [Bool.eq_iff_iff]; simp only [Bool.and_eq_true, decide_eq_true_eq, beq_iff_eq]; omega

theorem seen_items {st : NonAscii} {f : Nat → Bool} (h : Seen st f) (items : List SetItem) (hok : ∀ i ∈ items, i.Ok) :
    ∃ st', applyItems nonAsciiSet st items = some st' ∧ Seen st' (fun x => f x || items.any (·.has x)) := by
  induction items generalizing st f with
  | nil => exact ⟨st, rfl, by simpa using h⟩
  | cons i is ih =>
    have hstep : ∃ s1, applyItem nonAsciiSet st i = some s1 ∧ Seen s1 (fun x => f x || i.has x) := by
      cases i with
      | one c => exact ⟨_, rfl, seen_single h c⟩
      | range a b =>
        obtain ⟨_, _, _, _, hab⟩ := hok (.range a b) (by simp)
        refine ⟨_, rfl, ?_⟩
        have := seen_range h a (b + 1) (by omega)
        refine ⟨this.err, this.proper, fun x hx => ?_⟩
        rw [this.has x hx]
        simp only [SetItem.has]
        congr 2
        rw [decide_eq_decide]; omega
    obtain ⟨s1, h1, h2⟩ := hstep
    obtain ⟨s2, g1, g2⟩ := ih h2 (fun j hj => hok j (by simp [hj]))
    refine ⟨s2, by rw [applyItems, h1]; exact g1, ?_⟩
    refine ⟨g2.err, g2.proper, fun x hx => ?_⟩
    rw [g2.has x hx, List.any_cons, Bool.or_assoc]

theorem sane_setter : Sane setterSet (fun st => st.err = false) := by
  refine ⟨fun st h => h, fun st c h => ?_, fun st a b st' h hr => ?_⟩
  · exact (setter_single st c).2.2.1.trans h
  · simp only [setterSet, Setter.onCharsetRange] at hr
    split at hr
    · cases hr
    · split at hr <;> (simp only [Option.some.injEq] at hr; subst hr; exact h)

theorem sane_nonascii : Sane nonAsciiSet (fun st => st.err = false) := by
  have key : ∀ (st : NonAscii) a b, st.err = false → (st.onRange a b).err = false := by
    intro st a b h
    unfold NonAscii.onRange
    split <;> exact h
  refine ⟨fun st h => h, fun st c h => key st _ _ h, fun st a b st' h hr => ?_⟩
  simp only [nonAsciiSet, Option.some.injEq] at hr
  subst hr
  exact key st a b h

/-- What the code makes of a set: ASCII characters are looked up in the table, others in the
    ranges. -/
def codeListed (t : SetText) (x : Nat) : Bool :=
  if x ≤ 127 then (t.bracket && x == 93) || t.items.any (itemBit · x) else t.items.any (·.has x)

/-- The specs a set gives. -/
structure SetSpecs (e : Enc) (t : SetText) (sp : Specs) : Prop where
  bits : ∀ x, sp.literals.testBit x = ((t.bracket && x == 93) || t.items.any (itemBit · x))
  wide : sp.nonascii = t.items.any itemWide
  inv : sp.inverted = t.inverted
  text : sp.setString = t.text e
  type : sp.type = .stringSet

theorem parseSet_specs (e : Enc) (t : SetText) (ht : t.Ok) (rest : List Nat) (st : Setter) (hst : st.err = false)
    (hbits : st.specs.literals = 0) (hna : st.specs.nonascii = false) (hinv : st.specs.inverted = false) :
    ∃ st', parseSet setterSet e st (t.text e ++ rest) = some (st', t.text e, rest) ∧ st'.err = false ∧
      SetSpecs e t (st'.onSetString (t.text e)).specs ∧
      (st'.onSetString (t.text e)).specs.plain =
        { st.specs.plain with inverted := t.inverted, setString := t.text e, type := .stringSet } := by
  have hopen : (∀ x, (applyOpening setterSet st t).specs.literals.testBit x = (t.bracket && x == 93)) ∧
      (applyOpening setterSet st t).specs.nonascii = false ∧ (applyOpening setterSet st t).err = false ∧
      (applyOpening setterSet st t).specs.plain = { st.specs.plain with inverted := t.inverted } := by
    obtain ⟨h1, h2, h3, h4⟩ := setter_single (if t.inverted then setterSet.inverted st else st) 93
    have hI : (if t.inverted then setterSet.inverted st else st) =
        { st with specs := { st.specs with inverted := t.inverted } } := by
      cases t.inverted with
      | true => rfl
      | false =>
        obtain ⟨sp, er⟩ := st
        cases sp
        simp at hinv
        subst hinv
        rfl
    simp only [applyOpening]
    rw [hI] at h1 h2 h3 h4 ⊢
    cases hb : t.bracket with
    | true =>
      simp only [if_true]
      refine ⟨fun x => ?_, ?_, h3.trans hst, h4⟩
      · rw [h1]; simp [hbits, itemBit]
      · rw [h2]; simp [hna, itemWide]
    | false =>
      simp only [Bool.false_eq_true, if_false]
      exact ⟨fun x => by simp [hbits], hna, hst, rfl⟩
  obtain ⟨o1, o2, o3, o4⟩ := hopen
  obtain ⟨st', h1, h2, h3, h4, h5⟩ := setter_items (applyOpening setterSet st t) t.items ht.items
  have hpl : st'.specs.plain = { st.specs.plain with inverted := t.inverted } := h5.trans o4
  refine ⟨st', ?_, h4.trans o3, ⟨fun x => ?_, ?_, ?_, rfl, rfl⟩, ?_⟩
  · rw [parseSet_text setterSet _ sane_setter (fun st h => h) e t ht rest st hst, h1]; rfl
  · show st'.specs.literals.testBit x = _
    rw [h2, o1]
  · show st'.specs.nonascii = _
    rw [h3, o2, Bool.false_or]
  · show st'.specs.inverted = _
    exact congrArg Specs.inverted hpl
  · show { st'.specs.plain with setString := t.text e, type := Pres.stringSet } = _
    rw [hpl]

theorem handleNonascii_wide (e : Enc) (t : SetText) (ht : t.Ok) (sp : Specs) (hsp : SetSpecs e t sp)
    (hw : sp.nonascii = true) :
    ∃ ranges, handleNonascii e sp = .ok ranges ∧ ∀ x, 127 < x → inExtra ranges x = t.items.any (·.has x) := by
  have h0 : Seen ⟨[], false⟩ (fun _ => false) := ⟨rfl, by simp, fun x _ => rfl⟩
  have hop : Seen (applyOpening nonAsciiSet ⟨[], false⟩ t) (fun x => t.bracket && x == 93) := by
    unfold applyOpening
    have hinv : (if t.inverted then nonAsciiSet.inverted (⟨[], false⟩ : NonAscii) else ⟨[], false⟩) = ⟨[], false⟩ := by
      split <;> rfl
    dsimp only
    rw [hinv]
    cases t.bracket with
    | true => simpa using seen_single h0 93
    | false => simpa using h0
  obtain ⟨st', h1, h2⟩ := seen_items hop t.items ht.items
  have hp := parseSet_text nonAsciiSet _ sane_nonascii (fun st h => h) e t ht [] ⟨[], false⟩ rfl
  rw [List.append_nil, h1] at hp
  refine ⟨st'.ranges.mergeSort fun a b => decide (a.1 < b.1) || (a.1 == b.1 && decide (a.2 ≤ b.2)), ?_,
    fun x hx => ?_⟩
  · unfold handleNonascii
    rw [if_neg (by rw [hw]; simp), hsp.text, hp]
    simp only [Option.map_some, h2.err]
    simp
  · have hperm := List.mergeSort_perm st'.ranges (fun a b => decide (a.1 < b.1) || (a.1 == b.1 && decide (a.2 ≤ b.2)))
    have : inExtra (st'.ranges.mergeSort fun a b => decide (a.1 < b.1) || (a.1 == b.1 && decide (a.2 ≤ b.2))) x =
        inExtra st'.ranges x := by
      unfold inExtra
      exact hperm.any_eq
    rw [this, h2.has x hx]
    have h93 : (x == 93) = false := by rw [beq_eq_false_iff_ne]; omega
    rw [h93, Bool.and_false, Bool.false_or]

theorem inLiterals_bit (sp : Specs) (c : Nat) : inLiterals sp c = sp.literals.testBit c := by
  unfold inLiterals
  rw [show (256 : Nat) = 2 ^ 8 from rfl, Nat.testBit_mod_two_pow, Nat.testBit_shiftRight]
  have h : decide (c % 8 < 8) = true := by rw [decide_eq_true_eq]; omega
  rw [h, Bool.true_and]
  congr 1
  omega

/-- Unit-wise search on an encoded text, when all non-ASCII units are treated alike. -/
theorem dropWhile_units (e : Enc) (q : Nat → Bool) (k : Bool) (hq : ∀ c, 127 < c → q c = k) (cps : List Nat)
    (h : ∀ cp ∈ cps, IsScalar cp) : (encodes e cps).dropWhile q = encodes e (cps.dropWhile q) := by
  induction cps with
  | nil => rfl
  | cons cp cps ih =>
    have hcp := h cp (by simp)
    have ih := ih (fun x hx => h x (by simp [hx]))
    rw [encodes_cons]
    by_cases ha : cp < 128
    · rw [encode_ascii e cp ha]
      simp only [List.cons_append, List.nil_append, List.dropWhile_cons]
      split
      · exact ih
      · rw [encodes_cons, encode_ascii e cp ha]; rfl
    · have hu : ∀ u ∈ encode e cp, q u = k := by
        intro u hu
        refine hq u ?_
        rcases Nat.lt_or_ge u 128 with h' | h'
        · have := encode_mem_ascii e cp u hcp hu h'; omega
        · omega
      rw [List.dropWhile_cons, hq cp (by omega)]
      cases k with
      | true =>
        rw [List.dropWhile_append_of_pos hu, ih]; rfl
      | false =>
        obtain ⟨c, cs, hc⟩ := encode_cons e cp
        have : q c = false := hu c (by rw [hc]; simp)
        rw [hc, List.cons_append, List.dropWhile_cons, this]
        rw [if_neg (by simp), if_neg (by simp), encodes_cons, hc, List.cons_append]

theorem encodes_length_eq (e : Enc) (p : Nat → Bool) (cps : List Nat) :
    (encodes e (cps.dropWhile p)).length = (encodes e cps).length ↔ cps.takeWhile p = [] := by
  have h := List.takeWhile_append_dropWhile (p := p) (l := cps)
  have h2 : encodes e cps = encodes e (cps.takeWhile p) ++ encodes e (cps.dropWhile p) := by
    rw [← encodes_append, h]
  rw [h2, List.length_append, ← encodes_eq_nil e, ← List.length_eq_zero_iff]
  omega

/-- The character set reader on a well-formed source. -/
theorem charsetSource_spec (e : Enc) (t : SetText) (ht : t.Ok) (sp : Specs) (hsp : SetSpecs e t sp) (cps : List Nat)
    (h : ∀ cp ∈ cps, IsScalar cp) :
    charsetSource e sp (encodes e cps) =
      if cps.takeWhile (fun x => codeListed t x != t.inverted) = [] then .err .invalidScannedValue
      else .ok (encodes e (cps.dropWhile (fun x => codeListed t x != t.inverted))) := by
  have hlit : ∀ x, inLiterals sp x = ((t.bracket && x == 93) || t.items.any (itemBit · x)) := fun x => by
    rw [inLiterals_bit, hsp.bits]
  cases hw : sp.nonascii with
  | true =>
    obtain ⟨ranges, h1, h2⟩ := handleNonascii_wide e t ht sp hsp hw
    have hpred : onExtraRanges sp ranges = codeListed t := by
      funext x
      unfold onExtraRanges codeListed
      split
      · exact hlit x
      · exact h2 x (by omega)
    unfold charsetSource
    rw [h1]
    simp only [Res.bind, hw, if_true, hpred, hsp.inv]
    have hread : (if t.inverted = true then readUntilCp e (codeListed t) (encodes e cps)
        else readWhileCp e (codeListed t) (encodes e cps)) =
        some (encodes e (cps.dropWhile fun x => codeListed t x != t.inverted)) := by
      cases t.inverted with
      | true =>
        rw [if_pos rfl, readUntilCp_encodes e _ cps h]
        congr 3; funext x; cases codeListed t x <;> rfl
      | false =>
        rw [if_neg (by simp), readWhileCp, readUntilCp_encodes e _ cps h]
        congr 3; funext x; cases codeListed t x <;> rfl
    rw [hread]
    simp only [checkNonempty, encodes_length_eq]
  | false =>
    have hnw : ∀ i ∈ t.items, itemWide i = false := by
      have := hsp.wide
      rw [hw] at this
      intro i hi
      exact List.any_eq_false.1 this.symm i hi |> (by simpa using ·)
    have hpred : ∀ x, onAsciiOnly sp x = codeListed t x := by
      intro x
      unfold onAsciiOnly codeListed
      split
      · exact hlit x
      · rename_i hx
        symm
        rw [List.any_eq_false]
        intro i hi
        have := hnw i hi
        cases i with
        | one c =>
          simp only [itemWide, decide_eq_false_iff_not] at this
          simp only [SetItem.has, beq_iff_eq]; omega
        | range a b =>
          simp only [itemWide, decide_eq_false_iff_not] at this
          simp only [SetItem.has, Bool.and_eq_true, decide_eq_true_eq]; omega
    have hpred' : onAsciiOnly sp = codeListed t := funext hpred
    have hconst : ∀ x, 127 < x → codeListed t x = false := by
      intro x hx
      rw [← hpred x, onAsciiOnly, if_neg (by omega)]
    unfold charsetSource
    have hh : handleNonascii e sp = .ok [] := by unfold handleNonascii; rw [if_pos hw]
    rw [hh]
    simp only [Res.bind, hw, Bool.false_eq_true, if_false, hpred', hsp.inv]
    have hread : (if t.inverted = true then readUntilUnit (codeListed t) (encodes e cps)
        else readWhileUnit (codeListed t) (encodes e cps)) =
        encodes e (cps.dropWhile fun x => codeListed t x != t.inverted) := by
      cases t.inverted with
      | true =>
        rw [if_pos rfl, readUntilUnit, dropWhile_units e _ true (fun c hc => by rw [hconst c hc]; rfl) cps h]
        congr 2; funext x; cases codeListed t x <;> rfl
      | false =>
        rw [if_neg (by simp), readWhileUnit, readUntilUnit,
          dropWhile_units e _ false (fun c hc => by rw [hconst c hc]; rfl) cps h]
        congr 2; funext x; cases codeListed t x <;> rfl
    rw [hread]
    simp only [checkNonempty, encodes_length_eq]

theorem validate_encodes (e : Enc) (cps : List Nat) (h : ∀ cp ∈ cps, IsScalar cp) :
    validateUnicode e (encodes e cps) = some true := by
  cases e with
  | utf8 => exact validate_utf8s cps (fun c hc => (h c hc).1)
  | utf16 => exact validate_utf16s cps h
  | utf32 =>
    rw [encodes_utf32, validate_utf32]
    have : cps.all (fun x => decide (x < 0x110000)) = true := by
      rw [List.all_eq_true]; intro c hc; simpa using (h c hc).1
    rw [this]

theorem between_append (a b : List Nat) : between (a ++ b) b = a := take_view a b

/-- Reading a string up to a position between two characters: the value is exactly the
    characters passed. -/
theorem readString_encodes (e : Enc) (a b : List Nat) (h : ∀ cp ∈ a, IsScalar cp) :
    readString e e (encodes e (a ++ b)) (encodes e b) = .ok (encodes e a, encodes e b) := by
  unfold readString
  rw [encodes_append, between_append, validate_encodes e a h]
  simp only [transcodeIfNecessary, if_true]
  rfl

end Scn
