import Verif.Lemmas.Padded2
import Verif.Props.Charset
/-
Reading back specifications that end in a set of characters, `{:*<10.20[a-z]}`. Used for C105.
-/
namespace Scn
open Spec

/-- A set has more than its brackets. -/
theorem set_long (e : Enc) (t : SetText) (ht : t.Ok) : ¬ (t.text e).length ≤ 2 := by
  unfold SetText.text SetText.opening
  have hne := ht.nonempty
  cases hb : t.bracket with
  | true => simp [ht.bracket hb]
  | false =>
    have hne : t.items ≠ [] := by
      rcases hne with h | h
      · rw [hb] at h; cases h
      · exact h
    obtain ⟨i, is, his⟩ : ∃ i is, t.items = i :: is := by
      cases h : t.items with
      | nil => exact absurd h hne
      | cons i is => exact ⟨i, is, rfl⟩
    obtain ⟨x, xs, hx, _⟩ := item_first e i (ht.items i (by rw [his]; simp))
    rw [his]
    simp [hx]; omega

/-- A set is no fill character. -/
theorem parseAlign_set (e : Enc) (st : Setter) (d : Nat) (ds : List Nat) : parseAlign e st (91 :: d :: ds) = some (st, 91 :: d :: ds) := by
  simp only [parseAlign, fillLength_ascii e 91 (by decide)]
  simp

/-- Fill, alignment, width and precision, then a set: the specification of the first part, with that set. -/
theorem parseSpecs_written_set (cfg : RegexCfg) (e : Enc) (ty : ArgTy) (w : Written) (h : w.Readable e ty []) (hlet : w.letter = none)
    (hloc : w.localized = false) (t : SetText) (ht : t.Ok) (rest : List Nat) :
    ∃ st, parseSpecs cfg e ty ⟨{}, false⟩ (w.render e ++ (t.text e ++ 125 :: rest)) = some (st, 125 :: rest) ∧ st.err = false ∧
      SetSpecs e t st.specs ∧
      st.specs.plain = { w.specs e with inverted := t.inverted, setString := t.text e, type := .stringSet } := by
  obtain ⟨cs, hcs, d, ds, hd⟩ : ∃ cs, t.text e ++ 125 :: rest = 91 :: cs ∧ ∃ d ds, cs = d :: ds := by
    refine ⟨_, by simp only [SetText.text, SetText.opening, List.cons_append]; rfl, ?_⟩
    cases h : (((if t.inverted then [94] else []) ++ if t.bracket then [93] else []) ++
      (List.flatMap (SetItem.text e) t.items ++ [93]) ++ 125 :: rest) with
    | nil => simp at h
    | cons d ds => exact ⟨d, ds, rfl⟩
  subst hd
  have hpl : ∀ c ∈ w.widthPart ++ w.precisionPart, PlainChar c := by
    have := body_plain w h.letter
    intro c hc
    refine this c ?_
    simp only [List.mem_append] at hc ⊢
    rcases hc with hc | hc
    · exact .inl hc
    · exact .inr (.inl hc)
  have e1 : w.render e ++ (t.text e ++ 125 :: rest) = w.alignPart e ++ (w.widthPart ++ (w.precisionPart ++ 91 :: d :: ds)) := by
    rw [hcs]
    simp [Written.render, Written.localizedPart, Written.letterPart, hlet, hloc, List.append_assoc]
  have eb : w.widthPart ++ (w.precisionPart ++ 91 :: d :: ds) = (w.widthPart ++ w.precisionPart) ++ 91 :: d :: ds := by
    simp [List.append_assoc]
  rw [parseSpecs_long]
  -- alignment
  have hA : ∃ f : Fill, parseAlign e ⟨{}, false⟩ (w.render e ++ (t.text e ++ 125 :: rest)) =
        some (⟨{ fill := f, align := ((w.align.map fun x => alignMeaning x.2).getD .none) }, false⟩,
          w.widthPart ++ (w.precisionPart ++ 91 :: d :: ds)) ∧ f = w.fillOf e := by
    cases ha : w.align with
    | none =>
      refine ⟨Fill.default, ?_, by simp [Written.fillOf, ha]⟩
      rw [e1, Written.alignPart, ha, List.nil_append, eb]
      cases hbd : w.widthPart ++ w.precisionPart with
      | nil => exact parseAlign_set e _ d ds
      | cons b bs =>
        refine parseAlign_none e _ b (bs ++ 91 :: d :: ds) (hpl b (by rw [hbd]; simp)) fun x hx => ?_
        cases bs with
        | nil => simp at hx; omega
        | cons c bs =>
          simp at hx; subst hx
          obtain ⟨_, g⟩ := hpl c (by rw [hbd]; simp)
          exact ⟨g.1, g.2.1, g.2.2.1⟩
    | some x =>
      obtain ⟨f, a⟩ := x
      obtain ⟨h1, h2⟩ := h.align f a ha
      cases f with
      | none =>
        refine ⟨Fill.default, ?_, by simp [Written.fillOf, ha]⟩
        rw [e1, Written.alignPart, ha, eb]
        cases hbd : w.widthPart ++ w.precisionPart with
        | nil => exact parseAlign_align e _ a 91 _ h1 (by omega)
        | cons b bs =>
          obtain ⟨_, g⟩ := hpl b (by rw [hbd]; simp)
          exact parseAlign_align e _ a b (bs ++ 91 :: d :: ds) h1 ⟨g.1, g.2.1, g.2.2.1⟩
      | some cp =>
        obtain ⟨h3, h4, h5, h6⟩ := h2 cp rfl
        obtain ⟨f, hf1, hf2⟩ := parseAlign_fill e ⟨{}, false⟩ cp a (w.widthPart ++ (w.precisionPart ++ 91 :: d :: ds)) h1 h3 h4 h5
          (fun he => by have := h6 (by rw [he]; simp); omega)
        refine ⟨f, ?_, by simp [Written.fillOf, ha, hf1]⟩
        rw [e1, Written.alignPart, ha]
        simp only [List.append_assoc, List.singleton_append]
        exact hf2
  obtain ⟨f, hA1, hA4⟩ := hA
  have hsp : w.specs e = readBack f ((w.align.map fun x => alignMeaning x.2).getD .none) w.width w.precision false .none := by
    unfold Written.specs
    rw [← hA4, hlet, hloc]
    rfl
  rw [hsp]
  generalize ((w.align.map fun x => alignMeaning x.2).getD .none) = al at hA1 ⊢
  obtain ⟨cP, csP, hP1, hP2⟩ : ∃ c cs, w.precisionPart ++ 91 :: d :: ds = c :: cs ∧ isDec c = false := by
    unfold Written.precisionPart
    split
    · exact ⟨91, _, rfl, by decide⟩
    · exact ⟨46, _, rfl, by decide⟩
  have hW : parseWidth ⟨{ fill := f, align := al }, false⟩ (w.widthPart ++ (w.precisionPart ++ 91 :: d :: ds)) =
      some (⟨{ fill := f, align := al, width := w.width.getD 0 }, false⟩, cP :: csP) := by
    rw [hP1, Written.widthPart]
    cases hw : w.width with
    | none => exact parseWidth_none _ _ _ hP2
    | some n =>
      have := (parseWidth_digits ⟨{ fill := f, align := al }, false⟩ (numeral 10 n) (cP :: csP)
        (numeral_isNumeral 10 n (by omega) (by omega)) (plain_of_noDigit _ _ hP2)).1 (by
          rw [numeral_value 10 n (by omega) (by omega)]; exact h.width n hw)
      rw [numeral_value 10 n (by omega) (by omega)] at this
      exact this
  have hP : precStage ⟨{ fill := f, align := al, width := w.width.getD 0 }, false⟩ (cP :: csP) =
      some (⟨readBack f al w.width w.precision false .none, false⟩, 91 :: d :: ds) := by
    rw [← hP1, Written.precisionPart]
    cases hp : w.precision with
    | none => exact precStage_skip _ _ _ (by decide)
    | some n =>
      obtain ⟨hp1, hp2⟩ := h.precision n hp
      have := (parsePrecision_digits ⟨{ fill := f, align := al, width := w.width.getD 0 }, false⟩ (numeral 10 n) (91 :: d :: ds)
        (numeral_isNumeral 10 n (by omega) (by omega)) (plain_of_noDigit _ _ (by decide))).1 (by
          rw [numeral_value 10 n (by omega) (by omega)]; exact hp1)
      rw [numeral_value 10 n (by omega) (by omega)] at this
      show unlessEnd (some (_, numeral 10 n ++ 91 :: d :: ds)) _ = _
      rw [unlessEnd_ne _ _ (by simp), this, unlessEnd_cons]
      simp only [Setter.onPrecision]
      rw [if_neg (by omega)]
      rfl
  obtain ⟨st', h1, h2, h3, h4⟩ := parseSet_specs e t ht (125 :: rest) ⟨readBack f al w.width w.precision false .none, false⟩ rfl rfl rfl rfl
  refine ⟨st'.onSetString (t.text e), ?_, h2, h3, h4⟩
  have hlen := set_long e t ht
  unfold parseSpecsLong
  rw [unlessEnd_ne _ _ (by rw [e1]; simp), hA1, unlessEnd_ne _ _ (by simp), hW, unlessEnd_cons, hP, unlessEnd_cons,
    locStage_skip _ _ _ _ (by decide), unlessEnd_cons, typeStage_pres _ _ _ _ _ (by decide)]
  simp only [parsePresentation, if_true]
  rw [← hcs, h1]
  simp only [if_neg hlen]
  rfl

end Scn
