import Verif.Lemmas.Defined3
/-
Every scan into built-in destinations is well-defined: the parser's guarantees, the readers, and the
driver together.
-/
namespace Scn
open Spec

/-! ### The parser's guarantees -/

/-- Before the presentation type: no character set yet, a fill character, no type. -/
structure BeforeType (e : Enc) (st : Setter) : Prop where
  fill : st.specs.fill.units e ≠ []
  set : st.specs.nonascii = false
  type : st.specs.type = .none

theorem BeforeType.error {e : Enc} {st : Setter} (h : BeforeType e st) : BeforeType e st.onError := ⟨h.fill, h.set, h.type⟩

theorem BeforeType.init (e : Enc) : BeforeType e ⟨{}, false⟩ := ⟨by cases e <;> decide, rfl, rfl⟩

theorem fill_assign_units {e : Enc} {s : List Nat} {f : Fill} (h : Fill.assign e s = some f) : f.units e ≠ [] := by
  unfold Fill.assign at h
  split at h
  · cases h
  · rename_i hs
    split at h
    · cases h
    · cases h
      unfold Fill.units
      dsimp only
      split
      · simp
      · rw [List.take_append_of_le_length (Nat.le_refl _), List.take_length]
        exact fun h => hs (by rw [h])
  · cases h; simp [Fill.units]
  · cases h; simp [Fill.units]
  · cases h
  · cases h; simp [Fill.units]
  · cases h

theorem parseAlign_before {e : Enc} {st st' : Setter} {s p : List Nat} (hb : BeforeType e st)
    (h : parseAlign e st s = some (st', p)) : BeforeType e st' := by
  unfold parseAlign at h
  split at h
  · cases h
  · dsimp only at h
    split at h
    · cases h; exact hb.error
    · split at h
      · cases h; exact hb
      · split at h
        · cases h; exact hb.error
        · split at h
          · cases h; exact hb
          · split at h
            · split at h
              · cases h; exact ⟨hb.fill, hb.set, hb.type⟩
              · cases h; exact hb
            · simp only [Setter.onFill, Option.map_map, Option.map_eq_some_iff] at h
              obtain ⟨f, hf, h⟩ := h
              simp only [Function.comp, Prod.mk.injEq] at h
              obtain ⟨rfl, _⟩ := h
              exact ⟨fill_assign_units hf, hb.set, hb.type⟩

theorem parseWidth_before {e : Enc} {st st' : Setter} {s p : List Nat} (hb : BeforeType e st)
    (h : parseWidth st s = some (st', p)) : BeforeType e st' := by
  unfold parseWidth at h
  split at h
  · cases h
  · split at h
    · simp only [Option.map_eq_some_iff] at h
      obtain ⟨r, _, h⟩ := h
      split at h
      · cases h
        unfold Setter.onWidth
        split
        · exact hb.error
        · exact ⟨hb.fill, hb.set, hb.type⟩
      · cases h; exact hb.error
    · cases h; exact hb

theorem parsePrecision_before {e : Enc} {st st' : Setter} {s p : List Nat} (hb : BeforeType e st)
    (h : parsePrecision st s = some (st', p)) : BeforeType e st' := by
  unfold parsePrecision at h
  split at h
  · cases h
  · split at h
    · simp only [Option.map_eq_some_iff] at h
      obtain ⟨r, _, h⟩ := h
      split at h
      · cases h
        unfold Setter.onPrecision
        split
        · exact hb.error
        · exact ⟨hb.fill, hb.set, hb.type⟩
      · cases h; exact hb.error
    · cases h; exact hb

theorem onLocalized_before {e : Enc} {ty : ArgTy} {st st' : Setter} (hb : BeforeType e st) (h : st.onLocalized ty = some st') :
    BeforeType e st' := by
  unfold Setter.onLocalized at h
  split at h
  · cases h
  · split at h
    · cases h; exact hb.error
    · cases h; exact ⟨hb.fill, hb.set, hb.type⟩

/-- What holds of accepted specifications. -/
structure Accepted (e : Enc) (sp : Specs) (s : List Nat) : Prop where
  ok : SpecsOk e sp
  regex : sp.type = .regex ∨ sp.type = .regexEscaped → 47 ∈ s

theorem handleNonascii_plain {e : Enc} {sp : Specs} (h : sp.nonascii = false) : handleNonascii e sp ≠ .ub := by
  unfold handleNonascii; rw [if_pos h]; simp

theorem BeforeType.accepted {e : Enc} {st : Setter} (h : BeforeType e st) (s : List Nat) : Accepted e st.specs s :=
  ⟨⟨h.fill, handleNonascii_plain h.set⟩, by rw [h.type]; simp⟩

theorem setterSingle_fill (st : Setter) (c : Nat) : (st.onCharsetSingle c).specs.fill = st.specs.fill := by
  unfold Setter.onCharsetSingle; split <;> rfl

theorem setterRange_fill {st st' : Setter} {a b : Nat} (h : st.onCharsetRange a b = some st') : st'.specs.fill = st.specs.fill := by
  unfold Setter.onCharsetRange at h
  split at h
  · cases h
  · split at h <;> (cases h; rfl)

theorem setCodePoint_fill {e : Enc} {st st' : Setter} {s p : List Nat} {o : Option Nat}
    (h : setCodePoint setterSet e st s = some (st', o, p)) : st'.specs.fill = st.specs.fill := by
  cases o with
  | none => rw [setCodePoint_failed h]; rfl
  | some cp => rw [(setCodePoint_again h).1]

theorem setLiteral_fill {e : Enc} {st st' : Setter} {s p : List Nat} (h : setLiteral setterSet e st s = some (st', p)) :
    st'.specs.fill = st.specs.fill := by
  unfold setLiteral at h
  split at h
  · cases h
  · rename_i h1; cases h; exact setCodePoint_fill h1
  · rename_i h1
    have hf := setCodePoint_fill h1
    split at h
    · split at h
      · split at h
        · cases h
        · rename_i h2; cases h; exact (setCodePoint_fill h2).trans hf
        · rename_i h2
          have hf2 := setCodePoint_fill h2
          split at h
          · cases h; exact hf2.trans hf
          · simp only [Option.map_eq_some_iff] at h
            obtain ⟨r, hr, h⟩ := h
            cases h
            exact (setterRange_fill hr).trans (hf2.trans hf)
      · cases h; exact (setterSingle_fill _ _).trans hf
    · cases h; exact (setterSingle_fill _ _).trans hf

theorem setLoop_fill {e : Enc} (n : Nat) : ∀ {st st' : Setter} {s p : List Nat} {b : Bool},
    setLoop setterSet e n st s = some (st', b, p) → st'.specs.fill = st.specs.fill := by
  induction n with
  | zero => intro st st' s p b h; cases s <;> simp [setLoop] at h; rw [h.1]
  | succ n ih =>
    intro st st' s p b h
    cases s with
    | nil => simp [setLoop] at h; rw [h.1]
    | cons c cs =>
      simp only [setLoop] at h
      split at h
      · cases h; rfl
      · split at h
        · cases h; rfl
        · split at h
          · cases h
          · rename_i h1; exact (ih h).trans (setLiteral_fill h1)

theorem setFinish_fill {s p v : List Nat} {st' : Setter} {r : Option (Setter × Bool × List Nat)} {f : Fill}
    (h : setFinish setterSet s r = some (st', v, p)) (hr : ∀ st b q, r = some (st, b, q) → st.specs.fill = f) : st'.specs.fill = f := by
  unfold setFinish at h
  split at h
  · cases h
  · cases h; exact hr _ _ _ rfl
  · rename_i st1 _; cases h; exact hr st1 _ _ rfl

theorem parseSet_fill {e : Enc} {st st' : Setter} {s p v : List Nat} (h : parseSet setterSet e st s = some (st', v, p)) :
    st'.specs.fill = st.specs.fill := by
  unfold parseSet at h
  split at h
  · split at h
    · cases h; rfl
    · dsimp only at h
      split at h
      · cases h; rfl
      · exact setFinish_fill h fun _ _ _ hr => (setLoop_fill _ hr).trans (setterSingle_fill _ _)
      · exact setFinish_fill (f := st.specs.fill) h fun _ _ _ hr => (setLoop_fill _ hr).trans rfl
    · cases h; rfl
    · exact setFinish_fill h fun _ _ _ hr => setLoop_fill _ hr
  · cases h

theorem regexFlags_before (cfg : RegexCfg) (s : List Nat) : ∀ (st : Setter) (f : Nat),
    (regexFlags cfg st f s).1.specs = st.specs := by
  induction s with
  | nil => intro st f; rfl
  | cons c cs ih =>
    intro st f
    simp only [regexFlags]
    split
    · rfl
    · split
      · rfl
      · split
        · rfl
        · rw [ih]; split <;> rfl

theorem parseRegex_accepted {cfg : RegexCfg} {e : Enc} {st st' : Setter} {s p : List Nat} (hb : BeforeType e st)
    (h : parseRegex cfg e st s = some (st', p)) : Accepted e st'.specs s := by
  unfold parseRegex at h
  split at h
  · rename_i s1
    have h47 : (47 : Nat) ∈ 47 :: s1 := List.mem_cons_self
    suffices H : SpecsOk e st'.specs from ⟨H, fun _ => h47⟩
    have mk : ∀ x : Setter, x.specs.fill = st.specs.fill → x.specs.nonascii = st.specs.nonascii → SpecsOk e x.specs :=
      fun x h1 h2 => ⟨by rw [h1]; exact hb.fill, handleNonascii_plain (by rw [h2]; exact hb.set)⟩
    split at h
    · cases h; exact mk _ rfl rfl
    · split at h
      · cases h; exact mk _ rfl rfl
      · dsimp only at h
        split at h
        · cases h; exact mk _ rfl rfl
        · split at h
          · cases h; exact mk _ rfl rfl
          · split at h
            · cases h; exact mk _ rfl rfl
            · split at h
              · rename_i hr
                cases h
                have := congrArg (fun x => x.1.specs) hr
                simp only [regexFlags_before] at this
                exact mk _ (by rw [← this]; rfl) (by rw [← this]; rfl)
              · rename_i hr
                have := congrArg (fun x => x.1.specs) hr
                simp only [regexFlags_before] at this
                split at h
                · cases h
                  exact mk _ (congrArg Specs.fill this).symm (congrArg Specs.nonascii this).symm
                · cases h
                  exact mk _ (congrArg Specs.fill this).symm (congrArg Specs.nonascii this).symm
  · cases h

theorem parsePresType_regex (c : Nat) : parsePresType c ≠ some .regex ∧ parsePresType c ≠ some .regexEscaped := by
  have key : (fun o : Option Pres => decide (o = some .regex ∨ o = some .regexEscaped)) (parsePresType c) = false := by
    unfold parsePresType
    simp only [apply_ite (fun o : Option Pres => decide (o = some .regex ∨ o = some .regexEscaped))]
    simp
  simpa using key

theorem parsePresentation_accepted {cfg : RegexCfg} {e : Enc} {st st' : Setter} {s p : List Nat} (hb : BeforeType e st)
    (h : parsePresentation cfg e st s = some (st', p)) (he : st'.err = false) : Accepted e st'.specs s := by
  unfold parsePresentation at h
  split at h
  · cases h
  · split at h
    · split at h
      · cases h
      · rename_i st1 view rest hset
        split at h
        · cases h; cases he
        · rename_i hlen
          cases h
          have he' : st1.err = false := he
          obtain ⟨st3, h3, h3e⟩ := parseSet_again hset he' (by omega)
          refine ⟨⟨?_, ?_⟩, ?_⟩
          · show st1.specs.fill.units e ≠ []
            rw [parseSet_fill hset]; exact hb.fill
          · show handleNonascii e { st1.specs with setString := view, type := .stringSet } ≠ .ub
            unfold handleNonascii
            split
            · simp
            · dsimp only
              rw [h3]
              dsimp only
              rw [if_neg (by simp [h3e]), if_neg (by simp)]
              simp
          · intro hr
            rcases hr with hr | hr <;> cases hr
    · split at h
      · exact parseRegex_accepted hb h
      · split at h
        · cases h
        · cases h; cases he
        · rename_i t ht hpt
          cases h
          refine ⟨⟨hb.fill, handleNonascii_plain hb.set⟩, fun hr => ?_⟩
          rcases hr with hr | hr
          · have hr' : _ = Pres.regex := hr
            exact absurd (hpt.trans (by rw [← hr']; rfl)) (parsePresType_regex _).1
          · have hr' : _ = Pres.regexEscaped := hr
            exact absurd (hpt.trans (by rw [← hr']; rfl)) (parsePresType_regex _).2

theorem unlessEnd_accepted {r : Option (Setter × List Nat)} {k : Setter → List Nat → Option (Setter × List Nat)} {Q P : Setter → Prop}
    {s0 p' : List Nat} {st' : Setter} (h : unlessEnd r k = some (st', p')) (he : st'.err = false)
    (hr : ∀ st p, r = some (st, p) → P st ∧ p <:+ s0)
    (hk : ∀ st p, p ≠ [] → P st → p <:+ s0 → k st p = some (st', p') → Q st') : Q st' := by
  unfold unlessEnd at h
  split at h
  · cases h
  · cases h; cases he
  · rename_i st s hne
    obtain ⟨h1, h2⟩ := hr st s rfl
    exact hk st s hne h1 h2 h

theorem steps_suffix {α : Type} {r : Option (α × List Nat)} {s p : List Nat} {a : α} (h : StepsTo r s) (hr : r = some (a, p)) : p <:+ s := by
  obtain ⟨a', p', h1, h2⟩ := h
  rw [h1] at hr
  cases hr
  exact h2

/-- Specifications the format string parser accepts have a fill character, a character set that can
    be parsed again, and no regular expression unless the text has a slash. -/
theorem parseSpecs_accepted {cfg : RegexCfg} {e : Enc} {ty : ArgTy} {s p : List Nat} {st' : Setter}
    (h : parseSpecs cfg e ty ⟨{}, false⟩ s = some (st', p)) (he : st'.err = false) : Accepted e st'.specs s := by
  have up : ∀ {sp : Specs} {a : List Nat}, a <:+ s → Accepted e sp a → Accepted e sp s :=
    fun ha hx => ⟨hx.ok, fun hr => ha.subset (hx.regex hr)⟩
  unfold parseSpecs at h
  have long : ∀ {r : Option (Setter × List Nat)}, r = some (st', p) →
      r = (unlessEnd (some ((⟨{}, false⟩ : Setter), s)) fun st s =>
        unlessEnd (parseAlign e st s) fun st s =>
        unlessEnd (parseWidth st s) fun st s =>
        unlessEnd (match s with
          | 46 :: s1 => unlessEnd (some (st, s1)) fun st s => unlessEnd (parsePrecision st s) fun st s => some (st, s)
          | s => some (st, s)) fun st s =>
        unlessEnd (match s with
          | 76 :: s1 => (st.onLocalized ty).map fun st => (st, s1)
          | s => some (st, s)) fun st s =>
        unlessEnd (match s with
          | 125 :: _ => some (st, s)
          | s => parsePresentation cfg e st s) fun st s => some (st, s)) → Accepted e st'.specs s := by
    intro r hr hdef
    rw [hdef] at hr
    refine unlessEnd_accepted (Q := fun x => Accepted e x.specs s) (P := BeforeType e) (s0 := s) hr he
      (fun st p hx => by cases hx; exact ⟨BeforeType.init e, List.suffix_refl _⟩) fun st p hne hb hps hr => ?_
    refine unlessEnd_accepted (Q := fun x => Accepted e x.specs s) (P := BeforeType e) (s0 := s) hr he
      (fun st1 p1 hx => ⟨parseAlign_before hb hx, (steps_suffix (parseAlign_steps e st p hne) hx).trans hps⟩) fun st p hne hb hps hr => ?_
    refine unlessEnd_accepted (Q := fun x => Accepted e x.specs s) (P := BeforeType e) (s0 := s) hr he
      (fun st1 p1 hx => ⟨parseWidth_before hb hx, (steps_suffix (parseWidth_steps st p hne) hx).trans hps⟩) fun st p hne hb hps hr => ?_
    refine unlessEnd_accepted (Q := fun x => Accepted e x.specs s) (P := BeforeType e) (s0 := s) hr he (fun st1 p1 hx => ?_) fun st p hne hb hps hr => ?_
    · split at hx
      · rename_i s1
        unfold unlessEnd at hx
        split at hx
        · cases hx
        · rename_i heq; cases heq; cases hx; exact ⟨hb.error, List.nil_suffix⟩
        · rename_i st2 s2 hne2 heq
          cases heq
          dsimp only at hx
          split at hx
          · cases hx
          · rename_i hpp; cases hx; exact ⟨(parsePrecision_before hb hpp).error, List.nil_suffix⟩
          · rename_i st3 s3 hne3 hpp
            cases hx
            exact ⟨parsePrecision_before hb hpp, (steps_suffix (parsePrecision_steps _ _ hne2) hpp).trans
              ((List.suffix_cons _ _).trans hps)⟩
      · cases hx; exact ⟨hb, hps⟩
    refine unlessEnd_accepted (Q := fun x => Accepted e x.specs s) (P := BeforeType e) (s0 := s) hr he (fun st1 p1 hx => ?_) fun st p hne hb hps hr => ?_
    · split at hx
      · simp only [Option.map_eq_some_iff] at hx
        obtain ⟨st2, hl, hx⟩ := hx
        cases hx
        exact ⟨onLocalized_before hb hl, (List.suffix_cons _ _).trans hps⟩
      · cases hx; exact ⟨hb, hps⟩
    unfold unlessEnd at hr
    split at hr
    · cases hr
    · cases hr; cases he
    · rename_i st2 s2 hne2 heq
      cases hr
      split at heq
      · cases heq; exact hb.accepted s
      · exact up hps (parsePresentation_accepted hb heq he)
  dsimp only at h
  split at h
  · split at h
    · exact parsePresentation_accepted (BeforeType.init e) h he
    · exact long h rfl
  · exact long h rfl

end Scn
