import Verif.Lemmas.Boundary5
/-
Specifications are localized by an `L` alone.
-/
namespace Scn
open Spec

theorem setterSingle_locale (st : Setter) (c : Nat) : (st.onCharsetSingle c).specs.localized = st.specs.localized := by
  unfold Setter.onCharsetSingle; split <;> rfl

theorem setterRange_locale {st st' : Setter} {a b : Nat} (h : st.onCharsetRange a b = some st') : st'.specs.localized = st.specs.localized := by
  unfold Setter.onCharsetRange at h
  split at h
  · cases h
  · split at h <;> (cases h; rfl)

theorem setCodePoint_locale {e : Enc} {st st' : Setter} {s p : List Nat} {o : Option Nat}
    (h : setCodePoint setterSet e st s = some (st', o, p)) : st'.specs.localized = st.specs.localized := by
  cases o with
  | none => rw [setCodePoint_failed h]; rfl
  | some cp => rw [(setCodePoint_again h).1]

theorem setLiteral_locale {e : Enc} {st st' : Setter} {s p : List Nat} (h : setLiteral setterSet e st s = some (st', p)) :
    st'.specs.localized = st.specs.localized := by
  unfold setLiteral at h
  split at h
  · cases h
  · rename_i h1; cases h; exact setCodePoint_locale h1
  · rename_i h1
    have hf := setCodePoint_locale h1
    split at h
    · split at h
      · split at h
        · cases h
        · rename_i h2; cases h; exact (setCodePoint_locale h2).trans hf
        · rename_i h2
          have hf2 := setCodePoint_locale h2
          split at h
          · cases h; exact hf2.trans hf
          · simp only [Option.map_eq_some_iff] at h
            obtain ⟨r, hr, h⟩ := h
            cases h
            exact (setterRange_locale hr).trans (hf2.trans hf)
      · cases h; exact (setterSingle_locale _ _).trans hf
    · cases h; exact (setterSingle_locale _ _).trans hf

theorem setLoop_locale {e : Enc} (n : Nat) : ∀ {st st' : Setter} {s p : List Nat} {b : Bool},
    setLoop setterSet e n st s = some (st', b, p) → st'.specs.localized = st.specs.localized := by
  induction n with
  | zero => intro st st' s p b h; cases s <;> simp [setLoop] at h; rw [h.1]
  | succ n ih =>
    intro st st' s p b h
    cases s with
    | nil => simp [setLoop] at h; rw [h.1]
    | cons c cs =>
      simp only [setLoop] at h
      split at h
      · cases h; rfl
      · split at h
        · cases h; rfl
        · split at h
          · cases h
          · rename_i h1; exact (ih h).trans (setLiteral_locale h1)

theorem setFinish_locale {s p v : List Nat} {st' : Setter} {r : Option (Setter × Bool × List Nat)} {f : Bool}
    (h : setFinish setterSet s r = some (st', v, p)) (hr : ∀ st b q, r = some (st, b, q) → st.specs.localized = f) : st'.specs.localized = f := by
  unfold setFinish at h
  split at h
  · cases h
  · cases h; exact hr _ _ _ rfl
  · rename_i st1 _; cases h; exact hr st1 _ _ rfl

theorem parseSet_locale {e : Enc} {st st' : Setter} {s p v : List Nat} (h : parseSet setterSet e st s = some (st', v, p)) :
    st'.specs.localized = st.specs.localized := by
  unfold parseSet at h
  split at h
  · split at h
    · cases h; rfl
    · dsimp only at h
      split at h
      · cases h; rfl
      · exact setFinish_locale h fun _ _ _ hr => (setLoop_locale _ hr).trans (setterSingle_locale _ _)
      · exact setFinish_locale (f := st.specs.localized) h fun _ _ _ hr => (setLoop_locale _ hr).trans rfl
    · cases h; rfl
    · exact setFinish_locale h fun _ _ _ hr => setLoop_locale _ hr
  · cases h

theorem parseWidth_locale {st st' : Setter} {s p : List Nat} (h : parseWidth st s = some (st', p)) : st'.specs.localized = st.specs.localized := by
  unfold parseWidth at h
  split at h
  · cases h
  · split at h
    · simp only [Option.map_eq_some_iff] at h
      obtain ⟨r, _, h⟩ := h
      split at h
      · cases h
        unfold Setter.onWidth
        split <;> rfl
      · cases h; rfl
    · cases h; rfl

theorem parsePrecision_locale {st st' : Setter} {s p : List Nat} (h : parsePrecision st s = some (st', p)) : st'.specs.localized = st.specs.localized := by
  unfold parsePrecision at h
  split at h
  · cases h
  · split at h
    · simp only [Option.map_eq_some_iff] at h
      obtain ⟨r, _, h⟩ := h
      split at h
      · cases h
        unfold Setter.onPrecision
        split <;> rfl
      · cases h; rfl
    · cases h; rfl

theorem parseRegex_locale {cfg : RegexCfg} {e : Enc} {st st' : Setter} {s p : List Nat}
    (h : parseRegex cfg e st s = some (st', p)) : st'.specs.localized = st.specs.localized := by
  unfold parseRegex at h
  split at h
  · split at h
    · cases h; rfl
    · split at h
      · cases h; rfl
      · dsimp only at h
        split at h
        · cases h; rfl
        · split at h
          · cases h; rfl
          · split at h
            · cases h; rfl
            · split at h
              · rename_i hr
                cases h
                have := congrArg (fun x => x.1.specs) hr
                simp only [regexFlags_before] at this
                rw [← this]
                rfl
              · rename_i hr
                have := congrArg (fun x => x.1.specs) hr
                simp only [regexFlags_before] at this
                split at h <;> (cases h; exact (congrArg Specs.localized this).symm)
  · cases h

theorem parsePresentation_locale {cfg : RegexCfg} {e : Enc} {st st' : Setter} {s p : List Nat}
    (h : parsePresentation cfg e st s = some (st', p)) : st'.specs.localized = st.specs.localized := by
  unfold parsePresentation at h
  split at h
  · cases h
  · split at h
    · split at h
      · cases h
      · rename_i hset
        split at h
        · cases h; exact (parseSet_locale hset : _)
        · cases h; exact (parseSet_locale hset : _)
    · split at h
      · exact parseRegex_locale h
      · split at h
        · cases h
        · cases h; rfl
        · cases h; rfl

theorem parseAlign_locale {e : Enc} {st st' : Setter} {s p : List Nat} (h : parseAlign e st s = some (st', p)) :
    st'.specs.localized = st.specs.localized := by
  unfold parseAlign at h
  split at h
  · cases h
  · dsimp only at h
    split at h
    · cases h; rfl
    · split at h
      · cases h; rfl
      · split at h
        · cases h; rfl
        · split at h
          · cases h; rfl
          · split at h
            · split at h
              · cases h; rfl
              · cases h; rfl
            · simp only [Setter.onFill, Option.map_map, Option.map_eq_some_iff] at h
              obtain ⟨g, hg, h⟩ := h
              simp only [Function.comp, Prod.mk.injEq] at h
              obtain ⟨rfl, _⟩ := h
              rfl

/-- Specifications without an `L` are not localized. -/
theorem parseSpecs_locale {cfg : RegexCfg} {e : Enc} {ty : ArgTy} {s p : List Nat} {st' : Setter}
    (h76 : 76 ∉ s) (h : parseSpecs cfg e ty ⟨{}, false⟩ s = some (st', p)) (he : st'.err = false) : st'.specs.localized = false := by
  unfold parseSpecs at h
  have long : ∀ {r : Option (Setter × List Nat)}, r = some (st', p) →
      r = (unlessEnd (some ((⟨{}, false⟩ : Setter), s)) fun st s =>
        unlessEnd (parseAlign e st s) fun st s =>
        unlessEnd (parseWidth st s) fun st s =>
        unlessEnd (match s with
          | 46 :: s1 => unlessEnd (some (st, s1)) fun st s => unlessEnd (parsePrecision st s) fun st s => some (st, s)
          | s => some (st, s)) fun st s =>
        unlessEnd (match s with
          | 76 :: s1 => (st.onLocalized ty).map fun st => (st, s1)
          | s => some (st, s)) fun st s =>
        unlessEnd (match s with
          | 125 :: _ => some (st, s)
          | s => parsePresentation cfg e st s) fun st s => some (st, s)) → st'.specs.localized = false := by
    intro r hr hdef
    rw [hdef] at hr
    refine unlessEnd_accepted (Q := fun x => x.specs.localized = false) (P := fun x => x.specs.localized = false) (s0 := s) hr he
      (fun st p hx => by cases hx; exact ⟨rfl, List.suffix_refl _⟩) fun st p hne hb hps hr => ?_
    refine unlessEnd_accepted (Q := fun x => x.specs.localized = false) (P := fun x => x.specs.localized = false) (s0 := s) hr he
      (fun st1 p1 hx => ⟨(parseAlign_locale hx).trans hb, (steps_suffix (parseAlign_steps e st p hne) hx).trans hps⟩) fun st p hne hb hps hr => ?_
    refine unlessEnd_accepted (Q := fun x => x.specs.localized = false) (P := fun x => x.specs.localized = false) (s0 := s) hr he
      (fun st1 p1 hx => ⟨(parseWidth_locale hx).trans hb, (steps_suffix (parseWidth_steps st p hne) hx).trans hps⟩) fun st p hne hb hps hr => ?_
    refine unlessEnd_accepted (Q := fun x => x.specs.localized = false) (P := fun x => x.specs.localized = false) (s0 := s) hr he (fun st1 p1 hx => ?_) fun st p hne hb hps hr => ?_
    · split at hx
      · rename_i s1
        unfold unlessEnd at hx
        split at hx
        · cases hx
        · rename_i heq; cases heq; cases hx; exact ⟨hb, List.nil_suffix⟩
        · rename_i st2 s2 hne2 heq
          cases heq
          dsimp only at hx
          split at hx
          · cases hx
          · rename_i hpp; cases hx; exact ⟨(parsePrecision_locale hpp : _).trans hb, List.nil_suffix⟩
          · rename_i st3 s3 hne3 hpp
            cases hx
            exact ⟨(parsePrecision_locale hpp).trans hb, (steps_suffix (parsePrecision_steps _ _ hne2) hpp).trans
              ((List.suffix_cons _ _).trans hps)⟩
      · cases hx; exact ⟨hb, hps⟩
    refine unlessEnd_accepted (Q := fun x => x.specs.localized = false) (P := fun x => x.specs.localized = false) (s0 := s) hr he (fun st1 p1 hx => ?_) fun st p hne hb hps hr => ?_
    · split at hx
      · exact absurd (hps.subset (by simp)) h76
      · cases hx; exact ⟨hb, hps⟩
    unfold unlessEnd at hr
    split at hr
    · cases hr
    · cases hr; cases he
    · rename_i st2 s2 hne2 heq
      cases hr
      split at heq
      · cases heq; exact hb
      · exact (parsePresentation_locale heq).trans hb
  dsimp only at h
  split at h
  · split at h
    · exact (parsePresentation_locale h).trans (rfl)
    · exact long h rfl
  · exact long h rfl

end Scn
