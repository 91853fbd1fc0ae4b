import Verif.Lemmas.Boundary4
import Verif.Lemmas.Defined5
/-
The fill character of specifications from a well-formed format string is a character.
-/
namespace Scn
open Spec

/-- The fill is one character. -/
def FillOk (e : Enc) (sp : Specs) : Prop := ∃ c, IsScalar c ∧ sp.fill.units e = encode e c

theorem utf8_tail {x : Nat} : ∀ u ∈ (utf8 x).tail, isTrailing u = true := by
  intro u hu
  rw [isTrailing_iff]
  unfold utf8 at hu
  split at hu
  · simp at hu
  · split at hu
    · simp at hu; omega
    · split at hu
      · simp at hu; omega
      · simp at hu; omega

/-- A unit that begins a character, in the rest of a well-formed text. -/
theorem utf8_lead {f : List Nat} (hf : ∀ c ∈ f, IsScalar c) : ∀ {c : Nat} {s : List Nat}, c :: s <:+ encodes .utf8 f → cpLength8 c ≠ 0 →
    ∃ x, IsScalar x ∧ (c :: s).take (cpLength8 c) = utf8 x := by
  induction f with
  | nil =>
    intro c s h _
    have := h.length_le
    simp [encodes_nil] at this
  | cons y f ih =>
    intro c s h hc
    obtain ⟨a, ha⟩ := h
    rw [encodes_cons] at ha
    by_cases hl : (encode .utf8 y).length ≤ a.length
    · refine ih (fun z hz => hf z (by simp [hz])) ?_ hc
      obtain ⟨b, rfl⟩ : encode .utf8 y <+: a := by
        have h1 : encode .utf8 y <+: encode .utf8 y ++ encodes .utf8 f := List.prefix_append _ _
        have h2 : a <+: encode .utf8 y ++ encodes .utf8 f := ⟨_, ha⟩
        exact List.prefix_of_prefix_length_le h1 h2 hl
      rw [List.append_assoc] at ha
      exact ⟨b, List.append_cancel_left ha⟩
    · cases a with
      | nil =>
        have h1 : encodes .utf8 (y :: f) = c :: s := by rw [encodes_cons, ← ha]; rfl
        obtain ⟨x, cps', h2, h3, h4, _⟩ := encodes_first hf h1
        exact ⟨x, hf x (by rw [h2]; simp), h4⟩
      | cons b a =>
        exfalso
        obtain ⟨d, hd⟩ : b :: a <+: encode .utf8 y := by
          have h1 : encode .utf8 y <+: encode .utf8 y ++ encodes .utf8 f := List.prefix_append _ _
          have h2 : b :: a <+: encode .utf8 y ++ encodes .utf8 f := ⟨_, ha⟩
          exact List.prefix_of_prefix_length_le h2 h1 (by omega)
        cases d with
        | nil => rw [List.append_nil] at hd; rw [hd] at hl; exact hl (Nat.le_refl _)
        | cons x d =>
          rw [← hd, List.append_assoc] at ha
          have hx := List.append_cancel_left ha
          simp only [List.cons_append, List.cons.injEq] at hx
          rw [← hx.1] at hd
          have : c ∈ (utf8 y).tail := by
            have : utf8 y = b :: a ++ c :: d := hd.symm
            rw [this]
            simp
          exact hc (trailing_cpLength8 (utf8_tail c this))

theorem fill_byte (e : Enc) (f : Fill) (a b c d : Nat) (ha : a < 256) (h : f = ⟨[a, b, c, d], 1⟩) (he : e ≠ .utf8) :
    f.units e = encode e a := by
  subst h
  cases e with
  | utf8 => exact absurd rfl he
  | utf16 =>
    show _ = utf16 a
    unfold utf16
    rw [if_pos (by omega)]
    simp [Fill.units]
  | utf32 => simp [Fill.units, encode]

theorem assign_fillOk {e : Enc} {f : List Nat} (hf : ∀ c ∈ f, IsScalar c) {c : Nat} {s : List Nat} (hs : c :: s <:+ encodes e f)
    (hl : fillLength e c ≠ 0) {g : Fill} (h : Fill.assign e ((c :: s).take (fillLength e c)) = some g) : ∃ x, IsScalar x ∧ g.units e = encode e x := by
  cases e with
  | utf8 =>
    obtain ⟨x, hx, ht⟩ := utf8_lead hf hs hl
    rw [show fillLength .utf8 c = cpLength8 c from rfl, ht] at h
    refine ⟨x, hx, ?_⟩
    show _ = utf8 x
    unfold Fill.assign at h
    split at h
    · cases h
    · split at h
      · cases h
      · cases h
        unfold Fill.units
        dsimp only
        split
        · rename_i hne _ h1
          generalize utf8 x = us at h1 hne
          rcases us with _ | ⟨u, _ | ⟨w, us⟩⟩
          · exact absurd rfl hne
          · simp
          · simp at h1
        · rw [List.take_append_of_le_length (Nat.le_refl _), List.take_length]
    · rename_i he _; cases he
    · rename_i he _; cases he
    · rename_i he _ _ _; cases he
    · rename_i he _; cases he
    · rename_i he _ _; cases he
  | utf16 =>
    have : (c :: s).take (fillLength .utf16 c) = [c] := rfl
    rw [this] at h
    cases h
    exact ⟨c % 256, ⟨by omega, by omega⟩, fill_byte _ _ _ _ _ _ (by omega) rfl (by simp)⟩
  | utf32 =>
    have : (c :: s).take (fillLength .utf32 c) = [c] := rfl
    rw [this] at h
    cases h
    exact ⟨c % 256, ⟨by omega, by omega⟩, fill_byte _ _ _ _ _ _ (by omega) rfl (by simp)⟩

theorem FillOk.init (e : Enc) : FillOk e {} := ⟨32, ⟨by omega, by omega⟩, by cases e <;> decide⟩

theorem parseAlign_fillOk {e : Enc} {f : List Nat} (hf : ∀ c ∈ f, IsScalar c) {st st' : Setter} {s p : List Nat} (hs : s <:+ encodes e f)
    (hb : FillOk e st.specs) (h : parseAlign e st s = some (st', p)) : FillOk e st'.specs := by
  unfold parseAlign at h
  split at h
  · cases h
  · dsimp only at h
    split at h
    · cases h; exact hb
    · split at h
      · cases h; exact hb
      · split at h
        · cases h; exact hb
        · split at h
          · cases h; exact hb
          · split at h
            · split at h
              · cases h; exact hb
              · cases h; exact hb
            · rename_i hlen _ _ _ _ _ _ _
              simp only [Setter.onFill, Option.map_map, Option.map_eq_some_iff] at h
              obtain ⟨g, hg, h⟩ := h
              simp only [Function.comp, Prod.mk.injEq] at h
              obtain ⟨rfl, _⟩ := h
              exact assign_fillOk hf hs (fun h0 => hlen (Or.inl h0)) hg

theorem parseWidth_fill {st st' : Setter} {s p : List Nat} (h : parseWidth st s = some (st', p)) : st'.specs.fill = st.specs.fill := by
  unfold parseWidth at h
  split at h
  · cases h
  · split at h
    · simp only [Option.map_eq_some_iff] at h
      obtain ⟨r, _, h⟩ := h
      split at h
      · cases h
        unfold Setter.onWidth
        split <;> rfl
      · cases h; rfl
    · cases h; rfl

theorem parsePrecision_fill {st st' : Setter} {s p : List Nat} (h : parsePrecision st s = some (st', p)) : st'.specs.fill = st.specs.fill := by
  unfold parsePrecision at h
  split at h
  · cases h
  · split at h
    · simp only [Option.map_eq_some_iff] at h
      obtain ⟨r, _, h⟩ := h
      split at h
      · cases h
        unfold Setter.onPrecision
        split <;> rfl
      · cases h; rfl
    · cases h; rfl

theorem onLocalized_fill {ty : ArgTy} {st st' : Setter} (h : st.onLocalized ty = some st') : st'.specs.fill = st.specs.fill := by
  unfold Setter.onLocalized at h
  split at h
  · cases h
  · split at h <;> (cases h; rfl)

theorem parseRegex_fill {cfg : RegexCfg} {e : Enc} {st st' : Setter} {s p : List Nat}
    (h : parseRegex cfg e st s = some (st', p)) : st'.specs.fill = st.specs.fill := by
  unfold parseRegex at h
  split at h
  · split at h
    · cases h; rfl
    · split at h
      · cases h; rfl
      · dsimp only at h
        split at h
        · cases h; rfl
        · split at h
          · cases h; rfl
          · split at h
            · cases h; rfl
            · split at h
              · rename_i hr
                cases h
                have := congrArg (fun x => x.1.specs) hr
                simp only [regexFlags_before] at this
                rw [← this]
                rfl
              · rename_i hr
                have := congrArg (fun x => x.1.specs) hr
                simp only [regexFlags_before] at this
                split at h <;> (cases h; exact (congrArg Specs.fill this).symm)
  · cases h

theorem parsePresentation_fill {cfg : RegexCfg} {e : Enc} {st st' : Setter} {s p : List Nat}
    (h : parsePresentation cfg e st s = some (st', p)) : st'.specs.fill = st.specs.fill := by
  unfold parsePresentation at h
  split at h
  · cases h
  · split at h
    · split at h
      · cases h
      · rename_i hset
        split at h
        · cases h; exact (parseSet_fill hset : _)
        · cases h; exact (parseSet_fill hset : _)
    · split at h
      · exact parseRegex_fill h
      · split at h
        · cases h
        · cases h; rfl
        · cases h; rfl

/-- The fill of accepted specifications from a well-formed format string is a character. -/
theorem parseSpecs_fillOk {cfg : RegexCfg} {e : Enc} {f : List Nat} (hf : ∀ c ∈ f, IsScalar c) {ty : ArgTy} {s p : List Nat} {st' : Setter}
    (hs : s <:+ encodes e f) (h : parseSpecs cfg e ty ⟨{}, false⟩ s = some (st', p)) (he : st'.err = false) : FillOk e st'.specs := by
  have of : ∀ {a b : Setter}, b.specs.fill = a.specs.fill → FillOk e a.specs → FillOk e b.specs := by
    intro a b hab ⟨c, h1, h2⟩
    exact ⟨c, h1, by rw [hab]; exact h2⟩
  unfold parseSpecs at h
  have long : ∀ {r : Option (Setter × List Nat)}, r = some (st', p) →
      r = (unlessEnd (some ((⟨{}, false⟩ : Setter), s)) fun st s =>
        unlessEnd (parseAlign e st s) fun st s =>
        unlessEnd (parseWidth st s) fun st s =>
        unlessEnd (match s with
          | 46 :: s1 => unlessEnd (some (st, s1)) fun st s => unlessEnd (parsePrecision st s) fun st s => some (st, s)
          | s => some (st, s)) fun st s =>
        unlessEnd (match s with
          | 76 :: s1 => (st.onLocalized ty).map fun st => (st, s1)
          | s => some (st, s)) fun st s =>
        unlessEnd (match s with
          | 125 :: _ => some (st, s)
          | s => parsePresentation cfg e st s) fun st s => some (st, s)) → FillOk e st'.specs := by
    intro r hr hdef
    rw [hdef] at hr
    refine unlessEnd_accepted (Q := fun x => FillOk e x.specs) (P := fun x => FillOk e x.specs) (s0 := s) hr he
      (fun st p hx => by cases hx; exact ⟨FillOk.init e, List.suffix_refl _⟩) fun st p hne hb hps hr => ?_
    refine unlessEnd_accepted (Q := fun x => FillOk e x.specs) (P := fun x => FillOk e x.specs) (s0 := s) hr he
      (fun st1 p1 hx => ⟨parseAlign_fillOk hf (hps.trans hs) hb hx, (steps_suffix (parseAlign_steps e st p hne) hx).trans hps⟩) fun st p hne hb hps hr => ?_
    refine unlessEnd_accepted (Q := fun x => FillOk e x.specs) (P := fun x => FillOk e x.specs) (s0 := s) hr he
      (fun st1 p1 hx => ⟨of (parseWidth_fill hx) hb, (steps_suffix (parseWidth_steps st p hne) hx).trans hps⟩) fun st p hne hb hps hr => ?_
    refine unlessEnd_accepted (Q := fun x => FillOk e x.specs) (P := fun x => FillOk e x.specs) (s0 := s) hr he (fun st1 p1 hx => ?_) fun st p hne hb hps hr => ?_
    · split at hx
      · rename_i s1
        unfold unlessEnd at hx
        split at hx
        · cases hx
        · rename_i heq; cases heq; cases hx; exact ⟨hb, List.nil_suffix⟩
        · rename_i st2 s2 hne2 heq
          cases heq
          dsimp only at hx
          split at hx
          · cases hx
          · rename_i hpp; cases hx; exact ⟨of (b := Setter.onError _) (parsePrecision_fill hpp : _) hb, List.nil_suffix⟩
          · rename_i st3 s3 hne3 hpp
            cases hx
            exact ⟨of (parsePrecision_fill hpp) hb, (steps_suffix (parsePrecision_steps _ _ hne2) hpp).trans
              ((List.suffix_cons _ _).trans hps)⟩
      · cases hx; exact ⟨hb, hps⟩
    refine unlessEnd_accepted (Q := fun x => FillOk e x.specs) (P := fun x => FillOk e x.specs) (s0 := s) hr he (fun st1 p1 hx => ?_) fun st p hne hb hps hr => ?_
    · split at hx
      · simp only [Option.map_eq_some_iff] at hx
        obtain ⟨st2, hl, hx⟩ := hx
        cases hx
        exact ⟨of (onLocalized_fill hl) hb, (List.suffix_cons _ _).trans hps⟩
      · cases hx; exact ⟨hb, hps⟩
    unfold unlessEnd at hr
    split at hr
    · cases hr
    · cases hr; cases he
    · rename_i st2 s2 hne2 heq
      cases hr
      split at heq
      · cases heq; exact hb
      · exact of (parsePresentation_fill heq) hb
  dsimp only at h
  split at h
  · split at h
    · exact of (parsePresentation_fill h) (FillOk.init e)
    · exact long h rfl
  · exact long h rfl

theorem FillOk.describes {e : Enc} {sp : Specs} (h : FillOk e sp) : ∃ F, Describes e sp F := by
  obtain ⟨c, h1, h2⟩ := h
  exact ⟨⟨sp.width, sp.precision, sp.align.side, c⟩, rfl, rfl, rfl, h2, h1⟩

end Scn
