import Verif.Lemmas.Localized
import Verif.Lemmas.Simulate
import Verif.Model.BufScan
import Verif.Lemmas.Calls2
/-
Scan calls without the flag `L` under two locales.
-/
namespace Scn
open Spec

/-- A format string asks for the locale: it holds the flag `L` at the end of a field, or before the letter at the end of a field. -/
def Spec.AsksLocale (fmt : List Nat) : Prop :=
  ∃ t, 76 :: 125 :: t <:+ fmt ∨ ∃ c, ((97 ≤ c ∧ c ≤ 122) ∨ (65 ≤ c ∧ c ≤ 90)) ∧ 76 :: c :: 125 :: t <:+ fmt

/-- The type of a number goes with its destination. -/
def Dest.Typed : Dest → Prop
  | .int _ ty => ty.category = some .integer ∨ ty.category = some .unsignedInteger
  | .float ty _ _ => ty = .float ∨ ty = .double ∨ ty = .ldouble
  | _ => True

theorem typed_type {d : Dest} (h : d.Typed) : d.argTy ≠ .custom ∧ d.argTy.category ≠ none := by
  cases d with
  | int T ty =>
    have h' : ty.category = some .integer ∨ ty.category = some .unsignedInteger := h
    refine ⟨?_, ?_⟩
    · rintro hc
      have hc' : ty = .custom := hc
      subst hc'
      rcases h' with h | h <;> simp [ArgTy.category] at h
    · show ty.category ≠ none
      rcases h' with h | h <;> rw [h] <;> simp
  | float ty cv seg =>
    have h' : ty = .float ∨ ty = .double ∨ ty = .ldouble := h
    show ty ≠ _ ∧ ty.category ≠ none
    rcases h' with rfl | rfl | rfl <;> simp [ArgTy.category]
  | string dst => cases dst <;> simp [Dest.argTy, ArgTy.category]
  | view dst stored => cases dst <;> simp [Dest.argTy, ArgTy.category]
  | _ => simp [Dest.argTy, ArgTy.category]

/-- Without the flag, readers do not look at the locale. -/
theorem specsReader_locale {e wide : Enc} {loc loc' : LocaleData} (hr : loc'.regex = loc.regex) {old : Nat} {sp : Specs} (hl : sp.localized = false) (d : Dest) :
    d.specsReader e wide loc' old sp = d.specsReader e wide loc old sp := by
  have hint : ∀ T, intSpecsReader e loc' T sp = intSpecsReader e loc T sp := by
    intro T; unfold intSpecsReader; simp only [hl, Bool.false_eq_true, if_false]
  cases d with
  | int T ty => simp only [Dest.specsReader, hint]
  | bool => simp only [Dest.specsReader, boolReader, hl, Bool.false_eq_true, if_false]
  | char => simp only [Dest.specsReader, charReader, hint]
  | wchar => simp only [Dest.specsReader, wcharReader, hint]
  | codePoint => rfl
  | string dst =>
    simp only [Dest.specsReader]
    cases strKind sp with
    | some k => rfl
    | none => dsimp only [regexReader, regexStringEnd]; rw [hr]
  | pointer => rfl
  | view dst stored =>
    simp only [Dest.specsReader]
    cases strKind sp with
    | some k => rfl
    | none => dsimp only [regexViewReader, regexStringEnd]; rw [hr]
  | float ty cv seg => simp only [Dest.specsReader, floatReader, floatLocOf, hl, Bool.false_eq_true, if_false]

theorem parseRegex_type {cfg : RegexCfg} {e : Enc} {st st' : Setter} {s p : List Nat}
    (h : parseRegex cfg e st s = some (st', p)) (he : st'.err = false) : st'.specs.type = .regex ∨ st'.specs.type = .regexEscaped := by
  unfold parseRegex at h
  split at h
  · split at h
    · cases h; cases he
    · split at h
      · cases h; cases he
      · dsimp only at h
        split at h
        · cases h; cases he
        · split at h
          · cases h; cases he
          · split at h
            · cases h; cases he
            · have key : ∀ b, (if b = true then Pres.regexEscaped else .regex) = .regex ∨ (if b = true then Pres.regexEscaped else .regex) = .regexEscaped := by
                intro b; cases b <;> simp
              split at h
              · rename_i hr
                cases h
                have := congrArg (fun x => x.1.specs.type) hr
                simp only [regexFlags_before] at this
                rw [← this]
                exact key _
              · rename_i hr
                have := congrArg (fun x => x.1.specs.type) hr
                simp only [regexFlags_before] at this
                split at h
                · cases h; cases he
                · cases h
                  rename_i x st2 f2 _
                  show st2.specs.type = _ ∨ st2.specs.type = _
                  rw [← this]
                  exact key _
  · cases h

/-- What a presentation is. -/
theorem parsePresentation_kind {cfg : RegexCfg} {e : Enc} {st st' : Setter} {s p : List Nat}
    (h : parsePresentation cfg e st s = some (st', 125 :: p)) (he : st'.err = false) :
    (∃ c, ((97 ≤ c ∧ c ≤ 122) ∨ (65 ≤ c ∧ c ≤ 90)) ∧ s = c :: 125 :: p) ∨
      st'.specs.type = .stringSet ∨ st'.specs.type = .regex ∨ st'.specs.type = .regexEscaped ∨ st'.specs.type = .escapedCharacter := by
  unfold parsePresentation at h
  split at h
  · cases h
  · rename_i c cs
    split at h
    · split at h
      · cases h
      · split at h
        · cases h; cases he
        · cases h; exact Or.inr (Or.inl rfl)
    · split at h
      · rcases parseRegex_type h he with h | h
        · exact Or.inr (Or.inr (Or.inl h))
        · exact Or.inr (Or.inr (Or.inr (Or.inl h)))
      · split at h
        · cases h
        · cases h; cases he
        · rename_i t hne hp
          cases h
          by_cases h63 : c = 63
          · subst h63
            have : t = .escapedCharacter := by
              have : parsePresType 63 = some .escapedCharacter := rfl
              rw [this] at hp
              exact (Option.some.inj hp).symm
            subst this
            exact Or.inr (Or.inr (Or.inr (Or.inr rfl)))
          · refine Or.inl ⟨c, ?_, rfl⟩
            by_cases hl : (97 ≤ c ∧ c ≤ 122) ∨ (65 ≤ c ∧ c ≤ 90)
            · exact hl
            · exfalso
              apply hne
              unfold parsePresType at hp
              have : ∀ x, ((97 ≤ x ∧ x ≤ 122) ∨ (65 ≤ x ∧ x ≤ 90)) → c ≠ x := fun x hx h => hl (h ▸ hx)
              simp only [this 98 (by decide), this 66 (by decide), this 100 (by decide), this 105 (by decide), this 117 (by decide), this 111 (by decide),
                this 120 (by decide), this 88 (by decide), this 114 (by decide), this 82 (by decide), this 97 (by decide), this 65 (by decide), this 101 (by decide),
                this 69 (by decide), this 102 (by decide), this 70 (by decide), this 103 (by decide), this 71 (by decide), this 115 (by decide), this 99 (by decide),
                h63, this 112 (by decide), or_self, if_false] at hp
              split at hp
              · cases hp
              · exact (Option.some.inj hp).symm

theorem unlessEnd_some {r : Option (Setter × List Nat)} {k : Setter → List Nat → Option (Setter × List Nat)} {p' : List Nat} {st' : Setter}
    (h : unlessEnd r k = some (st', p')) (he : st'.err = false) : ∃ st q, r = some (st, q) ∧ k st q = some (st', p') := by
  unfold unlessEnd at h
  split at h
  · cases h
  · cases h; cases he
  · exact ⟨_, _, rfl, h⟩

theorem AsksLocale.of_suffix {s t : List Nat} (h : AsksLocale t) (hs : t <:+ s) : AsksLocale s := by
  obtain ⟨r, h | ⟨c, hc, h⟩⟩ := h
  · exact ⟨r, Or.inl (h.trans hs)⟩
  · exact ⟨r, Or.inr ⟨c, hc, h.trans hs⟩⟩

/-- What stands in a field with the flag. -/
theorem parseSpecs_asks {cfg : RegexCfg} {e : Enc} {ty : ArgTy} {s p : List Nat} {st' : Setter}
    (h : parseSpecs cfg e ty ⟨{}, false⟩ s = some (st', 125 :: p)) (he : st'.err = false) :
    st'.specs.localized = false ∨ AsksLocale s ∨
      ((ty.category = some .integer ∨ ty.category = some .unsignedInteger ∨ ty.category = some .floating ∨ ty.category = some .boolean) ∧
        (st'.specs.type = .stringSet ∨ st'.specs.type = .regex ∨ st'.specs.type = .regexEscaped ∨ st'.specs.type = .escapedCharacter)) := by
  unfold parseSpecs at h
  have long : ∀ {r : Option (Setter × List Nat)}, r = some (st', 125 :: p) →
      r = (unlessEnd (some ((⟨{}, false⟩ : Setter), s)) fun st s =>
        unlessEnd (parseAlign e st s) fun st s =>
        unlessEnd (parseWidth st s) fun st s =>
        unlessEnd (match s with
          | 46 :: s1 => unlessEnd (some (st, s1)) fun st s => unlessEnd (parsePrecision st s) fun st s => some (st, s)
          | s => some (st, s)) fun st s =>
        unlessEnd (match s with
          | 76 :: s1 => (st.onLocalized ty).map fun st => (st, s1)
          | s => some (st, s)) fun st s =>
        unlessEnd (match s with
          | 125 :: _ => some (st, s)
          | s => parsePresentation cfg e st s) fun st s => some (st, s)) → st'.specs.localized = false ∨ AsksLocale s ∨
      ((ty.category = some .integer ∨ ty.category = some .unsignedInteger ∨ ty.category = some .floating ∨ ty.category = some .boolean) ∧
        (st'.specs.type = .stringSet ∨ st'.specs.type = .regex ∨ st'.specs.type = .regexEscaped ∨ st'.specs.type = .escapedCharacter)) := by
    intro r hr hdef
    rw [hdef] at hr
    let Q : Setter → Prop := fun st' => st'.specs.localized = false ∨ AsksLocale s ∨
      ((ty.category = some .integer ∨ ty.category = some .unsignedInteger ∨ ty.category = some .floating ∨ ty.category = some .boolean) ∧
        (st'.specs.type = .stringSet ∨ st'.specs.type = .regex ∨ st'.specs.type = .regexEscaped ∨ st'.specs.type = .escapedCharacter))
    refine unlessEnd_accepted (Q := Q) (P := fun x => x.specs.localized = false) (s0 := s) hr he
      (fun st p hx => by cases hx; exact ⟨rfl, List.suffix_refl _⟩) fun st q hne hb hps hr => ?_
    refine unlessEnd_accepted (Q := Q) (P := fun x => x.specs.localized = false) (s0 := s) hr he
      (fun st1 p1 hx => ⟨(parseAlign_locale hx).trans hb, (steps_suffix (parseAlign_steps e st q hne) hx).trans hps⟩) fun st q hne hb hps hr => ?_
    refine unlessEnd_accepted (Q := Q) (P := fun x => x.specs.localized = false) (s0 := s) hr he
      (fun st1 p1 hx => ⟨(parseWidth_locale hx).trans hb, (steps_suffix (parseWidth_steps st q hne) hx).trans hps⟩) fun st q hne hb hps hr => ?_
    refine unlessEnd_accepted (Q := Q) (P := fun x => x.specs.localized = false) (s0 := s) hr he (fun st1 p1 hx => ?_) fun st q hne hb hps hr => ?_
    · split at hx
      · rename_i s1
        unfold unlessEnd at hx
        split at hx
        · cases hx
        · rename_i heq; cases heq; cases hx; exact ⟨hb, List.nil_suffix⟩
        · rename_i st2 s2 hne2 heq
          cases heq
          dsimp only at hx
          split at hx
          · cases hx
          · rename_i hpp; cases hx; exact ⟨(parsePrecision_locale hpp : _).trans hb, List.nil_suffix⟩
          · rename_i st3 s3 hne3 hpp
            cases hx
            exact ⟨(parsePrecision_locale hpp).trans hb, (steps_suffix (parsePrecision_steps _ _ hne2) hpp).trans
              ((List.suffix_cons _ _).trans hps)⟩
      · cases hx; exact ⟨hb, hps⟩
    have last : ∀ (st : Setter) (q : List Nat), (unlessEnd (match (generalizing := false) q with
          | 125 :: _ => some (st, q)
          | q => parsePresentation cfg e st q) fun st s => some (st, s)) = some (st', 125 :: p) →
        st'.specs.localized = st.specs.localized ∧ (q = 125 :: p ∨ (∃ c, ((97 ≤ c ∧ c ≤ 122) ∨ (65 ≤ c ∧ c ≤ 90)) ∧ q = c :: 125 :: p) ∨
          st'.specs.type = .stringSet ∨ st'.specs.type = .regex ∨ st'.specs.type = .regexEscaped ∨ st'.specs.type = .escapedCharacter) := by
      intro st q hr
      unfold unlessEnd at hr
      split at hr
      · cases hr
      · cases hr
      · rename_i st2 s2 hne2 heq
        cases hr
        split at heq
        · cases heq; exact ⟨rfl, Or.inl rfl⟩
        · exact ⟨parsePresentation_locale heq, Or.inr (parsePresentation_kind heq he)⟩
    obtain ⟨st2, q, h1, h2⟩ := unlessEnd_some hr he
    obtain ⟨h3, h4⟩ := last st2 q h2
    split at h1
    · rename_i s1
      simp only [Option.map_eq_some_iff, Prod.mk.injEq] at h1
      obtain ⟨st3, ho, rfl, rfl⟩ := h1
      unfold Setter.onLocalized at ho
      split at ho
      · cases ho
      · rename_i cat hcat
        split at ho
        · cases ho
          exact Or.inl (h3.trans hb)
        · rename_i hnum
          rcases h4 with h4 | ⟨c, hc, h4⟩ | h4
          · subst h4
            exact Or.inr (Or.inl ⟨p, Or.inl hps⟩)
          · subst h4
            exact Or.inr (Or.inl ⟨p, Or.inr ⟨c, hc, hps⟩⟩)
          · refine Or.inr (Or.inr ⟨?_, h4⟩)
            rw [hcat]
            cases cat <;> simp at hnum ⊢
    · cases h1
      exact Or.inl (h3.trans hb)
  dsimp only at h
  split at h
  · split at h
    · exact Or.inl ((parsePresentation_locale h).trans (rfl))
    · exact long h rfl
  · exact long h rfl

/-- A specification without the flag is read alike under two locales. -/
theorem readSpecs_locale {e wide : Enc} {loc loc' : LocaleData} (hr : loc'.regex = loc.regex) {old : Nat} {d : Dest} {cfg : RegexCfg}
    {pos p : List Nat} {st : Setter} (hpos : ¬ AsksLocale pos) (hp : parseSpecs cfg e d.argTy ⟨{}, false⟩ pos = some (st, 125 :: p)) (he : st.err = false)
    (lay : List Nat → Layout) (s : List Nat) : d.readSpecs e wide loc' old st.specs lay s = d.readSpecs e wide loc old st.specs lay s := by
  rcases parseSpecs_asks hp he with h | h | ⟨hc, ht⟩
  · unfold Dest.readSpecs
    rw [specsReader_locale hr h]
  · exact absurd h hpos
  · have : runTypeCheck d.argTy st.specs ≠ some true := by
      cases hty : d.argTy <;> rw [hty] at hc <;> simp [ArgTy.category] at hc <;> simp only [runTypeCheck, ne_eq, Option.some.injEq] <;>
        rcases ht with ht | ht | ht | ht <;> simp [checkInt, checkBool, checkFloat, ht, Pres.ord]
    unfold Dest.readSpecs
    split
    · rfl
    · rfl
    · rename_i h
      exact absurd h this

theorem env_locale {e wide : Enc} {cfg : RegexCfg} {loc loc' : LocaleData} (hr : loc'.regex = loc.regex) {old : Nat} {ds : List Dest} (hds : ∀ d ∈ ds, d.Typed)
    {lay : List Nat → Layout} {A B : Env Val} {win : List Nat → Option Nat}
    (hA : (A = stdEnv e wide cfg loc old ds ∧ B = stdEnv e wide cfg loc' old ds) ∨
      (A = bufEnv e wide cfg loc old lay win ds ∧ B = bufEnv e wide cfg loc' old lay win ds)) :
    EnvSim A B (fun _ => True) (fun f => ¬ AsksLocale f) where
  enc := by rcases hA with ⟨rfl, rfl⟩ | ⟨rfl, rfl⟩ <;> rfl
  cfg := by rcases hA with ⟨rfl, rfl⟩ | ⟨rfl, rfl⟩ <;> rfl
  count := by rcases hA with ⟨rfl, rfl⟩ | ⟨rfl, rfl⟩ <;> rfl
  ty := by rcases hA with ⟨rfl, rfl⟩ | ⟨rfl, rfl⟩ <;> rfl
  down := fun _ _ _ _ => trivial
  fdown := fun s t hs ht h => hs (AsksLocale.of_suffix h ht)
  skip := by rcases hA with ⟨rfl, rfl⟩ | ⟨rfl, rfl⟩ <;> exact fun _ _ _ h => ⟨h, trivial⟩
  dflt := by rcases hA with ⟨rfl, rfl⟩ | ⟨rfl, rfl⟩ <;> exact fun _ _ _ _ _ => ⟨rfl, fun _ _ _ => trivial⟩
  specs := by
    intro id pos setter p s _ hpos hid hps herr _
    refine ⟨?_, fun _ _ _ => trivial⟩
    have hid' : id < ds.length := by rcases hA with ⟨rfl, rfl⟩ | ⟨rfl, rfl⟩ <;> exact hid
    have hty : A.argTy id = (ds[id]'hid').argTy := by
      have : A.argTy id = (stdEnv e wide cfg loc old ds).argTy id := by rcases hA with ⟨rfl, rfl⟩ | ⟨rfl, rfl⟩ <;> rfl
      rw [this]
      exact std_argTy (List.getElem?_eq_getElem hid')
    have hps' : parseSpecs cfg e (ds[id]'hid').argTy ⟨{}, false⟩ pos = some (setter, 125 :: p) := by
      rw [hty] at hps
      rcases hA with ⟨rfl, rfl⟩ | ⟨rfl, rfl⟩ <;> exact hps
    have key := fun lay => readSpecs_locale (wide := wide) hr (old := old) hpos hps' herr lay s
    rcases hA with ⟨rfl, rfl⟩ | ⟨rfl, rfl⟩
    · simp only [stdEnv]
      rw [List.getElem?_eq_getElem hid']
      exact key _
    · simp only [bufEnv]
      rw [List.getElem?_eq_getElem hid']
      exact key _
  custom id := by
    have : A.argTy id = (stdEnv e wide cfg loc old ds).argTy id := by rcases hA with ⟨rfl, rfl⟩ | ⟨rfl, rfl⟩ <;> rfl
    rw [this]
    by_cases hid : id < ds.length
    · rw [std_argTy (List.getElem?_eq_getElem hid)]
      exact (typed_type (hds _ (List.getElem_mem hid))).1
    · unfold Env.argTy
      rw [if_neg (show ¬ id < (stdEnv e wide cfg loc old ds).count from hid)]
      simp
  types id := by
    have : A.argTy id = (stdEnv e wide cfg loc old ds).argTy id := by rcases hA with ⟨rfl, rfl⟩ | ⟨rfl, rfl⟩ <;> rfl
    rw [this]
    by_cases hid : id < ds.length
    · rw [std_argTy (List.getElem?_eq_getElem hid)]
      exact (typed_type (hds _ (List.getElem_mem hid))).2
    · unfold Env.argTy
      rw [if_neg (show ¬ id < (stdEnv e wide cfg loc old ds).count from hid)]
      simp [ArgTy.category]

end Scn
