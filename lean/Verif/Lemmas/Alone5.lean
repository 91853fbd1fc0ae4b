import Verif.Lemmas.Alone4
import Verif.Lemmas.AloneFloat
import Verif.Lemmas.Localized
/-
The destinations of a call, on what they have consumed.
-/
namespace Scn
open Spec

/-- Destinations that read whole characters. Integers are of the widths of the C++ types. Floating-point destinations come with conversions
    that read the longest numeral there is, and are not localized: the format string has no `L`. -/
def Dest.ReadsAlone (e : Enc) (fmt : List Nat) : Dest → Prop
  | .int T ty => T.Std ∧ (ty.category = some .integer ∨ ty.category = some .unsignedInteger)
  | .char => False
  | .wchar => e ≠ .utf16
  | .float ty cv _ => ((ty = .float ∨ ty = .double ∨ ty = .ldouble) ∧ ∃ round, ConvOk cv round) ∧ 76 ∉ fmt
  | _ => True

theorem readsAlone_byCharacter {e : Enc} {fmt : List Nat} {d : Dest} (h : d.ReadsAlone e fmt) : d.ByCharacter e := by
  cases d with
  | int T ty => exact h.2
  | char => exact h
  | wchar => exact h
  | float => exact h.1
  | _ => trivial

/-- A locale with single units for its punctuation, names for the truth values, and a regex engine that looks at no more than it takes. -/
structure LocalLocale (e : Enc) (loc : LocaleData) : Prop where
  plain : PlainLocale e loc
  truename : loc.truename ≠ []
  falsename : loc.falsename ≠ []
  regex : LocalRegex loc

theorem plain_fill (e : Enc) : ∃ f, IsScalar f ∧ ({} : Specs).fill.units e = encode e f := by
  refine ⟨32, by unfold IsScalar; decide, ?_⟩
  cases e <;> decide

theorem std64 : (⟨64, false⟩ : IntTy).Std := by unfold IntTy.Std; decide

theorem defaultReader_alone (e wide : Enc) {fmt : List Nat} {d : Dest} (hd : d.ReadsAlone e fmt) : Alone e (d.defaultReader e wide).read := by
  cases d with
  | int T ty =>
    exact Alone.map (rd := Reader.mk true fun l s => readIntDefault (srcOf e l) T s) _
      (readInt_alone_at hd.1 (sp := ⟨10, false, none⟩) (Or.inr (by decide)))
  | bool => exact Alone.map (rd := Reader.mk true fun _ s => readBool true true readBoolText s) _ (readBool_alone readBoolText_alone)
  | char => exact absurd hd id
  | wchar => exact Alone.map (rd := Reader.mk false fun _ s => readWcharDefault e wide s) _ (wcharDefault_alone e wide)
  | codePoint => exact (codePoint_alone e).map _
  | string dst =>
    exact Alone.map (rd := Reader.mk true fun l s => readWord e dst l s) _ (stringReader_alone (sp := {}) (plain_fill e) .word)
  | pointer => exact Alone.map (rd := pointerReader e) _ (readInt_alone_at std64 (sp := ⟨16, false, none⟩) (Or.inr (by decide)))
  | view dst stored => exact (viewReader_alone (plain_fill e) .word).map _
  | float ty cv seg =>
    exact Alone.map (rd := Reader.mk true fun l s => readFloatAs cv e (srcOf e l) seg .classic .none s) _ (float_alone hd.1.2.choose_spec e seg .none)

theorem defaultReader_moves (e wide : Enc) {fmt : List Nat} {d : Dest} (hd : d.ReadsAlone e fmt) (hw : (d.defaultReader e wide).skipWs = true) :
    Moves e (d.defaultReader e wide).read := by
  cases d with
  | int T ty =>
    exact Moves.map (rd := Reader.mk true fun l s => readIntDefault (srcOf e l) T s) _
      (readInt_moves hd.1 (sp := ⟨10, false, none⟩) (Or.inr (by decide)) (by simp))
  | bool => exact Moves.map (rd := Reader.mk true fun _ s => readBool true true readBoolText s) _ (readBool_moves readBoolText_shorter)
  | char => exact absurd hd id
  | wchar => cases hw
  | codePoint => cases hw
  | string dst => exact Moves.map (rd := Reader.mk true fun l s => readWord e dst l s) _ (stringReader_moves (sp := {}))
  | pointer => exact Moves.map (rd := pointerReader e) _ (readInt_moves std64 (sp := ⟨16, false, none⟩) (Or.inr (by decide)) (by simp))
  | view dst stored => exact (viewReader_moves {}).map _
  | float ty cv seg =>
    exact Moves.map (rd := Reader.mk true fun l s => readFloatAs cv e (srcOf e l) seg .classic .none s) _ (float_moves hd.1.2.choose_spec e seg .none)

theorem defaultReader_empty (e wide : Enc) {fmt : List Nat} {d : Dest} (hd : d.ReadsAlone e fmt) (hw : (d.defaultReader e wide).skipWs = false) (l : Layout) (v : Val)
    (r : List Nat) : (d.defaultReader e wide).read l [] ≠ .ok (v, r) := by
  cases d with
  | char => exact absurd hd id
  | wchar =>
    intro h
    cases e <;> cases wide <;> cases h
  | codePoint =>
    intro h
    cases e <;> cases h
  | _ => cases hw

theorem specsReader_alone {e wide : Enc} {loc : LocaleData} (hloc : LocalLocale e loc) {old : Nat} {sp : Specs}
    (hfill : ∃ f, IsScalar f ∧ sp.fill.units e = encode e f) {fmt : List Nat} (hl : 76 ∉ fmt → sp.localized = false) {d : Dest}
    (hd : d.ReadsAlone e fmt) : Alone e (d.specsReader e wide loc old sp).read := by
  cases d with
  | int T ty => exact (intSpecs_alone hd.1 sp).map _
  | bool =>
    refine Alone.map (rd := boolReader loc sp) _ (readBool_alone ?_)
    split
    · exact readBoolNames_alone _ _
    · exact readBoolText_alone
  | char => exact absurd hd id
  | wchar =>
    refine Alone.map (rd := wcharReader e wide loc sp old) _ fun l hl a b q v hs hb h => ?_
    simp only [wcharReader] at h ⊢
    split at h
    · rename_i ht
      rw [if_pos ht]
      exact wcharDefault_alone e wide l hl a b q v hs hb h
    · rename_i ht
      rw [if_neg ht]
      refine (intSpecs_alone ?_ sp).map (fun _ => old) l hl a b q v hs hb h
      unfold IntTy.Std
      split <;> decide
  | codePoint => exact (codePoint_alone e).map _
  | string dst =>
    simp only [Dest.specsReader]
    split
    · exact (stringReader_alone hfill _).map _
    · exact (regexReader_alone hloc.regex sp).map _
  | pointer => exact Alone.map (rd := pointerReader e) _ (readInt_alone_at std64 (sp := ⟨16, false, none⟩) (Or.inr (by decide)))
  | view dst stored =>
    simp only [Dest.specsReader]
    split
    · exact (viewReader_alone hfill _).map _
    · exact (regexViewReader_alone hloc.regex sp).map _
  | float ty cv seg =>
    refine Alone.map (rd := floatReader e loc cv seg sp) _ ?_
    unfold floatReader floatLocOf
    rw [hl hd.2]
    exact float_alone hd.1.2.choose_spec e seg sp.type

theorem specsReader_moves {e wide : Enc} {loc : LocaleData} (hloc : LocalLocale e loc) {old : Nat} {sp : Specs} {fmt : List Nat}
    (hl : 76 ∉ fmt → sp.localized = false) {d : Dest} (hd : d.ReadsAlone e fmt)
    (hw : (d.specsReader e wide loc old sp).skipWs = true) : Moves e (d.specsReader e wide loc old sp).read := by
  cases d with
  | int T ty => exact (intSpecs_moves hloc.plain hd.1 sp).map _
  | bool =>
    refine Moves.map (rd := boolReader loc sp) _ (readBool_moves ?_)
    split
    · exact readBoolNames_shorter hloc.truename hloc.falsename
    · exact readBoolText_shorter
  | char => exact absurd hd id
  | wchar => cases hw
  | codePoint => cases hw
  | string dst =>
    simp only [Dest.specsReader] at hw ⊢
    split
    · rename_i k hk
      rw [hk] at hw
      cases k with
      | word => exact (stringReader_moves sp).map _
      | _ => cases hw
    · rename_i hk
      rw [hk] at hw; cases hw
  | pointer => exact Moves.map (rd := pointerReader e) _ (readInt_moves std64 (sp := ⟨16, false, none⟩) (Or.inr (by decide)) (by simp))
  | view dst stored =>
    simp only [Dest.specsReader] at hw ⊢
    split
    · rename_i k hk
      rw [hk] at hw
      cases k with
      | word => exact (viewReader_moves sp).map _
      | _ => cases hw
    · rename_i hk
      rw [hk] at hw; cases hw
  | float ty cv seg =>
    refine Moves.map (rd := floatReader e loc cv seg sp) _ ?_
    unfold floatReader floatLocOf
    rw [hl hd.2]
    exact float_moves hd.1.2.choose_spec e seg sp.type

theorem readSpecs_alone {cfg : RegexCfg} {e wide : Enc} {loc : LocaleData} (hloc : LocalLocale e loc) {old : Nat} {d : Dest} {f : List Nat}
    (hd : d.ReadsAlone e (encodes e f)) (hf : ∀ c ∈ f, IsScalar c) {pos p : List Nat} (hpos : pos <:+ encodes e f)
    {ty : ArgTy} {setter : Setter} (hp : parseSpecs cfg e ty ⟨{}, false⟩ pos = some (setter, p)) (he : setter.err = false)
    {a b q : List Nat} (hs : ∀ c ∈ a ++ q, IsScalar c) (hb : b <:+ a) {v : Val}
    (h : d.readSpecs e wide loc old setter.specs (fun _ => .contiguous) (encodes e (a ++ q)) = .ok (v, encodes e (b ++ q))) :
    d.readSpecs e wide loc old setter.specs (fun _ => .contiguous) (encodes e a) = .ok (v, encodes e b) := by
  unfold Dest.readSpecs at h ⊢
  split at h
  · cases h
  · cases h
  · obtain ⟨F, hF⟩ := (parseSpecs_fillOk hf hpos hp he).describes
    have hl : 76 ∉ encodes e f → setter.specs.localized = false := fun h => parseSpecs_locale (fun h' => h (hpos.subset h')) hp he
    exact argRead_alone hF (specsReader_keeps hloc.plain (parseSpecs_accepted hp he).ok.set (readsAlone_byCharacter hd))
      (specsReader_alone hloc ⟨_, hF.scalar, hF.fill⟩ hl hd) (specsReader_moves hloc hl hd) hs hb h

theorem stdEnv_alone {e wide : Enc} {cfg : RegexCfg} {loc : LocaleData} (hloc : LocalLocale e loc) (old : Nat) {ds : List Dest}
    {f : List Nat} (hd : ∀ d ∈ ds, d.ReadsAlone e (encodes e f)) (q : List Nat) (hf : ∀ c ∈ f, IsScalar c) :
    EnvAlone (stdEnv e wide cfg loc old ds) e q (encodes e f) where
  enc := rfl
  keeps cps hs := bufEnv_keeps hloc.plain old (goodLayouts_contiguous e) (win := fun _ => none) (fun _ _ _ h => by cases h)
    (fun d h => readsAlone_byCharacter (hd d h)) hs hf
  skip cps hs := readWhileSpace_encodes e _ cps hs (good_layout (Or.inl rfl) cps)
  dflt id a b v hs hb h := by
    simp only [stdEnv] at h ⊢
    split at h
    · cases h
    · rename_i d hdd
      have hdr := hd d (List.mem_of_getElem? hdd)
      exact defaultRead_alone (defaultReader_keeps e wide (readsAlone_byCharacter hdr)) (defaultReader_alone e wide hdr) (defaultReader_moves e wide hdr)
        (defaultReader_empty e wide hdr) hs hb h
  specs id pos setter p a b v hs hb hpos hp he h := by
    simp only [stdEnv] at h ⊢
    split at h
    · cases h
    · rename_i d hdd
      exact readSpecs_alone hloc (hd d (List.mem_of_getElem? hdd)) hf hpos hp he hs hb h

end Scn
