import Verif.Lemmas.Defined6
import Verif.Props.Driver
/-
C74: no well-formed text is undefined behaviour, characters of any width.
-/
namespace Scn
open Spec

/-- C74 for characters: `char32_t` and `wchar_t` destinations may be among those of `C74_scan_partial` if
    the source is the end of a well-formed text (it may begin inside a character, as it does after a
    `char` was read) and no specification in the format string is one that is accepted for them. In
    particular if they are read with `{}`. -/
theorem C74_text_partial (e wide : Enc) (cfg : RegexCfg) (loc : LocaleData) (old : Nat) (ds : List Dest)
    (hds : ∀ d ∈ ds, d.Tame e ∨ d = .codePoint ∨ d = .wchar) (hcount : ds.length < 64) (fmt : List Nat) (hfmt : UnitsOk e fmt)
    (hsp : ∀ d ∈ ds, ¬ d.Tame e → ∀ pos setter p, 58 :: pos <:+ fmt →
      parseSpecs cfg e d.argTy ⟨{}, false⟩ pos = some (setter, p) → setter.err = true ∨ runTypeCheck d.argTy setter.specs = some false)
    (cps src : List Nat) (hcps : ∀ c ∈ cps, IsScalar c) (hsrc : src <:+ encodes e cps) :
    ∃ r, vscan (stdEnv e wide cfg loc old ds) fmt src = some r := by
  refine C23_few_well_defined_partial (stdEnv_text e wide cfg loc old (fun d hd => ?_) fmt hsp) hcount src ⟨cps, hcps, hsrc⟩ hfmt
  rcases hds d hd with h | rfl | rfl
  · exact Or.inl h
  · exact Or.inr trivial
  · exact Or.inr trivial

/-- `{}{}{}` into a `wchar_t`, a `char` and a `char32_t` from `é中`: the hypotheses hold; the `char32_t` field
    begins inside a character and fails. -/
example : let cfg : RegexCfg := ⟨false, false, false⟩
    let ds := [Dest.wchar, .char, .codePoint]
    let fmt := [123, 125, 123, 125, 123, 125]
    (∀ d ∈ ds, d.Tame .utf8 ∨ d = .codePoint ∨ d = .wchar) ∧ ds.length < 64 ∧ UnitsOk .utf8 fmt ∧
    (∀ d ∈ ds, ¬ d.Tame .utf8 → ∀ pos setter p, 58 :: pos <:+ fmt →
      parseSpecs cfg .utf8 d.argTy ⟨{}, false⟩ pos = some (setter, p) → setter.err = true ∨ runTypeCheck d.argTy setter.specs = some false) ∧
    (∀ c ∈ [0xE9, 0x4E2D], IsScalar c) ∧
    (vscan (stdEnv .utf8 .utf32 cfg ⟨44, 46, [], [], fun _ _ _ _ => .bad⟩ 0 ds) fmt (encodes .utf8 [0xE9, 0x4E2D])).map
      (fun x => match x.1 with | .ok _ => none | .error r => some r) = some (some .invalidScannedValue) := by
  refine ⟨?_, by decide, ?_, ?_, ?_, by decide +kernel⟩
  · intro d hd
    simp only [List.mem_cons, List.not_mem_nil, or_false] at hd
    rcases hd with rfl | rfl | rfl
    · exact Or.inr (Or.inr rfl)
    · exact Or.inl rfl
    · exact Or.inr (Or.inl rfl)
  · intro _ b hb; revert b; decide
  · intro d _ _ pos setter p h
    exact absurd (h.subset List.mem_cons_self) (by decide)
  · intro c hc
    simp only [List.mem_cons, List.not_mem_nil, or_false] at hc
    rcases hc with rfl | rfl <;> (unfold IsScalar; decide)

/-- C74 is violated for every specification of a `char32_t` field that is accepted, whatever its width,
    alignment and fill: at the end of the source, the first code point is read all the same. -/
theorem C74_violated_end (e wide : Enc) (loc : LocaleData) (old : Nat) (lay : List Nat → Layout) (sp : Specs)
    (hck : runTypeCheck Dest.codePoint.argTy sp = some true) : Dest.codePoint.readSpecs e wide loc old sp lay [] = .ub := by
  unfold Dest.readSpecs
  rw [hck]
  show argRead e sp ((codePointReader e).mapVal _) lay [] = .ub
  have hb : argBefore e sp false (lay []) [] = .ok ([], 0) := by
    have hp : ∀ l, argPrefix e sp false l [] = .ok ([], 0) := by
      intro l
      unfold argPrefix
      simp only [skipFill_nil]
      simp
    unfold argBefore
    split
    · show (argPrefix e sp false _ []).map _ = _
      rw [hp]; rfl
    · exact hp _
  unfold argRead
  rw [show ((codePointReader e).mapVal (fun n => Val.char n) : Reader Val).skipWs = false from rfl, hb]
  show Res.bind (argValue e sp _ _ 0 []) _ = _
  have hv : argValue e sp ((codePointReader e).mapVal (fun n => Val.char n) : Reader Val) (lay []) 0 [] = .ub := by
    unfold argValue
    split
    · rename_i h
      rw [if_neg (by omega)]
      rfl
    · rfl
  rw [hv]
  rfl

/-- `{:*>5c}`: the hypothesis holds. -/
example : runTypeCheck Dest.codePoint.argTy { fill := ⟨[42, 0, 0, 0], 1⟩, align := .right, width := 5, type := .character } = some true := by decide

end Scn
