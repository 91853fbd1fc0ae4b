import Verif.Lemmas.Views
import Verif.Lemmas.Defined5
import Verif.Lemmas.Records
import Verif.Lemmas.Ranges
/-
C75: destinations that point into the source.
-/
namespace Scn
open Spec

/-- C75: if the compile-time check accepts a format string for these destinations, and one of them points into
    the source (string views and regex matches), then the source is contiguous and outlives the call. -/
theorem C75_checked {env : CTEnv} {fmt : List Nat} {c : CT} (h : compileCheck env fmt = some c) (he : c.err = false)
    {i : Nat} {ty : ArgTy} (hty : env.types[i]? = some ty)
    (hv : ty = .narrowStringView ∨ ty = .wideStringView ∨ ty = .narrowRegex ∨ ty = .wideRegex) :
    env.contiguous = true ∧ env.borrowed = true := accepted_views h he hty hv

/-- "{} {:s}" into an `int` and a string view: accepted from a contiguous and borrowed source; and rejected from others. -/
example : let env : CTEnv := ⟨.utf8, ⟨false, false, false⟩, [.int, .narrowStringView], true, true⟩
    let fmt := [123, 125, 32, 123, 58, 115, 125]
    (compileCheck env fmt).map CT.err = some false ∧ env.types[1]? = some .narrowStringView ∧
      (compileCheck { env with borrowed := false } fmt).map CT.err = some true ∧
      (compileCheck { env with contiguous := false } fmt).map CT.err = some true := by decide +kernel

/-- C75 at run time, where nothing was checked at compile time: a string view never points at units that had to be copied,
    nor at text of another encoding. On any text that is not only whitespace, `{}` then fails with
    `invalid_format_string`. -/
theorem C75_run_time (e dst wide : Enc) (stored : Bool) (h : stored = true ∨ e ≠ dst) (lay : List Nat → Layout) (hl : GoodLayouts e lay)
    (cps : List Nat) (hs : ∀ c ∈ cps, IsScalar c) (hne : ∃ c ∈ cps, isSpace c = false) :
    defaultRead e ((Dest.view dst stored).defaultReader e wide) lay (encodes e cps) = .err .invalidFormatString := by
  have hv : ∀ s rest, readStringView e dst stored s rest = .err .invalidFormatString := by
    intro s rest
    unfold readStringView
    by_cases hst : stored = true
    · rw [if_pos hst]
    · rw [if_neg hst, if_pos (h.resolve_left hst)]
  have hdrop : cps.dropWhile isSpace ≠ [] := by
    intro h0
    obtain ⟨c, hc, hsp⟩ := hne
    have h1 := (dropWhile_nil_iff _ _).1 h0
    rw [← h1] at hc
    exact absurd (List.all_eq_true.1 (List.all_takeWhile (p := isSpace) (l := cps)) c hc) (by simp [hsp])
  have hs2 : ∀ c ∈ cps.dropWhile isSpace, IsScalar c := fun c hc => hs c ((List.dropWhile_sublist _).mem hc)
  unfold defaultRead
  rw [if_neg, if_pos (show ((Dest.view dst stored).defaultReader e wide).skipWs = true from rfl), skipSpace_drop e lay hl cps _ hs rfl hdrop, Res.bind_ok]
  · show (Res.bind (stringEnd e {} .word _ _) (readStringView e dst stored _)).map _ = _
    unfold stringEnd
    dsimp only
    rw [readUntilSpace_encodes e _ _ hs2 (hl _ hs2)]
    dsimp only [Res.bind_ok]
    rw [hv]; rfl
  · rw [encodes_eq_nil]
    rintro rfl
    exact hdrop rfl

/-- The view from "  ab c" cut into segments of 3 units; and the same text from a contiguous source. -/
example : (∃ c ∈ [32, 32, 97, 98, 32, 99], isSpace c = false) ∧
    defaultRead .utf8 ((Dest.view .utf8 true).defaultReader .utf8 .utf32) (fun s => .segmented s.length) [32, 32, 97, 98, 32, 99] = .err .invalidFormatString ∧
    defaultRead .utf8 ((Dest.view .utf8 false).defaultReader .utf8 .utf32) (fun _ => .contiguous) [32, 32, 97, 98, 32, 99] = .ok (.string [97, 98], [32, 99]) := by
  decide +kernel

end Scn
