import Verif.Lemmas.Alone5
/-
C104: what a scan has consumed is scanned the same on its own.
-/
namespace Scn
open Spec

namespace Spec

/-- The values that a call assigned to its arguments, with their numbers, in the order of the assignments. -/
def assigned : List (Event Val) → List (Nat × Val)
  | [] => []
  | .visit id _ (.ok (v, _)) :: evs => (id, v) :: assigned evs
  | _ :: evs => assigned evs

end Spec

theorem assigned_eq (evs : List (Event Val)) : Spec.assigned evs = evs.filterMap valueOf := by
  induction evs with
  | nil => rfl
  | cons x evs ih =>
    cases x with
    | literal => exact ih
    | visit id s r =>
      cases r with
      | ub => exact ih
      | err => exact ih
      | ok y =>
        obtain ⟨v, t⟩ := y
        rw [Spec.assigned, ih]; rfl

/-- A call that succeeds and leaves `q` of the source `p ++ q` succeeds on the source `p` alone, assigns the same values, and leaves
    nothing. For every format string, if `q` is empty or begins with whitespace; for every `q`, if the format string has ASCII characters
    only and no whitespace. The destinations read whole characters, floating-point numbers are not localized, and a regex engine looks at no
    more than it takes. -/
theorem C104_consumed_alone_partial (e wide : Enc) (cfg : RegexCfg) (loc : LocaleData) (hloc : LocalLocale e loc) (old : Nat) (ds : List Dest)
    (f p q : List Nat) (hd : ∀ d ∈ ds, d.ReadsAlone e (encodes e f)) (hf : ∀ c ∈ f, IsScalar c) (hs : ∀ c ∈ p ++ q, IsScalar c)
    (hq : (q = [] ∨ ∃ x t, q = x :: t ∧ isSpace x = true) ∨ ∀ c ∈ f, 32 < c ∧ c < 128) (evs : List (Event Val))
    (h : vscan (stdEnv e wide cfg loc old ds) (encodes e f) (encodes e (p ++ q)) = some (.ok (encodes e q), evs)) :
    ∃ evs', vscan (stdEnv e wide cfg loc old ds) (encodes e f) (encodes e p) = some (.ok [], evs') ∧ Spec.assigned evs' = Spec.assigned evs := by
  obtain ⟨evs', h1, h2⟩ := vscan_alone (stdEnv_alone hloc old hd q hf) (by
    rcases hq with hq | hq
    · exact Or.inl hq
    · refine Or.inr fun u hu => ?_
      unfold encodes at hu
      obtain ⟨c, hc, hu⟩ := List.mem_flatMap.1 hu
      rw [encode_ascii e c (hq c hc).2] at hu
      rw [List.mem_singleton.1 hu]
      exact hq c hc) hs h
  exact ⟨evs', h1, by rw [assigned_eq, assigned_eq, h2]⟩

/-- "{}:{}" on " 12:ab cd": 12 and "ab" are read, " cd" is left; on " 12:ab" the same is read. -/
example : ∃ evs evs', vscan (stdEnv .utf8 .utf32 ⟨false, false, false⟩ ⟨44, 46, [116], [102], fun _ _ _ _ => .bad⟩ 0
      [.int ⟨32, true⟩ .int, .string .utf8]) (encodes .utf8 [123, 125, 58, 123, 125]) (encodes .utf8 ([32, 49, 50, 58, 97, 98] ++ [32, 99, 100]))
        = some (.ok (encodes .utf8 [32, 99, 100]), evs) ∧
    vscan (stdEnv .utf8 .utf32 ⟨false, false, false⟩ ⟨44, 46, [116], [102], fun _ _ _ _ => .bad⟩ 0
      [.int ⟨32, true⟩ .int, .string .utf8]) (encodes .utf8 [123, 125, 58, 123, 125]) (encodes .utf8 [32, 49, 50, 58, 97, 98]) = some (.ok [], evs') ∧
    Spec.assigned evs' = Spec.assigned evs := by
  have hx : ((vscan (stdEnv .utf8 .utf32 ⟨false, false, false⟩ ⟨44, 46, [116], [102], fun _ _ _ _ => .bad⟩ 0
      [.int ⟨32, true⟩ .int, .string .utf8]) (encodes .utf8 [123, 125, 58, 123, 125]) (encodes .utf8 ([32, 49, 50, 58, 97, 98] ++ [32, 99, 100]))).map
        fun x => match x.1 with | .ok rest => some rest | .error _ => none) = some (some (encodes .utf8 [32, 99, 100])) := by decide +kernel
  obtain ⟨x, h1, h2⟩ := Option.map_eq_some_iff.1 hx
  obtain ⟨r, evs⟩ := x
  cases r with
  | error => cases h2
  | ok rest =>
    have h2 : some rest = some (encodes .utf8 [32, 99, 100]) := h2
    cases h2
    obtain ⟨evs', h3, h4⟩ := C104_consumed_alone_partial .utf8 .utf32 ⟨false, false, false⟩ ⟨44, 46, [116], [102], fun _ _ _ _ => .bad⟩
      ⟨⟨single_ascii _ (by decide), single_ascii _ (by decide), ⟨[116], by unfold IsScalar; decide, by decide⟩, ⟨[102], by unfold IsScalar; decide, by decide⟩⟩,
        by simp, by simp, fun _ _ _ _ _ _ h => by cases h⟩ 0 _ _ _ _ (by
          intro d hd
          simp only [List.mem_cons, List.not_mem_nil, or_false] at hd
          rcases hd with rfl | rfl
          · exact ⟨by unfold IntTy.Std; decide, Or.inl rfl⟩
          · trivial) (by unfold IsScalar; decide) (by unfold IsScalar; decide) (Or.inl (Or.inr ⟨32, [99, 100], rfl, by decide⟩)) evs h1
    exact ⟨evs, evs', h1, h3, h4⟩

/-- Integers, texts and floating-point numbers together, with a width and a presentation type for the number: "{:3}{}{:>8f}". -/
example : ∀ d ∈ [Dest.int ⟨32, true⟩ .int, .view .utf8 true, .float .double exConvNat true],
    d.ReadsAlone .utf8 (encodes .utf8 [123, 58, 51, 125, 123, 125, 123, 58, 62, 56, 102, 125]) := by
  intro d hd
  simp only [List.mem_cons, List.not_mem_nil, or_false] at hd
  rcases hd with rfl | rfl | rfl
  · exact ⟨by unfold IntTy.Std; decide, Or.inl rfl⟩
  · trivial
  · exact ⟨⟨Or.inr (Or.inl rfl), _, exConvNat_ok⟩, by decide⟩

/-- Whitespace in the format matches no whitespace at all before other text, but at the end of the source it is an error: "{} " on "1x"
    reads 1 and leaves "x", and fails on "1". -/
theorem C104_consumed_alone_violated :
    ∃ (loc : LocaleData) (ds : List Dest) (f p q : List Nat), LocalLocale .utf8 loc ∧ (∀ d ∈ ds, d.ReadsAlone .utf8 (encodes .utf8 f)) ∧
      ((vscan (stdEnv .utf8 .utf32 ⟨false, false, false⟩ loc 0 ds) (encodes .utf8 f) (encodes .utf8 (p ++ q))).map
        fun x => match x.1 with | .ok rest => some rest | .error _ => none) = some (some (encodes .utf8 q)) ∧
      ((vscan (stdEnv .utf8 .utf32 ⟨false, false, false⟩ loc 0 ds) (encodes .utf8 f) (encodes .utf8 p)).map
        fun x => match x.1 with | .ok rest => some rest | .error _ => none) = some none := by
  refine ⟨⟨44, 46, [116], [102], fun _ _ _ _ => .bad⟩, [.int ⟨32, true⟩ .int], [123, 125, 32], [49], [120],
    ⟨⟨single_ascii _ (by decide), single_ascii _ (by decide), ⟨[116], by unfold IsScalar; decide, by decide⟩,
      ⟨[102], by unfold IsScalar; decide, by decide⟩⟩, by simp, by simp, fun _ _ _ _ _ _ h => by cases h⟩, ?_, ?_, ?_⟩
  · intro d hd
    rw [List.mem_singleton.1 hd]
    exact ⟨by unfold IntTy.Std; decide, Or.inl rfl⟩
  · decide +kernel
  · decide +kernel

end Scn
