import Verif.Props.Loose
import Verif.Lemmas.Widen
/-
C114: a wider integer type reads the same.
The vocabulary is in `Verif/Spec/Widen.lean` and `Verif/Spec/Calls.lean`.
-/
namespace Scn
open Spec

/-! ### C114 -/

/-- C114, below 64 arguments, for contiguous sources: integer types differ in their ranges only. If some integer arguments are replaced by wider
    ones, signed by signed and unsigned by unsigned, then the call with the narrower types succeeds exactly if the one with the wider types does
    and the values it stores fit the narrower types, and they store the same values in the same arguments and leave the same rest.
    For any source, well-formed or not, any specifications, with `L` and any locale, and literal texts without braces. -/
theorem C114_widened_partial {e wide : Enc} {cfg : RegexCfg} {loc : LocaleData} {old : Nat} {ds ds' : List Dest} (h64 : ds.length < 64) (ht : ∀ d ∈ ds, d.Tame e)
    (hw : AllWidened ds ds') {auto : Bool} {xs : List CommonField} (hx : ∀ x ∈ xs, x.Fine e ds) (hn : Numbered auto (xs.map fun x => x.id) ds.length)
    {last : List Nat} (hl : ∀ c ∈ last, IsScalar c ∧ c ≠ 123 ∧ c ≠ 125) {src : List Nat} (hu : UnitsOk e src) {vs : List (Nat × Val)} {r : List Nat} :
    (∃ evs, vscan (stdEnv e wide cfg loc old ds) (callFormat auto (xs.map (CommonField.written e)) (encodes e last)) src = some (.ok r, evs) ∧ stored evs = vs) ↔
    (∃ evs, vscan (stdEnv e wide cfg loc old ds') (callFormat auto (xs.map (CommonField.written e)) (encodes e last)) src = some (.ok r, evs) ∧ stored evs = vs) ∧
      ∀ p ∈ vs, Fits ds p := by
  have hids : ∀ x ∈ xs, x.id < ds.length := fun x hm => hn.below x.id (List.mem_map.2 ⟨x, hm, rfl⟩)
  have hl' : NoBrace (encodes e last) := encodes_noBrace (fun c h => (hl c h).1) fun c h => by
    obtain ⟨_, h1, h2⟩ := hl c h
    simp [isBrace, h1, h2]
  have hnum : ∀ ds2 : List Dest, ds2.length = ds.length →
      Numbered auto ((xs.map (fieldWith (stdEnv e wide cfg loc old ds2))).map fun f => f.id) (stdEnv e wide cfg loc old ds2).count := by
    intro ds2 h2
    show Numbered auto _ ds2.length
    rw [h2, List.map_map]; exact hn
  rw [show callFormat auto (xs.map (CommonField.written e)) (encodes e last) = _ from callFormat_with auto (stdEnv e wide cfg loc old ds) xs (encodes e last),
    call_succeeds_iff hl' (show ds.length < 64 from h64) (fun f hf => by
      obtain ⟨x, hm, rfl⟩ := List.mem_map.1 hf
      exact fieldWith_means (fun d hd => (tame_category (ht d hd)).2) (hx x hm) (hids x hm)) (hnum ds rfl),
    ← callFormat_with auto (stdEnv e wide cfg loc old ds) xs (encodes e last),
    show callFormat auto (xs.map (CommonField.written (stdEnv e wide cfg loc old ds).enc)) (encodes e last) = _ from
      callFormat_with auto (stdEnv e wide cfg loc old ds') xs (encodes e last),
    call_succeeds_iff hl' (show ds'.length < 64 from hw.length ▸ h64) (fun f hf => by
      obtain ⟨x, hm, rfl⟩ := List.mem_map.1 hf
      exact fieldWith_means (tame_widened hw ht) (fine_widened hw (hx x hm) (hids x hm)) (by rw [hw.length]; exact hids x hm)) (hnum ds' hw.length),
    litStep_stdEnv e wide cfg loc old ds ds']
  exact inOrder_limits (fun t s r h => stdEnv_lit_suffix e wide cfg loc old ds h) (U := UnitsOk e) (fun s t h1 h2 => h1.suffix h2) (P := Fits ds)
    (fieldWith (stdEnv e wide cfg loc old ds)) (fieldWith (stdEnv e wide cfg loc old ds'))
    (fun x => ⟨rfl, rfl, rfl⟩) _ xs (fun x hm s hs => field_limits hw ht (hx x hm) (hids x hm) hs) src hu (vs, r)

/-- The fields of "{} {:x}". -/
def widenFields : List CommonField := [⟨[], 0, none⟩, ⟨[32], 1, some { letter := some 120 }⟩]

/-- "{} {:x}" for a string and a `signed char`, or a `long long` instead: "a 7F" fits both; "a 80" is read into the wider type only. -/
example : (∀ d ∈ [Dest.string .utf8, .int ⟨8, true⟩ .schar], d.Tame .utf8) ∧ AllWidened [.string .utf8, .int ⟨8, true⟩ .schar] [.string .utf8, .int ⟨64, true⟩ .llong] ∧
    (∀ x ∈ widenFields, x.Fine .utf8 [.string .utf8, .int ⟨8, true⟩ .schar]) ∧ Numbered true (widenFields.map fun x => x.id) 2 ∧ UnitsOk .utf8 [97, 32, 55, 70] ∧
    (∀ t ∈ [[97, 32, 55, 70], [97, 32, 56, 48]],
      ((vscan (stdEnv .utf8 .utf32 ⟨false, false, false⟩ ⟨44, 46, [], [], fun _ _ _ _ => .none⟩ 0 [.string .utf8, .int ⟨64, true⟩ .llong])
        (callFormat true (widenFields.map (CommonField.written .utf8)) []) t).map fun r => r.1.toOption) = some (some [])) ∧
    (((vscan (stdEnv .utf8 .utf32 ⟨false, false, false⟩ ⟨44, 46, [], [], fun _ _ _ _ => .none⟩ 0 [.string .utf8, .int ⟨8, true⟩ .schar])
        (callFormat true (widenFields.map (CommonField.written .utf8)) []) [97, 32, 55, 70]).map fun r => r.1.toOption) = some (some [])) ∧
    (((vscan (stdEnv .utf8 .utf32 ⟨false, false, false⟩ ⟨44, 46, [], [], fun _ _ _ _ => .none⟩ 0 [.string .utf8, .int ⟨8, true⟩ .schar])
        (callFormat true (widenFields.map (CommonField.written .utf8)) []) [97, 32, 56, 48]).map fun r => r.1.toOption) = some none) := by
  refine ⟨?_, ⟨rfl, ?_⟩, ?_, ⟨by decide, by decide, by decide, by decide⟩, fun _ => by decide, by decide +kernel, by decide +kernel, by decide +kernel⟩
  · intro d hd
    simp only [List.mem_cons, List.not_mem_nil, or_false] at hd
    rcases hd with rfl | rfl
    · exact Or.inl rfl
    · exact Or.inl rfl
  · intro i d hd
    match i with
    | 0 => cases hd; exact ⟨_, rfl, rfl⟩
    | 1 => cases hd; exact ⟨_, rfl, _, _, rfl, by decide, by decide, rfl, by decide, Or.inl rfl, Or.inl rfl⟩
    | n + 2 => cases hd
  · intro x hx
    simp only [widenFields, List.mem_cons, List.not_mem_nil, or_false] at hx
    rcases hx with rfl | rfl
    · exact ⟨fun c hc => (by cases hc), fun w hw => (by cases hw)⟩
    · refine ⟨by unfold IsScalar; decide, fun w hw => ?_⟩
      cases hw
      refine ⟨by decide +kernel, fun d _ => ⟨fun f a h => (by cases h), fun n h => (by cases h), fun n h => (by cases h), fun h => (by cases h), fun c h => ?_, fun h => ?_⟩⟩
      · cases h; exact ⟨_, rfl⟩
      · exact absurd h (by decide +kernel)

/-- C114 for one field with a specification, whatever the source looks like. -/
theorem C114_field {e wide : Enc} {loc : LocaleData} {old : Nat} {T T' : IntTy} {ty ty' : ArgTy} (h : Widened (.int T ty) (.int T' ty')) {w : Written}
    (hw : w.Readable e ty []) (lay : List Nat → Layout) {s : List Nat} (hu : UnitsOk e s) (x : Int) (r : List Nat) :
    (Dest.int T ty).readSpecs e wide loc old (w.specs e) lay s = .ok (.int x, r) ↔
      (Dest.int T' ty').readSpecs e wide loc old (w.specs e) lay s = .ok (.int x, r) ∧ InRange T x := by
  obtain ⟨setter, p, h1, h2, h3⟩ := written_accepted hw
  have hok := (parseSpecs_accepted h1 h2).ok
  rw [h3] at hok
  rw [readSpecs_limits h hok.fill lay hu (.int x, r), fitsDest_int]

/-- C114 for one field without a specification, whatever the source looks like. -/
theorem C114_default {e wide : Enc} {T T' : IntTy} {ty ty' : ArgTy} (h : Widened (.int T ty) (.int T' ty')) (lay : List Nat → Layout) {s : List Nat} (hu : UnitsOk e s)
    (x : Int) (r : List Nat) :
    defaultRead e ((Dest.int T ty).defaultReader e wide) lay s = .ok (.int x, r) ↔
      defaultRead e ((Dest.int T' ty').defaultReader e wide) lay s = .ok (.int x, r) ∧ InRange T x := by
  rw [defaultRead_limits h lay hu (.int x, r), fitsDest_int]

/-- From `short` to `long long`, and from `unsigned char` to `unsigned`. -/
example : Widened (.int ⟨16, true⟩ .short) (.int ⟨64, true⟩ .llong) ∧ Widened (.int ⟨8, false⟩ .uchar) (.int ⟨32, false⟩ .uint) ∧
    Written.Readable .utf8 .short ({ width := some 5, letter := some 100 } : Written) [] ∧ UnitsOk .utf8 [32, 45, 55, 255] := by
  refine ⟨⟨_, _, rfl, by decide, by decide, rfl, by decide, Or.inl rfl, Or.inl rfl⟩, ⟨_, _, rfl, by decide, by decide, rfl, by decide, Or.inr rfl, Or.inr rfl⟩,
    ⟨fun f a h => (by cases h), fun n h => (by cases h; decide), fun n h => (by cases h), fun h => (by cases h), fun c h => (by cases h; exact ⟨_, rfl⟩),
      fun h => absurd h (by decide +kernel)⟩, fun _ => by decide⟩

/-- C114 needs types that are both signed or both unsigned: "-0" is 0 for an `int`, but an error for an `unsigned char`. -/
theorem C114_same_sign_needed :
    InRange ⟨8, false⟩ 0 ∧ (∀ x, InRange ⟨8, false⟩ x → InRange ⟨32, true⟩ x) ∧
    (((vscan (stdEnv .utf8 .utf32 ⟨false, false, false⟩ ⟨44, 46, [], [], fun _ _ _ _ => .none⟩ 0 [.int ⟨32, true⟩ .int]) [123, 125] [45, 48]).map
      fun r => (r.1.toOption, stored r.2)) = some (some [], [(0, .int 0)])) ∧
    (((vscan (stdEnv .utf8 .utf32 ⟨false, false, false⟩ ⟨44, 46, [], [], fun _ _ _ _ => .none⟩ 0 [.int ⟨8, false⟩ .uchar]) [123, 125] [45, 48]).map
      fun r => r.1.toOption) = some none) := by
  refine ⟨by decide, fun x h => ?_, by decide +kernel, by decide +kernel⟩
  obtain ⟨h1, h2⟩ : 0 ≤ x ∧ x < 2 ^ 8 := h
  show -(2 ^ 31 : Int) ≤ x ∧ x < 2 ^ 31
  omega

end Scn
