import Verif.Props.Calls
import Verif.Lemmas.Loose
/-
C112: whitespace in the format string in front of a field that skips whitespace makes no difference.
The vocabulary is in `Verif/Spec/Loose.lean`, `Verif/Spec/Calls.lean` and `Verif/Lemmas/Loose.lean` (`SkipsFirst`, `LooseField.Ok`).
-/
namespace Scn
open Spec

/-! ### C112 -/

/-- A call that reaches the end is one whose parts do so one after the other. -/
theorem call_succeeds_iff {V : Type} {env : Env V} {auto : Bool} {fs : List (CallField V)} {last : List Nat} (hl : NoBrace last) (h64 : env.count < 64)
    (hf : ∀ f ∈ fs, FieldMeans env f ∧ NoBrace f.gap) (hn : Numbered auto (fs.map fun f => f.id) env.count) {src : List Nat}
    {vs : List (Nat × V)} {r : List Nat} :
    (∃ evs, vscan env (callFormat auto fs last) src = some (.ok r, evs) ∧ stored evs = vs) ↔ inOrder (litStep env) fs last src = .ok (vs, r) := by
  refine ⟨fun ⟨evs, h1, h2⟩ => ?_, C81_success_partial hl h64 hf hn⟩
  cases h : inOrder (litStep env) fs last src with
  | ub => rw [(C81_undefined_partial hl h64 hf hn src).2 h] at h1; cases h1
  | err x =>
    obtain ⟨_, _, h3, _⟩ := C81_failure_partial hl h64 hf hn h
    rw [h3] at h1; cases h1
  | ok q =>
    obtain ⟨vs', r'⟩ := q
    obtain ⟨evs', h3, h4⟩ := C81_success_partial hl h64 hf hn h
    rw [h3] at h1; cases h1
    rw [← h2, h4]

/-- C112, below 64 arguments and for fields without fill, width and precision: whitespace in the format string, put in front of fields that skip
    whitespace (all but those for characters, and for strings all but `c` and sets and patterns) makes no difference. A call reaches the end with
    it exactly if it does without it; then it stores the same values in the same arguments, and leaves the same rest of the source. For any
    well-formed source. -/
theorem C112_spaces_partial {e wide : Enc} {cfg : RegexCfg} {loc : LocaleData} (hloc : PlainLocale e loc) {old : Nat} {ds : List Dest} (h64 : ds.length < 64)
    (hds : ∀ d ∈ ds, d.ByCharacter e) {auto : Bool} {xs : List (LooseField Val)} {last : List Nat} (hl : NoBrace last)
    (hx : ∀ x ∈ xs, x.Ok e wide cfg loc old ds) (hn : Numbered auto (xs.map fun x => x.id) ds.length)
    {src : List Nat} (hs : ∀ c ∈ src, IsScalar c) (vs : List (Nat × Val)) (r : List Nat) :
    (∃ evs, vscan (stdEnv e wide cfg loc old ds) (callFormat auto (xs.map (LooseField.written e true)) last) (encodes e src) = some (.ok r, evs) ∧
      stored evs = vs) ↔
    ∃ evs, vscan (stdEnv e wide cfg loc old ds) (callFormat auto (xs.map (LooseField.written e false)) last) (encodes e src) = some (.ok r, evs) ∧
      stored evs = vs := by
  have hids : ∀ b, (xs.map (LooseField.written e b)).map (fun f => f.id) = xs.map fun x => x.id := fun b => by rw [List.map_map]; rfl
  have hf : ∀ b, ∀ f ∈ xs.map (LooseField.written e b), FieldMeans (stdEnv e wide cfg loc old ds) f ∧ NoBrace f.gap := by
    intro b f hf
    obtain ⟨x, h1, rfl⟩ := List.mem_map.1 hf
    refine ⟨(hx x h1).means, ?_⟩
    show NoBrace (encodes e (x.gap ++ if b then x.ws else []))
    rw [encodes_append]
    intro c hc
    rcases List.mem_append.1 hc with hc | hc
    · exact (hx x h1).gapBrace c hc
    · cases b with
      | false => cases hc
      | true => 
        refine encodes_noBrace (fun c h => ((hx x h1).ws c h).1) (fun c h => ?_) c hc
        have hsp := ((hx x h1).ws c h).2
        cases hb : isBrace c with
        | false => rfl
        | true =>
          have : c = 123 ∨ c = 125 := by simpa [isBrace] using hb
          rcases this with rfl | rfl <;> exact absurd hsp (by decide)
  rw [call_succeeds_iff hl h64 (hf true) (by rw [hids]; exact hn), call_succeeds_iff hl h64 (hf false) (by rw [hids]; exact hn)]
  exact loose_inOrder hloc hds last xs hx (fun x h => hn.below x.id (List.mem_map.2 ⟨x, h, rfl⟩)) src hs (vs, r)

/-- The arguments of the examples: an `int` and a string. -/
def looseArgs : List Dest := [.int ⟨32, true⟩ .int, .string .utf8]

/-- The fields of "{}, {:s}", or "{},{:s}" without the whitespace. -/
def looseFields : List (LooseField Val) :=
  [⟨[], [], 0, none, (stdEnv .utf8 .utf32 ⟨false, false, false⟩ ⟨44, 46, [], [], fun _ _ _ _ => .none⟩ 0 looseArgs).readDefault 0⟩,
   ⟨[44], [32, 10], 1, some [115], (stdEnv .utf8 .utf32 ⟨false, false, false⟩ ⟨44, 46, [], [], fun _ _ _ _ => .none⟩ 0 looseArgs).readSpecs 1 { type := .string }⟩]

example : PlainLocale .utf8 ⟨44, 46, [], [], fun _ _ _ _ => .none⟩ ∧ (∀ d ∈ looseArgs, d.ByCharacter .utf8) ∧
    (∀ x ∈ looseFields, x.Ok .utf8 .utf32 ⟨false, false, false⟩ ⟨44, 46, [], [], fun _ _ _ _ => .none⟩ 0 looseArgs) ∧
    Numbered true (looseFields.map fun x => x.id) looseArgs.length ∧
    callFormat true (looseFields.map (LooseField.written .utf8 true)) [] = [123, 125, 44, 32, 10, 123, 58, 115, 125] ∧
    callFormat true (looseFields.map (LooseField.written .utf8 false)) [] = [123, 125, 44, 123, 58, 115, 125] := by
  refine ⟨⟨⟨by decide, by decide⟩, ⟨by decide, by decide⟩, ⟨[], by simp, rfl⟩, ⟨[], by simp, rfl⟩⟩, ?_, ?_, ⟨by decide, by decide, by decide, by decide⟩, by decide +kernel, by decide +kernel⟩
  · intro d hd
    simp only [looseArgs, List.mem_cons, List.not_mem_nil, or_false] at hd
    rcases hd with rfl | rfl
    · exact Or.inl rfl
    · trivial
  · intro x hx
    simp only [looseFields, List.mem_cons, List.not_mem_nil, or_false] at hx
    rcases hx with rfl | rfl
    · exact ⟨(fun c hc => by cases hc), (fun c hc => by cases hc), (fun c hc => by cases hc), Or.inl rfl, (fun t ht => by cases ht), rfl, Or.inl rfl⟩
    · refine ⟨?_, ?_, ?_, Or.inr ?_, ?_, ⟨{ type := .string }, fun r => rfl, rfl⟩, Or.inr ⟨.string .utf8, rfl, ?_⟩⟩
      · intro c hc; rw [List.mem_singleton.1 hc]; exact ⟨by decide, Or.inr (by decide)⟩
      · unfold NoBrace; decide
      · decide
      · intro c hc; cases hc; decide
      · intro t ht c hc
        cases ht
        rw [List.mem_singleton.1 hc]; decide
      · refine .letter { letter := some 115 } [115] trivial rfl rfl rfl ?_ (by decide) (fun _ _ => Or.inr rfl) (fun _ _ _ => Or.inr rfl) (by decide)
        exact ⟨(fun f a h => by cases h), (fun n h => by cases h), (fun n h => by cases h), (fun h => by cases h), (fun c h => by cases h; exact ⟨_, rfl⟩), (fun h => absurd h (by decide))⟩

/-- C112 is violated for fields with a width, as the whitespace in front of a value counts there (C59): "{:3}" reads 1 from "  1", but
    " {:3}" fails, as whitespace is skipped by the format string, and the rest is too short. -/
theorem C112_violated_width :
    (vscan (stdEnv .utf8 .utf32 ⟨false, false, false⟩ ⟨44, 46, [], [], fun _ _ _ _ => .none⟩ 0 [.int ⟨32, true⟩ .int]) [123, 58, 51, 125] [32, 32, 49]).map
      (fun r => (r.1.toOption, stored r.2)) = some (some [], [(0, .int 1)]) ∧
    (vscan (stdEnv .utf8 .utf32 ⟨false, false, false⟩ ⟨44, 46, [], [], fun _ _ _ _ => .none⟩ 0 [.int ⟨32, true⟩ .int]) [32, 123, 58, 51, 125] [32, 32, 49]).map
      (fun r => (r.1.toOption, stored r.2)) = some (none, []) := by
  refine ⟨?_, ?_⟩ <;> decide +kernel

end Scn
