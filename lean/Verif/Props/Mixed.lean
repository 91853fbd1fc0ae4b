import Verif.Lemmas.Mixed
import Verif.Props.Calls
/-
C22 at run time, for custom types.
-/
namespace Scn
open Spec

variable {V : Type}

/-- C22, run time: the scanner of a custom type looks at the error that the parse context recorded. Once fields of one kind
    of numbering were read, a field with a specification for a custom type that is numbered the other way is rejected with
    invalid_format_string, whatever follows it; its argument is not assigned. Missing from the full claim: fields of built-in
    types, and fields of custom types without a specification, do not look at that error (`C22_mixed_accepted_at_run_time`). -/
theorem C22_custom_run_time_partial {env : Env V} {auto : Bool} {fs : List (CallField V)} {g : CallField V} {t tail : List Nat} (h64 : env.count < 64)
    (hf : ∀ f ∈ fs, FieldMeans env f ∧ NoBrace f.gap ∧ f.id < env.count) (hne : fs ≠ []) (hnd : (fs.map fun f => f.id).Nodup)
    (hord : auto = true → (fs.map fun f => f.id) = List.range fs.length) (hg : NoBrace g.gap) (ht : g.spec = some t)
    (hc : env.argTy g.id = .custom) (h0 : auto = false → g.id = 0) {src : List Nat} {vs : List (Nat × V)} {r : List Nat}
    (h : inOrder (litStep env) fs g.gap src = .ok (vs, r)) :
    ∃ evs, vscan env (callFormat auto fs g.gap ++ g.text (!auto) ++ tail) src = some (.error .invalidFormatString, evs) ∧ stored evs = vs := by
  have hid : g.id < env.count := by
    unfold Env.argTy at hc
    split at hc
    · assumption
    · cases hc
  have hready : Ready env auto [] fs := ready_of fs [] (fun f hx => ⟨(hf f hx).1, (hf f hx).2.1⟩) (by simpa using hnd) (fun f hx => (hf f hx).2.2)
    (fun ha => by rw [hord ha, List.range_eq_range']; rfl)
  have hfmt : callFormat auto fs g.gap ++ g.text (!auto) ++ tail = callFormat auto fs (g.gap ++ 123 :: ((g.text (!auto)).tail ++ tail)) := by
    rw [callFormat_then]
    simp [CallField.text]
  unfold vscan
  rw [hfmt]
  obtain ⟨f, fs', rfl⟩ : ∃ f fs', fs = f :: fs' := by
    cases fs with
    | nil => exact absurd rfl hne
    | cons f fs' => exact ⟨f, fs', rfl⟩
  have hlong : fs'.length + 3 ≤ (callFormat auto (f :: fs') (g.gap ++ 123 :: ((g.text (!auto)).tail ++ tail))).length := by
    have h3 : fs'.length + 1 ≤ (callFormat auto fs' (g.gap ++ 123 :: ((g.text (!auto)).tail ++ tail))).length := by
      have h4 := callFormat_length auto fs' g.gap
      rw [callFormat_then, List.length_append, List.length_cons]; omega
    rw [callFormat_cons]
    have h5 : 1 ≤ (f.text auto).tail.length := by simp [CallField.text]; omega
    simp only [List.length_append, List.length_cons]
    omega
  have hlong' : 2 < (callFormat auto (f :: fs') (g.gap ++ 123 :: ((g.text (!auto)).tail ++ tail))).length := by omega
  rw [if_neg (by rintro ⟨hx, _⟩; rw [hx] at hlong'; simp at hlong')]
  unfold vscanGeneral
  obtain ⟨m, st, k1, k2, k3, k4, k5⟩ := calls_then (cs := (g.text (!auto)).tail ++ tail) hg (k := (env.count - 64) / 8) (by omega) (by unfold intMax; omega) (f :: fs')
    (parseFuel env.count (callFormat auto (f :: fs') (g.gap ++ 123 :: ((g.text (!auto)).tail ++ tail)))) []
    (FH.init env.count (callFormat auto (f :: fs') (g.gap ++ 123 :: ((g.text (!auto)).tail ++ tail))) src) vs r hready (midway_init _ _ _ _) rfl (calls_fuel _ _ _ _) h
  rw [k1]
  obtain ⟨st1, p, j1, j2, j3⟩ := mixedField k2 (by simp) k3 ht hc (by omega) (by unfold intMax; omega) h0 tail
  rw [j1]
  dsimp only
  rw [if_pos (by simp [runHandler, j2])]
  dsimp only
  have hev : stored st1.events = vs := by rw [j3, k5]; simp [FH.init, stored]
  unfold FH.checkExhausted
  dsimp only
  rw [if_neg (show ¬ env.count ≥ 64 by omega), if_pos h64]
  split
  · exact ⟨_, rfl, hev⟩
  · rw [Option.map_some, j2]
    exact ⟨_, rfl, hev⟩

/-- A call for an `int` and for a custom type whose scanner wants the specification "x" and reads one character. -/
def mixedArgs : Env Int :=
  { intArgs [.int, .custom] with readCustom := fun _ pos s => (pos.drop 1, match s with | c :: r => .ok (c, r) | [] => .err .endOfInput) }

/-- "{} {1:x}" is rejected, "{} {:x}" is not. -/
example : outcome (vscan mixedArgs [123, 125, 32, 123, 49, 58, 120, 125] [53, 32, 97]) = some (.inl .invalidFormatString, [(0, 5)]) ∧
    outcome (vscan mixedArgs [123, 125, 32, 123, 58, 120, 125] [53, 32, 97]) = some (.inr [], [(0, 5), (1, 97)]) := by decide +kernel

/-- The hypotheses hold for "{} {1:x}". -/
example : FieldMeans mixedArgs ⟨[], 0, none, mixedArgs.readDefault 0⟩ ∧ NoBrace [32] ∧ mixedArgs.argTy 1 = .custom ∧
    callFormat true [⟨[], 0, none, mixedArgs.readDefault 0⟩] [32] ++ CallField.text false (⟨[32], 1, some [120], fun _ => .ub⟩ : CallField Int) =
      [123, 125, 32, 123, 49, 58, 120, 125] ∧
    inOrder (litStep mixedArgs) [⟨[], 0, none, mixedArgs.readDefault 0⟩] [32] [53, 32, 97] = .ok ([(0, 5)], [97]) :=
  ⟨rfl, by unfold NoBrace; decide, by decide +kernel, by decide +kernel, by decide +kernel⟩

end Scn
