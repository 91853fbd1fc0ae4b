import Verif.Lemmas.Istream
/-
C51: scanning with `operator>>`.
-/
namespace Scn
open Spec
variable {α : Type}

/-- C51 for extractors that only peek and get, and put back at most one character, by `unget` directly after
    getting it: the extractor sees the source's characters, and the scan position is left at the first
    character it did not extract. The full statement allows any use of `unget` and `putback`; it is false, see
    below. -/
theorem C51_position_partial (x : Extractor α) (src : List Nat) (h : Polite x [] src false false) :
    istreamScan x src = streamRun x [] src :=
  extractor_run x _ _ _ _ _ ⟨rfl, (fun h => by cases h), fun _ => ⟨rfl, rfl, fun _ => rfl⟩⟩ h

/-- An extractor that gets the three characters of "12a" and puts the last one back: "a" is left. -/
example :
    let x : Extractor Nat := .get fun _ => .get fun _ => .get fun c => .unget fun _ => .done (c.getD 0)
    Polite x [] [49, 50, 97] false false ∧ istreamScan x [49, 50, 97] = .ok (97, [97]) := by
  exact ⟨⟨rfl, rfl, trivial⟩, by decide +kernel⟩

/-- C51 fails when the extractor peeks before it puts back: after `get`, `peek`, `unget` on "ab" the position
    should be at "a"; it is at "b", and getting two characters from there yields "b" twice. -/
theorem C51_violated_unget_after_peek :
    (let x : Extractor Unit := .get fun _ => .peek fun _ => .unget fun _ => .done ()
     istreamScan x [97, 98] = .ok ((), [98]) ∧ streamRun x [] [97, 98] = .ok ((), [97, 98])) ∧
    (let x : Extractor (Option Nat × Option Nat) :=
       .get fun _ => .peek fun _ => .unget fun _ => .get fun c => .get fun d => .done (c, d)
     istreamScan x [97, 98] = .ok ((some 98, some 98), []) ∧
       streamRun x [] [97, 98] = .ok ((some 97, some 98), [])) := by
  constructor <;> exact ⟨by decide +kernel, by decide +kernel⟩

/-- C51 fails when the extractor puts back twice, even if it got characters in between: the precondition of
    `pbackfail` is violated, for every source of at least two characters. -/
theorem C51_violated_second_unget (a b : Nat) (rest : List Nat) :
    let x : Extractor Unit := .get fun _ => .unget fun _ => .get fun _ => .get fun _ => .unget fun _ => .done ()
    istreamScan x (a :: b :: rest) = .ub ∧ streamRun x [] (a :: b :: rest) = .ok ((), b :: rest) := ⟨rfl, rfl⟩

/-- C51 fails when the extractor uses `putback`: the precondition of `pbackfail` is violated, even for
    the character just extracted. -/
theorem C51_violated_putback (a : Nat) (rest : List Nat) :
    let x : Extractor Unit := .get fun c => .putback (c.getD 0) fun _ => .done ()
    istreamScan x (a :: rest) = .ub ∧ streamRun x [] (a :: rest) = .ok ((), a :: rest) :=
  ⟨rfl, by simp [streamRun]⟩

end Scn
