import Verif.Lemmas.Follow
import Verif.Lemmas.Literal
import Verif.Model.IntReader
/-
From the handler's final state to the result of `vscan`; a concrete environment for examples.
-/
namespace Scn
open Spec
variable {V : Type}

theorem writes_sublist (evs : List (Event V)) : (writes evs).Sublist (visits evs) := by
  induction evs with
  | nil => exact List.Sublist.slnil
  | cons e evs ih =>
    cases e with
    | literal t s r f => exact ih
    | visit id s res =>
      cases res with
      | ok a => simpa [writes, visits, writeOf, visitOf] using ih
      | err x => exact ih.cons id
      | ub => exact ih.cons id

theorem writes_eq_visits (evs : List (Event V)) (h1 : ∀ ev ∈ evs, failure ev = none)
    (h2 : ∀ ev ∈ evs, ∀ id s, ev ≠ .visit id s .ub) : writes evs = visits evs := by
  induction evs with
  | nil => rfl
  | cons e evs ih =>
    have ih := ih (fun ev hev => h1 ev (by simp [hev])) (fun ev hev => h2 ev (by simp [hev]))
    cases e with
    | literal t s r f => exact ih
    | visit id s res =>
      cases res with
      | ok a => simpa [writes, visits, writeOf, visitOf] using ih
      | err x => have := h1 _ List.mem_cons_self; simp [Spec.failure] at this
      | ub => exact absurd rfl (h2 _ List.mem_cons_self id s)

/-- The two ways a scan call can go. -/
theorem vscan_cases {env : Env V} {fmt src : List Nat} {res : Except Err (List Nat)} {evs : List (Event V)}
    (h : vscan env fmt src = some (res, evs)) :
    (fmt = [123, 125] ∧ env.count = 1 ∧
      ((∃ e, env.readDefault 0 src = .err e ∧ res = .error e ∧ evs = [.visit 0 src (.err e)]) ∨
       (∃ v r, env.readDefault 0 src = .ok (v, r) ∧ res = .ok r ∧ evs = [.visit 0 src (.ok (v, r))]))) ∨
    (∃ st, vscanGeneral env fmt src = some st ∧ evs = st.events ∧
      res = match st.err with | some e => .error e | none => .ok st.src) := by
  unfold vscan at h
  split at h
  · rename_i hf
    left
    refine ⟨hf.1, hf.2, ?_⟩
    unfold scanSimple at h
    split at h
    · exact absurd h (by simp)
    · rename_i e he
      simp at h
      exact Or.inl ⟨e, he, h.1.symm, h.2.symm⟩
    · rename_i v r he
      simp at h
      exact Or.inr ⟨v, r, he, h.1.symm, h.2.symm⟩
  · right
    simp only [Option.map_eq_some_iff, Prod.mk.injEq] at h
    obtain ⟨st, h1, h2, h3⟩ := h
    exact ⟨st, h1, h3.symm, h2.symm⟩

theorem vscan_ok_cases {env : Env V} {fmt src rest : List Nat} {evs : List (Event V)}
    (h : vscan env fmt src = some (.ok rest, evs)) :
    (fmt = [123, 125] ∧ env.count = 1 ∧ ∃ v, env.readDefault 0 src = .ok (v, rest) ∧ evs = [.visit 0 src (.ok (v, rest))]) ∨
    (∃ st, vscanGeneral env fmt src = some st ∧ evs = st.events ∧ st.err = none ∧ st.src = rest) := by
  rcases vscan_cases h with ⟨h1, h2, h3 | h3⟩ | ⟨st, h1, h2, h3⟩
  · obtain ⟨e, _, h, _⟩ := h3; cases h
  · obtain ⟨v, r, h4, h5, h6⟩ := h3
    cases h5
    exact Or.inl ⟨h1, h2, v, h4, h6⟩
  · right
    refine ⟨st, h1, h2, ?_⟩
    cases he : st.err with
    | none => rw [he] at h3; cases h3; exact ⟨rfl, rfl⟩
    | some e => rw [he] at h3; cases h3

theorem vscan_error_cases {env : Env V} {fmt src : List Nat} {e : Err} {evs : List (Event V)}
    (h : vscan env fmt src = some (.error e, evs)) :
    (fmt = [123, 125] ∧ env.count = 1 ∧ env.readDefault 0 src = .err e ∧ evs = [.visit 0 src (.err e)]) ∨
    (∃ st, vscanGeneral env fmt src = some st ∧ evs = st.events ∧ st.err = some e) := by
  rcases vscan_cases h with ⟨h1, h2, h3 | h3⟩ | ⟨st, h1, h2, h3⟩
  · obtain ⟨e', h4, h5, h6⟩ := h3
    cases h5
    exact Or.inl ⟨h1, h2, h4, h6⟩
  · obtain ⟨v, r, _, h, _⟩ := h3; cases h
  · right
    refine ⟨st, h1, h2, ?_⟩
    cases he : st.err with
    | none => rw [he] at h3; cases h3
    | some e' => rw [he] at h3; cases h3; rfl

/-! ### A concrete environment: `int` arguments read by the modelled integer reader -/

/-- `default_arg_reader::impl` for `int` and a `char` source: skip whitespace, then the integer
    reader. -/
def readIntArg (sp : IntSpecs) (s : List Nat) : Res (Int × List Nat) :=
  (skipSpace .utf8 .contiguous false s).bind fun s => readInt ⟨true, true⟩ ⟨32, true⟩ sp s

/-- The base of a presentation type. -/
def demoBase : Pres → Nat
  | .intHex => 16 | .intOctal => 8 | .intBinary => 2 | .intGeneric => 0 | _ => 10

/-- Arguments of the given types, all of them read as `int`; a contiguous `char` source. -/
def intArgs (tys : List ArgTy) : Env Int where
  enc := .utf8
  cfg := ⟨false, true, true⟩
  skip := readWhileSpace .utf8 .contiguous
  count := tys.length
  ty i := tys.getD i .none
  readDefault _ s := readIntArg ⟨10, false, none⟩ s
  readSpecs _ sp s := readIntArg ⟨demoBase sp.type, false, none⟩ s
  readCustom _ pos _ := (pos, .err .invalidScannedValue)

/-- The compile-time view of the same call. -/
def intCheck (tys : List ArgTy) : CTEnv := ⟨.utf8, ⟨false, true, true⟩, tys, true, true⟩

theorem intArgs_same (tys : List ArgTy) : SameCall (intCheck tys) (intArgs tys) where
  enc := rfl
  cfg := rfl
  count := rfl
  ty i := by
    simp only [intArgs, intCheck]
    by_cases h : i < tys.length <;> simp [List.getD_eq_getElem?_getD, h]

/-- What remains, the arguments written with their values, and the visits; for examples. -/
def outcome (r : Option (Except Err (List Nat) × List (Event Int))) :
    Option ((Err ⊕ List Nat) × List (Nat × Int)) :=
  r.map fun x =>
    (match x.1 with | .error e => .inl e | .ok r => .inr r,
     x.2.filterMap fun | .visit id _ (.ok (v, _)) => some (id, v) | _ => none)

/-- The literal events of a call, for examples. -/
def literals (r : Option (Except Err (List Nat) × List (Event Int))) :
    Option (List (List Nat × List Nat × List Nat × Option Err)) :=
  r.map fun x => x.2.filterMap fun | .literal t s r f => some (t, s, r, f) | _ => none

theorem outcome_ok {r : Option (Except Err (List Nat) × List (Event Int))} {rest : List Nat} {ws : List (Nat × Int)}
    (h : outcome r = some (.inr rest, ws)) : ∃ evs, r = some (.ok rest, evs) ∧ writes evs = ws.map Prod.fst := by
  cases r with
  | none => simp [outcome] at h
  | some x =>
    obtain ⟨res, evs⟩ := x
    simp only [outcome, Option.map_some, Option.some.injEq, Prod.mk.injEq] at h
    obtain ⟨h1, rfl⟩ := h
    refine ⟨evs, ?_, ?_⟩
    · cases res with
      | error e => simp at h1
      | ok q => simp at h1; rw [h1]
    · rw [List.map_filterMap]
      unfold writes
      congr 1
      funext ev
      cases ev with
      | literal => rfl
      | visit id s res => cases res <;> rfl

theorem skip_contiguous (e : Enc) (cps : List Nat) (h : ∀ cp ∈ cps, IsScalar cp) :
    readWhileSpace e .contiguous (encodes e cps) = some (encodes e (cps.dropWhile isSpace)) :=
  readWhileSpace_encodes e .contiguous cps h (by cases e <;> trivial)

end Scn
