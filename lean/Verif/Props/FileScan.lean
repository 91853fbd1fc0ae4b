import Verif.Model.FileScan
import Verif.Props.Buffers
import Verif.Props.Driver
import Verif.Lemmas.Calls
/-
C84: scan calls on a file, one after the other.
-/
namespace Scn
open Spec

variable {V : Type}

namespace Spec

/-- Reading a text in memory by several calls: after a success the next call gets the rest, after a failure it gets the
    same text again. The errors, the histories and the texts left. -/
def readOn (scan : FileCall V → List Nat → Option (Except Err (List Nat) × List (Event V))) :
    List (FileCall V) → List Nat → Option (List (FileResult V))
  | [], _ => some []
  | c :: cs, text =>
    match scan c text with
    | none => none
    | some (.ok rest, evs) => (readOn scan cs rest).map (⟨none, evs, rest⟩ :: ·)
    | some (.error e, evs) => (readOn scan cs text).map (⟨some e, evs, text⟩ :: ·)

end Spec

/-- The file delivers its content in nonempty pieces, the readers leave a tail of what they are given, and no character is consumed
    that was not looked at. -/
structure FileCall.Fair (c : FileCall V) : Prop where
  whole : ∀ s, (c.cut s).flatten = s
  pieces : ∀ s, ∀ p ∈ c.cut s, p ≠ []
  advancing : Advancing c.env
  looked : ∀ s rest evs, vscan c.env c.fmt s = some (.ok rest, evs) → ∀ i < s.length - rest.length, i ∈ c.looked s

theorem gets_reach (ps : List Nat) {pos : Nat} : ∀ (b0 : Buf), b0.Ok → pos < b0.whole.length → pos ∈ ps → ∀ b1 vs, b0.gets ps = some (b1, vs) →
    pos < b1.available := by
  induction ps with
  | nil => intro _ _ _ h; simp at h
  | cons p ps ih =>
    intro b0 hok hw hmem b1 vs hg
    obtain ⟨b2, h1, h2, h3⟩ := b0.get_spec hok p
    unfold Buf.gets at hg
    rw [h1] at hg
    simp only at hg
    obtain ⟨b3, h4, h5⟩ := Buf.gets_spec ps b2 h2.ok
    rw [h4] at hg
    simp only [Option.map_some, Option.some.injEq, Prod.mk.injEq] at hg
    obtain ⟨rfl, _⟩ := hg
    rcases List.mem_cons.mp hmem with h | h
    · subst h
      have := h3 hw
      have := h5.available
      omega
    · exact ih b2 h2.ok (by rw [h2.whole]; exact hw) h _ _ h4

theorem scanFile_spec {cap : Nat} {c : FileCall V} (hc : c.Fair) {file : List Nat} (hcap : file.length ≤ cap) :
    scanFile cap c file = match vscan c.env c.fmt file with
      | none => none
      | some (.ok rest, evs) => some ⟨none, evs, rest⟩
      | some (.error e, evs) => some ⟨some e, evs, file⟩ := by
  obtain ⟨b, vs, hg, hok, herr⟩ := C33_buffered_partial (c.cut file) (hc.pieces file) (c.looked file) cap (by rw [hc.whole]; exact hcap)
  rw [hc.whole] at hok herr
  unfold scanFile
  rw [show Buf.ofFile (c.cut file) = Buf.start .buffered (c.cut file) from rfl, hg]
  cases hv : vscan c.env c.fmt file with
  | none => rfl
  | some x =>
    obtain ⟨r, evs⟩ := x
    cases r with
    | error e => dsimp only; rw [herr]
    | ok rest =>
      dsimp only
      have hsuf := (C34_unused_range hc.advancing hv).1
      have hlen : file.length - rest.length ≤ b.available := by
        rcases Nat.eq_zero_or_pos (file.length - rest.length) with h0 | h0
        · omega
        · have := gets_reach (c.looked file) (pos := file.length - rest.length - 1) (Buf.start .buffered (c.cut file)) (hc.pieces file)
            (by rw [Buf.start_whole, hc.whole]; omega) (hc.looked _ _ _ hv _ (by omega)) _ _ hg
          omega
      rw [hok _ hlen]
      dsimp only
      rw [← List.suffix_iff_eq_drop.1 hsuf]

/-! ### C84 -/

/-- C84, one call: a scan of a file reports what a scan of its content in memory does; after a success the file goes on where the
    unused range begins, after a failure at the beginning. Missing from the full claim: files that take back fewer characters
    than were read, which is reported (`C33_failure_reported`), and files read character by character
    (`C33_unbuffered_end_undefined`). -/
theorem C84_one_call_partial {cap : Nat} {c : FileCall V} (hc : c.Fair) {file : List Nat} (hcap : file.length ≤ cap) :
    (∀ rest evs, vscan c.env c.fmt file = some (.ok rest, evs) → scanFile cap c file = some ⟨none, evs, rest⟩) ∧
    (∀ e evs, vscan c.env c.fmt file = some (.error e, evs) → scanFile cap c file = some ⟨some e, evs, file⟩) := by
  rw [scanFile_spec hc hcap]
  exact ⟨fun rest evs h => by rw [h], fun e evs h => by rw [h]⟩

/-- C84, many calls: any number of scan calls on one file, each with its own format and arguments, however the file is delivered in pieces,
    read what the same calls read from the content in memory when each continues in the unused range of the one before. -/
theorem C84_many_calls_partial {cap : Nat} {cs : List (FileCall V)} (hcs : ∀ c ∈ cs, c.Fair) : ∀ {file : List Nat}, file.length ≤ cap →
    scanFiles cap cs file = readOn (fun c s => vscan c.env c.fmt s) cs file := by
  induction cs with
  | nil => intro file _; rfl
  | cons c cs ih =>
    intro file hcap
    unfold scanFiles readOn
    rw [scanFile_spec (hcs c (by simp)) hcap]
    cases hv : vscan c.env c.fmt file with
    | none => rfl
    | some x =>
      obtain ⟨r, evs⟩ := x
      have ih := @ih fun c h => hcs c (by simp [h])
      cases r with
      | error e => dsimp only; rw [ih hcap]
      | ok rest =>
        dsimp only
        have := (C34_unused_range (hcs c (by simp)).advancing hv).1.length_le
        rw [ih (by omega)]

/-- C84, `input`: reads from `stdin` as `scan` does from a file, in any case: same values, same errors, same characters left. -/
theorem C84_input (cap : Nat) (c : FileCall V) (file : List Nat) : vinput cap c file = scanFile cap c file := by
  unfold vinput scanFile syncAfter
  cases hg : (Buf.ofFile (c.cut file)).gets (c.looked file) with
  | none => rfl
  | some y =>
    cases hv : vscan c.env c.fmt file with
    | none => rfl
    | some x =>
      obtain ⟨r, evs⟩ := x
      cases r with
      | error e =>
        dsimp only
        cases h : y.1.sync cap 0 with
        | none => rfl
        | some y => obtain ⟨ok, f⟩ := y; cases ok <;> rfl
      | ok rest =>
        dsimp only
        cases h : y.1.sync cap (file.length - rest.length) with
        | none => rfl
        | some y => obtain ⟨ok, f⟩ := y; cases ok <;> rfl

/-- Two calls of "{}" for an `int`, on a file that delivers two characters at a time at first. -/
def exCalls : List (FileCall Int) :=
  List.replicate 2 ⟨[123, 125], intArgs [.int], fun s => if s.length > 2 then [s.take 2, s.drop 2] else if s = [] then [] else [s], fun s => List.range s.length⟩

theorem exCalls_fair : ∀ c ∈ exCalls, c.Fair := by
  intro c hc
  rw [exCalls, List.mem_replicate] at hc
  rw [hc.2]
  refine ⟨fun s => ?_, fun s p hp => ?_, intArgs_advancing _, fun s rest evs _ i hi => List.mem_range.2 (by omega)⟩
  · dsimp only
    split
    · simp
    · split <;> simp_all
  · dsimp only at hp
    split at hp
    · rename_i h
      simp only [List.mem_cons, List.not_mem_nil, or_false] at hp
      intro h0
      have h1 := congrArg List.length h0
      rcases hp with rfl | rfl
      · rw [List.length_take, List.length_nil] at h1; omega
      · rw [List.length_drop, List.length_nil] at h1; omega
    · split at hp
      · cases hp
      · simp at hp; rw [hp]; assumption

/-- "12 34!": the calls read 12 and 34, and "!" is left. -/
example : ((scanFiles 9 exCalls [49, 50, 32, 51, 52, 33]).map fun rs => rs.map fun r => (r.error, stored r.events, r.file)) =
    some [(none, [(0, 12)], [32, 51, 52, 33]), (none, [(0, 34)], [33])] := by
  rw [C84_many_calls_partial exCalls_fair (by decide)]
  decide +kernel

/-- "12 z": the second call fails and " z" is left. -/
example : ((scanFiles 9 exCalls [49, 50, 32, 122]).map fun rs => rs.map fun r => (r.error, stored r.events, r.file)) =
    some [(none, [(0, 12)], [32, 122]), (some .invalidScannedValue, [], [32, 122])] := by
  rw [C84_many_calls_partial exCalls_fair (by decide)]
  decide +kernel

end Scn
