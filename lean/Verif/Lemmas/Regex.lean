import Verif.Model.Regex
import Verif.Spec.Regex
import Verif.Lemmas.SpecRound
/-
Regex specifications: finding the closing slash, flags, unescaping.
-/
namespace Scn
open Spec

theorem findPair_none {s : List Nat} (h : findPair s = none) : unescapeSlashes s = s := by
  induction s with
  | nil => rfl
  | cons c cs ih =>
    rw [findPair] at h
    split at h
    · cases h
    · rename_i hc
      have hn : findPair cs = none := by
        cases hf : findPair cs with
        | none => rfl
        | some x => rw [hf] at h; cases h
      cases cs with
      | nil => rfl
      | cons d ds =>
        rw [unescapeSlashes, if_neg (by simpa using hc), ih hn]

theorem findPair_some {s : List Nat} {i : Nat} (h : findPair s = some i) :
    ∃ a b, s = a ++ 92 :: 47 :: b ∧ a.length = i ∧ unescapeSlashes s = a ++ 47 :: unescapeSlashes b := by
  induction s generalizing i with
  | nil => cases h
  | cons c cs ih =>
    rw [findPair] at h
    split at h
    · rename_i hc
      obtain ⟨rfl, hd⟩ := hc
      cases cs with
      | nil => cases hd
      | cons d ds =>
        simp only [List.head?_cons, Option.some.injEq] at hd
        subst hd
        refine ⟨[], ds, rfl, by simpa using h, ?_⟩
        rw [unescapeSlashes, if_pos ⟨rfl, rfl⟩]; rfl
    · rename_i hc
      cases hf : findPair cs with
      | none => rw [hf] at h; cases h
      | some j =>
        rw [hf] at h
        simp only [Option.map_some, Option.some.injEq] at h
        obtain ⟨a, b, h1, h2, h3⟩ := ih hf
        refine ⟨c :: a, b, by rw [h1]; rfl, by rw [List.length_cons, h2, h], ?_⟩
        cases cs with
        | nil => cases a <;> cases h1
        | cons d ds => rw [unescapeSlashes, if_neg (by simpa using hc), h3]; rfl

theorem unescapeLoop_spec : ∀ (n : Nat) (a b : List Nat), b.length < n → unescapeLoop n (a ++ b) a.length = some (a ++ unescapeSlashes b) := by
  intro n
  induction n with
  | zero => intro a b h; omega
  | succ n ih =>
    intro a b h
    rw [unescapeLoop, List.drop_left]
    cases hf : findPair b with
    | none => simp only; rw [findPair_none hf]
    | some i =>
      obtain ⟨x, y, h1, h2, h3⟩ := findPair_some hf
      simp only
      have e1 : (a ++ b).take (a.length + i) = a ++ x := by
        rw [h1, ← h2, ← List.append_assoc, ← List.length_append, List.take_left]
      have e2 : (a ++ b).drop (a.length + i + 2) = y := by
        rw [h1, ← h2, show a ++ (x ++ 92 :: 47 :: y) = (a ++ x ++ [92, 47]) ++ y by simp,
          show a.length + x.length + 2 = (a ++ x ++ [92, 47]).length by simp; omega, List.drop_left]
      have hy : y.length < n := by
        have := congrArg List.length h1
        simp at this; omega
      rw [e1, e2, show a ++ x ++ 47 :: y = (a ++ x ++ [47]) ++ y by simp,
        show a.length + i + 1 = (a ++ x ++ [47]).length by simp [h2]; omega, ih _ _ hy, h3]
      simp

theorem unescapePattern_spec (s : List Nat) : unescapePattern s = some (unescapeSlashes s) := by
  have := unescapeLoop_spec (s.length + 1) [] s (by omega)
  simpa [unescapePattern] using this

theorem unescape_escape (p : List Nat) : unescapeSlashes (escapeSlashes p) = p := by
  induction p with
  | nil => rfl
  | cons c cs ih =>
    rw [escapeSlashes]
    split
    · rename_i hc; subst hc
      rw [unescapeSlashes, if_pos ⟨rfl, rfl⟩, ih]
    · rename_i hc
      cases hcs : escapeSlashes cs with
      | nil =>
        rw [hcs] at ih; rw [← ih]; rfl
      | cons d ds =>
        have hd : d ≠ 47 := by
          rintro rfl
          cases cs with
          | nil => cases hcs
          | cons x xs =>
            rw [escapeSlashes] at hcs
            split at hcs
            · cases hcs
            · rename_i hx; exact hx (List.cons.inj hcs).1
        rw [unescapeSlashes, if_neg (fun hh => hd hh.2), ← hcs, ih]

theorem escape_no_slash (p : List Nat) (h : 47 ∉ p) : escapeSlashes p = p := by
  induction p with
  | nil => rfl
  | cons c cs ih =>
    simp only [List.mem_cons, not_or] at h
    rw [escapeSlashes, if_neg (fun hh => h.1 hh.symm), ih h.2]

/-- Finding the closing slash of an escaped pattern. -/
theorem regexEnd_escape (p rest : List Nat) : ∀ prev, (p = [] → prev ≠ 92) → p.getLast? ≠ some 92 →
    regexEnd prev (escapeSlashes p ++ 47 :: rest) = (decide (47 ∈ p), 47 :: rest) := by
  induction p with
  | nil =>
    intro prev h _
    simp only [escapeSlashes, List.nil_append, regexEnd, if_true]
    rw [if_pos (h rfl)]; rfl
  | cons c cs ih =>
    intro prev _ hl
    have hl' : cs.getLast? ≠ some 92 := by
      cases cs with
      | nil => simp
      | cons d ds => rw [List.getLast?_cons_cons] at hl; exact hl
    have hne : cs = [] → c ≠ 92 := by rintro rfl rfl; simp at hl
    rw [escapeSlashes]
    split
    · rename_i hc; subst hc
      simp only [List.cons_append, regexEnd]
      rw [if_neg (by decide), if_pos trivial, if_neg (by decide), ih 47 (by simp) hl']
      simp
    · rename_i hc
      simp only [List.cons_append, regexEnd]
      rw [if_neg hc, ih c hne hl']
      simp only [List.mem_cons]
      have : ¬ 47 = c := fun hh => hc hh.symm
      simp [this]

/-- The flags accepted by a backend. -/
def flagOk (cfg : RegexCfg) (c : Nat) : Prop :=
  (c = 109 ∧ (cfg.std = true → cfg.stdMultiline = true)) ∨ (c = 115 ∧ cfg.std = false) ∨ c = 105 ∨ c = 110

theorem flagBit_some {cfg : RegexCfg} {c : Nat} (h : flagOk cfg c) :
    regexFlag c = some (flagBit c) ∧ (cfg.std && (c == 115 || (c == 109 && !cfg.stdMultiline))) = false ∧ c ≠ 125 := by
  unfold flagOk at h
  rcases h with ⟨rfl, h⟩ | ⟨rfl, h⟩ | rfl | rfl
  · refine ⟨rfl, ?_, by decide⟩
    cases hs : cfg.std with
    | false => rfl
    | true => simp [h hs]
  · exact ⟨rfl, by simp [h], by decide⟩
  · exact ⟨rfl, by simp, by decide⟩
  · exact ⟨rfl, by simp, by decide⟩

theorem flagBit_disjoint {cfg : RegexCfg} {c d : Nat} (hc : flagOk cfg c) (hd : flagOk cfg d) (hne : c ≠ d) :
    flagBit c &&& flagBit d = 0 := by
  unfold flagOk at hc hd
  rcases hc with ⟨rfl, _⟩ | ⟨rfl, _⟩ | rfl | rfl <;> rcases hd with ⟨rfl, _⟩ | ⟨rfl, _⟩ | rfl | rfl <;>
    first | (exfalso; exact hne rfl) | decide

theorem regexFlags_spec (cfg : RegexCfg) (st : Setter) (flags rest : List Nat) (hok : ∀ c ∈ flags, flagOk cfg c)
    (hnd : flags.Nodup) : ∀ f, (∀ c ∈ flags, f &&& flagBit c = 0) →
    regexFlags cfg st f (flags ++ 125 :: rest) = (st, flags.foldl (fun f c => f ||| flagBit c) f, false, 125 :: rest) := by
  induction flags with
  | nil => intro f _; simp [regexFlags]
  | cons c cs ih =>
    intro f hf
    obtain ⟨h1, h2, h3⟩ := flagBit_some (hok c (by simp))
    rw [List.cons_append, regexFlags, if_neg h3, h1]
    simp only [h2]
    rw [if_neg (by rw [hf c (by simp)]; simp)]
    simp only [Bool.false_eq_true, if_false, List.foldl_cons]
    refine ih (fun d hd => hok d (by simp [hd])) (List.nodup_cons.mp hnd).2 _ (fun d hd => ?_)
    have hne : c ≠ d := by rintro rfl; exact (List.nodup_cons.mp hnd).1 hd
    rw [Nat.and_or_distrib_right, hf d (by simp [hd]), flagBit_disjoint (hok c (by simp)) (hok d (by simp [hd])) hne]
    rfl

/-- What `/pattern/flags` is parsed to. -/
def regexSpecs (p flags : List Nat) : Specs :=
  { ({} : Specs) with type := if decide (47 ∈ p) then .regexEscaped else .regex, setString := escapeSlashes p, regexFlags := flags.foldl (fun f c => f ||| flagBit c) 0 }

theorem regex_written (cfg : RegexCfg) (e : Enc) (hwide : e ≠ .utf8 → cfg.wide = true) (ty : ArgTy)
    (p flags rest : List Nat) (hp : p ≠ []) (hfirst : ∀ c, p.head? = some c → c ≠ 60 ∧ c ≠ 62 ∧ c ≠ 94)
    (hlast : p.getLast? ≠ some 92) (hflags : ∀ c ∈ flags, flagOk cfg c) (hnd : flags.Nodup) :
    parseSpecs cfg e ty ⟨{}, false⟩ (47 :: escapeSlashes p ++ 47 :: (flags ++ 125 :: rest)) = some (⟨regexSpecs p flags, false⟩, 125 :: rest) ∧
      regexPattern (regexSpecs p flags) = some p := by
  obtain ⟨d, ds, hd, hd2⟩ : ∃ d ds, escapeSlashes p = d :: ds ∧ d ≠ 60 ∧ d ≠ 62 ∧ d ≠ 94 := by
    cases p with
    | nil => exact absurd rfl hp
    | cons c cs =>
      have := hfirst c rfl
      rw [escapeSlashes]
      split
      · exact ⟨_, _, rfl, by decide⟩
      · exact ⟨_, _, rfl, this⟩
  let t : Pres := if decide (47 ∈ p) then .regexEscaped else .regex
  let st1 : Setter := (((⟨{}, false⟩ : Setter).onType t).onRegexPattern (escapeSlashes p))
  have hflag := regexFlags_spec cfg st1 flags rest hflags hnd 0 (by simp)
  have hend := regexEnd_escape p (flags ++ 125 :: rest) 47 (fun _ => by decide) hlast
  have hpat : (escapeSlashes p ++ 47 :: (flags ++ 125 :: rest)).take
      ((escapeSlashes p ++ 47 :: (flags ++ 125 :: rest)).length - (47 :: (flags ++ 125 :: rest)).length) = escapeSlashes p := by
    rw [List.length_append, Nat.add_sub_cancel, List.take_left]
  have hregex : parseRegex cfg e ⟨{}, false⟩ (47 :: (escapeSlashes p ++ 47 :: (flags ++ 125 :: rest))) =
      some (st1.onRegexFlags (flags.foldl (fun f c => f ||| flagBit c) 0), 125 :: rest) := by
    rw [parseRegex]
    rw [if_neg (by
      rintro ⟨h1, h2⟩; rw [hwide h1] at h2; cases h2)]
    · simp only [hend, hpat]
      rw [if_neg (by rw [hd]; simp)]
      have hne2 : flags ++ 125 :: rest ≠ [] := by simp
      split
      · rename_i h; exact absurd h hne2
      · simp only [st1, t] at hflag
        rw [hflag]
        simp [st1, t]
    · simp
  constructor
  · rw [List.cons_append, parseSpecs_long]
    unfold parseSpecsLong
    rw [unlessEnd_cons, parseAlign_none e _ 47 _ (by unfold PlainChar; decide) (by
      intro x hx; rw [hd] at hx; simp only [List.cons_append, List.head?_cons, Option.some.injEq] at hx; rw [← hx]; exact hd2),
      unlessEnd_cons, parseWidth_none _ _ _ (by decide), unlessEnd_cons,
      precStage_skip _ _ _ (by decide), unlessEnd_cons, locStage_skip _ _ _ _ (by decide), unlessEnd_cons,
      typeStage_pres _ _ _ _ _ (by decide)]
    simp only [parsePresentation]
    rw [if_neg (by decide), if_pos trivial, hregex]
    rfl
  · show regexPattern { ({} : Specs) with type := t, setString := escapeSlashes p, regexFlags := _ } = some p
    unfold regexPattern
    by_cases h : 47 ∈ p
    · simp only [t, h, decide_true, if_true, unescapePattern_spec, unescape_escape]
    · simp only [t, h, decide_false]
      rw [if_neg (by simp), if_pos (by simp), escape_no_slash p h]

end Scn
