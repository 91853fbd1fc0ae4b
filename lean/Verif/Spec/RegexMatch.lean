import Verif.Model.RegexMatch
import Verif.Spec.Regex
/-
Regular expressions: what the flags and the options of the engines mean, and what the captures of a match are.
-/
namespace Scn.Spec

/-- The modes of a regular expression: `^` and `$` match at lines, `.` matches a newline, case is ignored, and groups are not
    stored. -/
structure Modes where
  multiline : Bool
  dotAll : Bool
  ignoreCase : Bool
  noGroups : Bool
  deriving DecidableEq, Repr

/-- The modes that are asked for by the flags `m`, `s`, `i` and `n` (/repo/include/scn/regex.h:97-155). -/
def modes (flags : List Nat) : Modes := ⟨decide (109 ∈ flags), decide (115 ∈ flags), decide (105 ∈ flags), decide (110 ∈ flags)⟩

/-- The meaning of the options of `std::regex`; `.` never matches a newline. -/
def stdModes (o : StdOpts) : Modes := ⟨o.multiline, false, o.icase, o.nosubs⟩

/-- The meaning of the options of Boost.Regex, by its documentation: `.` matches a newline with `mod_s`, and also if the match
    flag `match_not_dot_newline` is not given. -/
def boostModes (o : BoostOpts) (matchNotDotNewline : Bool) : Modes := ⟨! o.noModM, o.modS || ! matchNotDotNewline, o.icase, o.nosubs⟩

/-- The meaning of the options of RE2, and of `(?m)` in front of the pattern. -/
def re2Modes (o : Re2Opts × List Nat) : Modes := ⟨o.2 == [40, 63, 109, 41], o.1.dotNl, ! o.1.caseSensitive, o.1.neverCapture⟩

/-- What a regex engine must do: a match begins at the begin of the text, all groups lie in the text, and the groups that
    have names are numbered from 1 and have one name each. -/
structure EngineOk {O : Type} (E : Engine O) : Prop where
  whole : ∀ o p s gs, E.search o p s = .found gs → ∃ n, gs.head? = some (some (0, n))
  inside : ∀ o p s gs, E.search o p s = .found gs → ∀ b n, some (b, n) ∈ gs → b + n ≤ s.length
  names : ∀ o p x, x ∈ E.names o p → 1 ≤ x.1
  one : ∀ o p x y, x ∈ E.names o p → y ∈ E.names o p → x.1 = y.1 → x = y

/-- `t` are the `n` units of `s` from `b` on. -/
def IsPart (s : List Nat) (b n : Nat) (t : List Nat) : Prop := ∃ pre post, s = pre ++ t ++ post ∧ pre.length = b ∧ t.length = n

/-- The captures of a match: as many as groups; each is the text of its group, with its name, or missing as the group is; the
    first is the match, and `rest` is behind it. -/
structure Captures (s : List Nat) (gs : List (Option (Nat × Nat))) (names : List (Nat × List Nat)) (vs : List (Option RegexMatch)) (rest : List Nat) : Prop where
  count : vs.length = gs.length
  absent : ∀ i : Nat, gs[i]? = some none → vs[i]? = some none
  present : ∀ i b n : Nat, gs[i]? = some (some (b, n)) → ∃ t nm, vs[i]? = some (some ⟨t, nm⟩) ∧ IsPart s b n t ∧ ∀ x, nm = some x ↔ (i, x) ∈ names
  whole : ∃ t nm, vs.head? = some (some ⟨t, nm⟩) ∧ s = t ++ rest

/-- The position of a name in a pattern: `(?<name>`, and not behind an odd number of backslashes. -/
structure NameAt (pattern : List Nat) (a : Nat) (name : List Nat) : Prop where
  here : ([40, 63, 60] ++ name ++ [62]) <+: pattern.drop a
  simple : 62 ∉ name
  unescaped : ¬ (0 < a ∧ pattern[a - 1]? = some 92 ∧ (a = 1 ∨ pattern[a - 2]? ≠ some 92))

/-- An engine for the pattern `(?<x>a)b`, for examples. -/
def toyEngine (O : Type) : Engine O where
  search _ _ s := if [97, 98].isPrefixOf s then .found [some (0, 2), some (0, 1)] else .none
  names _ _ := [(1, [120])]

end Scn.Spec
