import Verif.Model.Readers
/-
Model of the use of the regex engines: `make_regex_flags`, `read_regex_string_impl` and `read_regex_matches_impl` for the
three backends, /repo/src/scn/impl.h:4300-4677, and of `regex_matches_reader`, 4699-4783. The engines are a parameter.
-/
namespace Scn

/-- The options of `std::basic_regex` that are used, /repo/src/scn/impl.h:4301-4326. -/
structure StdOpts where
  multiline : Bool
  icase : Bool
  nosubs : Bool
  deriving DecidableEq, Repr

/-- The options of `boost::basic_regex` that are used, /repo/src/scn/impl.h:4328-4347. -/
structure BoostOpts where
  noModM : Bool
  modS : Bool
  icase : Bool
  nosubs : Bool
  deriving DecidableEq, Repr

/-- The options of `RE2` that are used, /repo/src/scn/impl.h:4349-4369. -/
structure Re2Opts where
  dotNl : Bool
  caseSensitive : Bool
  neverCapture : Bool
  deriving DecidableEq, Repr

/-- `make_regex_flags` for `std::regex`, /repo/src/scn/impl.h:4301-4326; `hasMultiline` is `SCN_HAS_STD_REGEX_MULTILINE`. -/
def stdFlags (hasMultiline : Bool) (f : Nat) : Res StdOpts :=
  if f &&& 1 ≠ 0 ∧ hasMultiline = false then .err .invalidFormatString
  else if f &&& 2 ≠ 0 then .err .invalidFormatString
  else .ok ⟨decide (f &&& 1 ≠ 0), decide (f &&& 4 ≠ 0), decide (f &&& 8 ≠ 0)⟩

/-- `make_regex_flags` for Boost, /repo/src/scn/impl.h:4328-4347. -/
def boostFlags (f : Nat) : BoostOpts := ⟨decide (f &&& 1 = 0), decide (f &&& 2 ≠ 0), decide (f &&& 4 ≠ 0), decide (f &&& 8 ≠ 0)⟩

/-- `make_regex_flags` for RE2, /repo/src/scn/impl.h:4349-4369: the options, and the text in front of the pattern (`(?m)`). -/
def re2Flags (f : Nat) : Re2Opts × List Nat :=
  (⟨decide (f &&& 2 ≠ 0), ! decide (f &&& 4 ≠ 0), decide (f &&& 8 ≠ 0)⟩, if f &&& 1 = 0 then [40, 63, 109, 41] else [])

/-- The outcome of compiling a pattern and searching at the beginning of a text, /repo/src/scn/impl.h:4385-4478: an invalid
    pattern, an exception while matching, no match, or where the groups are: begin and length, `none` if a group did
    not take part in the match. Group 0 is the match. -/
inductive Search where
  | bad
  | failed
  | none
  | found (groups : List (Option (Nat × Nat)))
  deriving DecidableEq, Repr

/-- A regex engine with options `O`, used as at /repo/src/scn/impl.h:4385-4478: the search for a pattern in a text, and the named groups of a
    pattern. -/
structure Engine (O : Type) where
  search : O → List Nat → List Nat → Search
  names : O → List Nat → List (Nat × List Nat)

/-- `basic_regex_match`, /repo/include/scn/regex.h:160-204. -/
structure RegexMatch where
  text : List Nat
  name : Option (List Nat)
  deriving DecidableEq, Repr

/-- `make_string_view_from_pointers(match.first, match.second)`, /repo/src/scn/impl.h:4530-4531. -/
def groupText (s : List Nat) (g : Nat × Nat) : List Nat := (s.drop g.1).take g.2

/-- The end of the match, /repo/src/scn/impl.h:4413, 4450, 4483. -/
def searchEnd : List (Option (Nat × Nat)) → Option Nat
  | some g :: _ => some (g.1 + g.2)
  | _ => none

/-- `read_regex_string_impl`, /repo/src/scn/impl.h:4371-4485, with the options for the backend: the outcome as in `Match`. -/
def searchMatch (r : Search) : Option Match :=
  match r with
  | .bad | .failed => some .bad
  | .none => some .none
  | .found gs => (searchEnd gs).map .found

/-- `read_regex_string_impl` for `std::regex`, /repo/src/scn/impl.h:4381-4413: always without groups. -/
def stdString (E : Engine StdOpts) (hasMultiline : Bool) (pattern : List Nat) (f : Nat) (s : List Nat) : Option Match :=
  match stdFlags hasMultiline f with
  | .ok o => searchMatch (E.search { o with nosubs := true } pattern s)
  | _ => some .bad

/-- `read_regex_string_impl` for Boost, /repo/src/scn/impl.h:4414-4452. -/
def boostString (E : Engine BoostOpts) (pattern : List Nat) (f : Nat) (s : List Nat) : Option Match :=
  searchMatch (E.search { boostFlags f with nosubs := true } pattern s)

/-- `read_regex_string_impl` for RE2, /repo/src/scn/impl.h:4453-4484: there are no exceptions. -/
def re2String (E : Engine Re2Opts) (pattern : List Nat) (f : Nat) (s : List Nat) : Option Match :=
  match E.search { (re2Flags f).1 with neverCapture := true } ((re2Flags f).2 ++ pattern) s with
  | .bad => some .bad
  | .failed | .none => some .none
  | .found gs => (searchEnd gs).map .found

/-- The end of `read_regex_matches_impl`, /repo/src/scn/impl.h:4523-4533, 4603-4623: the groups of a match, and what is behind it. -/
def matchesOf (make : Nat × Nat → RegexMatch) (r : Search) (s : List Nat) : Res (List (Option RegexMatch) × List Nat) :=
  match r with
  | .bad | .failed => .err .invalidFormatString
  | .none => .err .invalidScannedValue
  | .found gs =>
    match searchEnd gs with
    | none => .ub
    | some n => .ok (gs.map fun g => g.map make, s.drop n)

/-- `read_regex_matches_impl` for `std::regex`, /repo/src/scn/impl.h:4498-4534. -/
def stdMatches (E : Engine StdOpts) (hasMultiline : Bool) (pattern : List Nat) (f : Nat) (s : List Nat) : Res (List (Option RegexMatch) × List Nat) :=
  (stdFlags hasMultiline f).bind fun o => matchesOf (fun g => ⟨groupText s g, none⟩) (E.search o pattern s) s

/-- `pattern.find(needle, i)`, as used at /repo/src/scn/impl.h:4538-4543 and 4556: how far it is. -/
def findText (needle : List Nat) : List Nat → Option Nat
  | [] => if needle = [] then some 0 else none
  | c :: cs => if needle.isPrefixOf (c :: cs) then some 0 else (findText needle cs).map (· + 1)

/-- The loop that looks for names in a pattern, /repo/src/scn/impl.h:4535-4561, bounded by the first argument. -/
def patternNames : Nat → List Nat → Nat → Option (List (List Nat))
  | 0, _, _ => none
  | fuel + 1, pattern, i =>
    if pattern.length ≤ i then some []
    else
      match findText [40, 63, 60] (pattern.drop i) with
      | none => some []
      | some k =>
        let j := i + k
        if 0 < j ∧ pattern[j - 1]? = some 92 ∧ (j = 1 ∨ pattern[j - 2]? ≠ some 92) then patternNames fuel pattern (j + 3)
        else
          match findText [62] (pattern.drop (j + 3)) with
          | none => some []
          | some m => (patternNames fuel pattern (j + 3)).map fun ns => (pattern.drop (j + 3)).take m :: ns

/-- `matches[name]` of Boost, as used at /repo/src/scn/impl.h:4617: the first group with that name that took part in the match. -/
def namedGroup (names : List (Nat × List Nat)) (gs : List (Option (Nat × Nat))) (name : List Nat) : Option (Nat × Nat) :=
  names.findSome? fun x => if x.2 = name then (gs[x.1]?).join else none

/-- The name that is given to a group, /repo/src/scn/impl.h:4614-4621: that of the first named group with an equal text. -/
def boostName (names : List (Nat × List Nat)) (listed : List (List Nat)) (gs : List (Option (Nat × Nat))) (s : List Nat) (g : Nat × Nat) :
    Option (List Nat) :=
  listed.find? fun name => (namedGroup names gs name).map (groupText s) == some (groupText s g)

/-- `read_regex_matches_impl` for Boost, /repo/src/scn/impl.h:4535-4624. -/
def boostMatches (E : Engine BoostOpts) (pattern : List Nat) (f : Nat) (s : List Nat) : Res (List (Option RegexMatch) × List Nat) :=
  match patternNames (pattern.length + 1) pattern 0 with
  | none => .ub
  | some listed =>
    let r := E.search (boostFlags f) pattern s
    let gs := match r with
      | .found gs => gs
      | _ => []
    matchesOf (fun g => ⟨groupText s g, boostName (E.names (boostFlags f) pattern) listed gs s g⟩) r s

/-- The loop over the named groups, /repo/src/scn/impl.h:4665-4674: accessing a group that is not there is undefined. -/
def nameGroups (names : List (Nat × List Nat)) : Nat → List (Option RegexMatch) → Option (List (Option RegexMatch))
  | _, [] => some []
  | i, v :: vs =>
    match names.find? (fun x => x.1 == i) with
    | none => (nameGroups names (i + 1) vs).map (v :: ·)
    | some x => v.bind fun v => (nameGroups names (i + 1) vs).map (some { v with name := some x.2 } :: ·)

/-- `read_regex_matches_impl` for RE2, /repo/src/scn/impl.h:4625-4676. -/
def re2Matches (E : Engine Re2Opts) (pattern : List Nat) (f : Nat) (s : List Nat) : Res (List (Option RegexMatch) × List Nat) :=
  let p := (re2Flags f).2 ++ pattern
  match E.search (re2Flags f).1 p s with
  | .bad => .err .invalidFormatString
  | .failed | .none => .err .invalidScannedValue
  | .found gs =>
    match searchEnd gs with
    | none => .ub
    | some n =>
      match nameGroups (E.names (re2Flags f).1 p) 1 (gs.tail.map fun g => g.map fun g => ⟨groupText s g, none⟩) with
      | none => .ub
      | some vs => .ok (some ⟨s.take n, none⟩ :: vs, s.drop n)

/-- `regex_matches_reader::read_specs`, /repo/src/scn/impl.h:4723-4756, with `read_regex_matches_impl` of a backend. Whitespace
    is skipped first (`reader_base`, 3149-3152). A backend that does not support wide strings is one that reports an
    error for them. -/
def matchesReader (impl : List Nat → Nat → List Nat → Res (List (Option RegexMatch) × List Nat)) (same : Bool) (sp : Specs) :
    Reader (List (Option RegexMatch)) :=
  ⟨true, fun l s =>
    if same = false then .err .invalidFormatString
    else if l ≠ .contiguous then .err .invalidFormatString
    else match regexPattern sp with
      | none => .ub
      | some p => impl p sp.regexFlags s⟩

/-- `arg_reader::operator()` into a `regex_matches` of characters of encoding `dst`, /repo/src/scn/impl.h:6224-6234. -/
def matchesSpecs (e dst : Enc) (impl : List Nat → Nat → List Nat → Res (List (Option RegexMatch) × List Nat)) (sp : Specs)
    (lay : List Nat → Layout) (s : List Nat) : Res (List (Option RegexMatch) × List Nat) :=
  match runTypeCheck (if dst = .utf8 then .narrowRegex else .wideRegex) sp with
  | none => .ub
  | some false => .err .invalidFormatString
  | some true => argRead e sp (matchesReader impl (decide (e = dst)) sp) lay s

end Scn
