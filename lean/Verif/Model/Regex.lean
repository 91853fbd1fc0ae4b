import Verif.Model.Format
/-
Model of the unescaping of regex patterns, /repo/src/scn/impl.h:4679-4697. (The parsing of regex
specifications is in `Verif.Model.Format`; the regex engines are not modelled.)
-/
namespace Scn

/-- `std::string::find("\\/")` on a string, as used at /repo/src/scn/impl.h:4682 and 4691. -/
def findPair : List Nat → Option Nat
  | [] => none
  | c :: cs => if c = 92 ∧ cs.head? = some 47 then some 0 else (findPair cs).map (· + 1)

/-- The loop of `get_unescaped_regex_pattern`, /repo/src/scn/impl.h:4682-4685 and 4691-4694, bounded
    by the first argument. -/
def unescapeLoop : Nat → List Nat → Nat → Option (List Nat)
  | 0, _, _ => none
  | fuel + 1, s, n =>
    match findPair (s.drop n) with
    | none => some s
    | some i => unescapeLoop fuel (s.take (n + i) ++ 47 :: s.drop (n + i + 2)) (n + i + 1)

/-- `get_unescaped_regex_pattern`, /repo/src/scn/impl.h:4679-4697. -/
def unescapePattern (s : List Nat) : Option (List Nat) := unescapeLoop (s.length + 1) s 0

/-- The pattern the string reader passes to the regex engine, /repo/src/scn/impl.h:5350-5361. -/
def regexPattern (sp : Specs) : Option (List Nat) :=
  if sp.type = .regexEscaped then unescapePattern sp.setString
  else if sp.type = .regex then some sp.setString
  else none

end Scn
