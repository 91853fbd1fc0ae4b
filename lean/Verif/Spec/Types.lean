import Verif.Model.Format
/-
The documented presentation types, transcribed from the tables in /repo/include/scn/scan.h:8060-8410.
Independent of the parser and of the per-type checks; only the names of the types are shared.
-/
namespace Scn.Spec

/-- The letters of the documented grammar, /repo/include/scn/scan.h:8072-8076, and what they select. -/
def letterTable : List (Nat × Pres) :=
  [(97, .floatHex), (65, .floatHex), (98, .intBinary), (66, .intBinary), (99, .character), (100, .intDecimal),
   (101, .floatScientific), (69, .floatScientific), (102, .floatFixed), (70, .floatFixed),
   (103, .floatGeneral), (71, .floatGeneral), (111, .intOctal), (112, .pointer), (115, .string),
   (120, .intHex), (88, .intHex), (105, .intGeneric), (117, .intUnsigned)]

/-- What a documented letter selects. -/
def letterMeaning (c : Nat) : Option Pres := letterTable.lookup c

/-- What an alignment character means, /repo/include/scn/scan.h:8109-8142. -/
def alignMeaning (a : Nat) : Align :=
  if a = 60 then .left else if a = 62 then .right else if a = 94 then .center else .none

/-- The presentation types the documentation lists for an argument type,
    /repo/include/scn/scan.h:8196-8410 (`none`: no type given). The documentation has no table for
    pointers; `p` is taken from the grammar. Regex match arguments take only a regex
    (/repo/include/scn/scan.h:8232-8241). -/
def documented : ArgTy → List Pres
  | .schar | .short | .int | .long | .llong | .uchar | .ushort | .uint | .ulong | .ullong =>
    [.none, .intBinary, .intOctal, .intHex, .intDecimal, .intUnsigned, .intGeneric, .intArbitrary, .character]
  | .bool =>
    [.none, .string, .intBinary, .intDecimal, .intGeneric, .intOctal, .intUnsigned, .intHex]
  | .narrowChar | .wideChar =>
    [.none, .character, .intBinary, .intDecimal, .intGeneric, .intOctal, .intUnsigned, .intHex]
  | .codePoint => [.none, .character]
  | .pointer => [.none, .pointer]
  | .float | .double | .ldouble =>
    [.none, .floatHex, .floatScientific, .floatFixed, .floatGeneral]
  | .narrowStringView | .wideStringView | .narrowString | .wideString =>
    [.none, .string, .character, .stringSet, .regex, .regexEscaped]
  | .narrowRegex | .wideRegex => [.regex, .regexEscaped]
  | .none | .custom => []

/-- The built-in argument types. -/
def builtin : List ArgTy :=
  [.schar, .short, .int, .long, .llong, .uchar, .ushort, .uint, .ulong, .ullong, .bool, .narrowChar, .wideChar,
   .codePoint, .pointer, .float, .double, .ldouble, .narrowStringView, .wideStringView, .narrowString, .wideString,
   .narrowRegex, .wideRegex]

end Scn.Spec
