import Verif.Model.Scannable
/-
Which sources and destinations a scan call should take.
-/
namespace Scn.Spec

/-- The types that hold text of one kind of character and can only be read from a source of that kind: `char` (5790-5793), string views and
    `regex_matches`. (`wchar_t` and strings are transcoded.) -/
def needsSource : ArgTy → Option Bool
  | .narrowChar | .narrowStringView | .narrowRegex => some false
  | .wideStringView | .wideRegex => some true
  | _ => none

/-- A destination can be scanned into (/repo/include/scn/scan.h:5790-5812): it is not `const`, its type has not been disabled, there is a scanner for it, and it can
    be read from a source of this character type. -/
def destinationOk (off : Flag → Bool) (wide : Bool) (d : DestTy) : Prop :=
  d.isConst = false ∧
  (match d.ty with
   | .builtin t => off t.flag = false ∧ (needsSource t = none ∨ needsSource t = some wide)
   | .constPointer => off .pointer = false
   | .other s => s = true ∧ off .custom = false)

/-- The types of the arguments of a call (/repo/include/scn/scan.h:5831-5861): default constructible, destructible, no references, move constructible. -/
def argumentsOk (ts : List TypeTraits) : Prop :=
  ∀ t ∈ ts, t.defaultConstructible = true ∧ t.destructible = true ∧ t.reference = false ∧ t.moveConstructible = true

/-- `scannable_source` (/repo/include/scn/scan.h:5193-5227), and strings must have the default traits (5392-5399). -/
def sourceOk (wide : Bool) (s : SourceTy) : Prop :=
  (s.kind = .file ∧ wide = false) ∨
  (s.kind ≠ .file ∧ s.forward = true ∧ s.char = (if wide then .wchar else .char) ∧
    ((s.kind = .string ∨ s.kind = .view) → s.stdTraits = true))

/-- What is said to be wrong with a source (/repo/include/scn/scan.h:5380-5424), and, if nothing is, how it is read (5250-5365): in place exactly if its
    characters are known to lie together and their number is known. -/
def complaint (s : SourceTy) : Verdict → Prop
  | .invalidChar => s.char = .other ∧ s.forward = true
  | .customTraits => (s.kind = .string ∨ s.kind = .view) ∧ s.stdTraits = false
  | .fileMarker => s.kind = .fileMarker
  | .insufficient => s.range = true ∧ s.forward = false
  | .invalidInput => s.range = false
  | .refBuffer => s.kind = .bufferRange
  | .fileBuffer => s.kind = .file
  | .view => s.kind ≠ .bufferRange ∧ s.char ≠ .other ∧ (s.contiguous = true ∧ s.sized = true ∨ s.random = true ∧ s.address = true)
  | .forwardBuffer => s.kind ≠ .bufferRange ∧ s.char ≠ .other ∧ s.forward = true ∧ ¬ (s.contiguous = true ∧ s.sized = true) ∧ ¬ (s.contiguous = false ∧ s.random = true ∧ s.address = true)

/-- Facts about types: what the concepts imply, what strings, views, arrays and the ranges of buffers are, and that a file is no range. -/
structure RealSource (s : SourceTy) : Prop where
  contiguous : s.contiguous = true → s.random = true
  random : s.random = true → s.forward = true
  forward : s.forward = true → s.range = true
  text : s.kind = .view ∨ s.kind = .string ∨ s.kind = .array → s.contiguous = true ∧ s.sized = true
  buffer : s.kind = .bufferRange → s.forward = true ∧ s.char ≠ .other
  noRange : s.kind = .file ∨ s.kind = .fileMarker → s.range = false

end Scn.Spec
