import Verif.Model.Format
/-
What the compiler decides: which sources and which destinations a scan call takes. Types are described by what the templates ask about them.
-/
namespace Scn

/-! ### Destinations -/

/-- The options that take a type out of the library (`SCN_DISABLE_TYPE_*`, `SCN_DISABLE_REGEX`; /repo/include/scn/scan.h:5485-5525). -/
inductive Flag where
  | schar | short | int | long | llong | uchar | ushort | uint | ulong | ullong | bool | char | char32 | pointer | float | double | ldouble
  | stringView | string | regex | custom
  deriving DecidableEq, Repr

/-- A type without `const` (/repo/include/scn/scan.h:5474-5525): one of the built-in ones (named by its `arg_type`; `const void*` shares that of `void*`), or another one, for which
    there is a specialization of `scanner` or not. -/
inductive CppTy where
  | builtin (t : ArgTy)
  | constPointer
  | other (hasScanner : Bool)
  deriving DecidableEq, Repr

/-- The type of a destination: the `T` of `arg_mapper::map(T&)`, /repo/include/scn/scan.h:5644-5728. -/
structure DestTy where
  ty : CppTy
  isConst : Bool := false
  deriving DecidableEq, Repr

/-- `is_type_disabled`: the flag of the specializations, /repo/include/scn/scan.h:5471-5525. -/
def ArgTy.flag : ArgTy → Flag
  | .schar => .schar | .short => .short | .int => .int | .long => .long | .llong => .llong
  | .uchar => .uchar | .ushort => .ushort | .uint => .uint | .ulong => .ulong | .ullong => .ullong
  | .bool => .bool | .narrowChar => .char | .wideChar => .char | .codePoint => .char32 | .pointer => .pointer
  | .float => .float | .double => .double | .ldouble => .ldouble
  | .narrowStringView => .stringView | .wideStringView => .stringView | .narrowString => .string | .wideString => .string
  | .narrowRegex => .regex | .wideRegex => .regex
  | .none => .custom | .custom => .custom

/-- What `arg_mapper::map` returns, /repo/include/scn/scan.h:5527-5546, 5644-5728. -/
inductive Mapped where
  | ref | needsContext | unscannable | unscannableChar | unscannableDisabled
  deriving DecidableEq, Repr

/-- Is `decltype(scanner<T, char_type>{})` well-formed (/repo/include/scn/scan.h:5706-5721)? For a type with a specialization it is. Else it is about
    the primary template (/repo/include/scn/fwd.h:1062-1100), whose only constructor is deleted: in C++17 the class is an aggregate all the same, as
    the constructor is not user-provided, and `{}` initializes it; from C++20 on it is not (`cpp20`). Specializations are not for `const` types. -/
def scannerBraces (cpp20 : Bool) (d : DestTy) : Bool :=
  (match d with | ⟨.other true, false⟩ => true | _ => false) || !cpp20

/-- `arg_mapper<CharT>::map`, /repo/include/scn/scan.h:5644-5728: the overload for the type, else the template for types with a scanner, else the one
    that takes anything. `wide`: the character type is `wchar_t`. For `regex_matches` the flag asked about is that of the character type (5684-5692). -/
def argMap (cpp20 : Bool) (off : Flag → Bool) (wide : Bool) (d : DestTy) : Mapped :=
  match d with
  | ⟨.builtin .narrowChar, false⟩ =>
    if wide = false ∧ off .char = false then .ref else if off .char = true then .unscannableDisabled else .unscannableChar
  | ⟨.builtin .narrowStringView, false⟩ => if wide then .unscannableChar else if off .stringView then .unscannableDisabled else .ref
  | ⟨.builtin .wideStringView, false⟩ => if !wide then .unscannableChar else if off .stringView then .unscannableDisabled else .ref
  | ⟨.builtin .narrowRegex, false⟩ => if wide then .unscannableChar else if off .char then .unscannableDisabled else .ref
  | ⟨.builtin .wideRegex, false⟩ => if !wide then .unscannableChar else if off .char then .unscannableDisabled else .ref
  | ⟨.builtin t, false⟩ => if off t.flag then .unscannableDisabled else .ref
  | ⟨.constPointer, false⟩ => if off .pointer then .unscannableDisabled else .ref
  | d => if scannerBraces cpp20 d then .needsContext else .unscannable

/-- `is_scannable`, /repo/include/scn/scan.h:5735-5747. -/
def isScannable (cpp20 : Bool) (off : Flag → Bool) (wide : Bool) (d : DestTy) : Bool :=
  match argMap cpp20 off wide d with
  | .ref | .needsContext => true
  | _ => false

/-- Does `make_value` with what follows compile (/repo/include/scn/scan.h:5617-5640, 5782-5829)? The static assertions refuse the types that cannot be
    scanned; a custom type needs a scanner whose functions are not deleted, a pointer to it that converts to `void*`, and that custom types are not
    disabled. -/
def makeValue (cpp20 : Bool) (off : Flag → Bool) (wide : Bool) (d : DestTy) : Bool :=
  match argMap cpp20 off wide d with
  | .ref => true
  | .needsContext => (match d with | ⟨.other true, false⟩ => !off .custom | _ => false)
  | _ => false

/-- What `check_scan_arg_types` asks about the types of the arguments, /repo/include/scn/scan.h:5831-5861. -/
structure TypeTraits where
  defaultConstructible : Bool
  destructible : Bool
  reference : Bool
  moveConstructible : Bool
  deriving DecidableEq, Repr

/-- `std::conjunction_v`, /repo/include/scn/scan.h:5834-5850. -/
def conjunction (bs : List Bool) : Bool := bs.all id

/-- `check_scan_arg_types`, /repo/include/scn/scan.h:5831-5861: no static assertion fails. -/
def checkScanArgTypes (ts : List TypeTraits) : Bool :=
  conjunction (ts.map (·.defaultConstructible)) && conjunction (ts.map (·.destructible)) &&
  !conjunction (false :: ts.map (·.reference)) && conjunction (ts.map (·.moveConstructible))

/-! ### Scanners of built-in types as parts of other scanners -/

/-- The instantiations of `scanner_scan_for_builtin_type` in the library, /repo/src/scn/impl.cpp:254-283. Its definition (impl.cpp:230-243) is in no
    header, so there are no others. -/
def definedScans (wide : Bool) : List CppTy :=
  .builtin (if wide then .wideChar else .narrowChar) ::
  ([ArgTy.schar, .short, .int, .long, .llong, .uchar, .ushort, .uint, .ulong, .ullong, .float, .double, .ldouble, .narrowString, .wideString,
    .narrowStringView, .wideStringView, .narrowRegex, .wideRegex].map .builtin)

/-- A scanner for the type, used by the scanner of a range, a tuple or `discard` (/repo/include/scn/scan.h:9013-9031, 9150-9168, /repo/include/scn/ranges.h:110-113),
    is compiled and linked: the type is scannable, and for a built-in type the instantiation exists. -/
def elementLinks (cpp20 : Bool) (off : Flag → Bool) (wide : Bool) (d : DestTy) : Bool :=
  makeValue cpp20 off wide d && (match d.ty with | .other _ => true | t => decide (t ∈ definedScans wide))

/-- The separators and brackets of ranges and tuples, /repo/include/scn/ranges.h:243-245, 316-317, 482-491, are narrow literals: a `basic_string_view<CharT>`
    can only be made of them if `CharT` is `char`. -/
def literalsConvert (wide : Bool) : Bool := !wide

/-- A range or a tuple of elements of the type is compiled and linked: the element's scanner is, and that of the range, /repo/include/scn/ranges.h:226-246,
    305-318. -/
def rangeLinks (cpp20 : Bool) (off : Flag → Bool) (wide : Bool) (d : DestTy) : Bool := literalsConvert wide && elementLinks cpp20 off wide d

/-! ### Sources -/

/-- The value type of a range, as far as `is_valid_char_type` tells, /repo/include/scn/scan.h:5245-5248. -/
inductive CharTy where
  | char | wchar | other
  deriving DecidableEq, Repr

/-- The kinds of types for which `_make_scan_buffer::impl` has overloads of its own, /repo/include/scn/scan.h:5250-5353. -/
inductive SourceKind where
  | bufferRange | view | string | array | file | fileMarker | other
  deriving DecidableEq, Repr

/-- The type of a source, and what the templates ask about it (/repo/include/scn/scan.h:5269-5365): the concepts it models, whether its iterators can be made into pointers, and, for a
    string or a view, whether it uses `std::char_traits`. -/
structure SourceTy where
  kind : SourceKind := .other
  char : CharTy := .char
  stdTraits : Bool := true
  range : Bool := true
  forward : Bool := true
  random : Bool := true
  contiguous : Bool := true
  sized : Bool := true
  address : Bool := false
  deriving DecidableEq, Repr

/-- What `make_scan_buffer` gives, or which of its static assertions fails (/repo/include/scn/scan.h:5228-5241, 5376-5424). -/
inductive Verdict where
  | refBuffer | view | fileBuffer | forwardBuffer
  | invalidChar | customTraits | fileMarker | insufficient | invalidInput
  deriving DecidableEq, Repr

/-- `is_valid_char_type`, /repo/include/scn/scan.h:5245-5248. -/
def CharTy.valid : CharTy → Bool
  | .other => false
  | _ => true

/-- `_make_scan_buffer::impl`, /repo/include/scn/scan.h:5250-5365: the viable overload with the highest priority. The one for views (5269-5279) is only for
    views with the default traits; the one for arrays (5298-5304) only for valid character types. -/
def makeScanBuffer (s : SourceTy) : Verdict :=
  if s.kind = .bufferRange then .refBuffer
  else if s.kind = .view ∧ s.stdTraits = true then (if s.char.valid then .view else .invalidChar)
  else if s.kind = .string then (if !s.char.valid then .invalidChar else if !s.stdTraits then .customTraits else .view)
  else if s.kind = .array ∧ s.char.valid = true then .view
  else if s.kind = .file then .fileBuffer
  else if s.contiguous = true ∧ s.sized = true then (if s.char.valid then .view else .invalidChar)
  else if s.contiguous = false ∧ s.random = true ∧ s.address = true then (if s.char.valid then .view else .invalidChar)
  else if s.kind = .fileMarker then .fileMarker
  else if !s.forward then (if s.range then .insufficient else .invalidInput)
  else if !s.char.valid then .invalidChar
  else .forwardBuffer

/-- Does a call with a format string of `char` (or `wchar_t`, if `wide`) compile for the source: there is a buffer, and a `vscan_impl` for it
    (/repo/include/scn/scan.h:9330-9351). -/
def sourceCompiles (wide : Bool) (s : SourceTy) : Bool :=
  match makeScanBuffer s with
  | .refBuffer | .view | .forwardBuffer => decide (s.char = if wide then .wchar else .char)
  | .fileBuffer => !wide
  | _ => false

end Scn
