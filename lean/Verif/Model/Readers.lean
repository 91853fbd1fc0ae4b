import Verif.Model.ArgReader
import Verif.Model.Checks
import Verif.Model.Float
import Verif.Model.Regex
/-
Model of the readers of booleans, characters and pointers, /repo/src/scn/impl.h:5382-5825, of
`default_arg_reader`, 5832-5906, and of a scan into a list of built-in destinations from a contiguous
source. `regex_matches` destinations are not part of it.
-/
namespace Scn

/-- `read_matching_code_unit`, /repo/src/scn/impl.h:2242-2257; `none` is any parse error. -/
def readMatchingUnit (ch : Nat) : List Nat → Option (List Nat)
  | [] => none
  | c :: cs => if c ≠ ch then none else some cs

/-- `read_exactly_n_code_units`, /repo/src/scn/impl.h:1952-1979; `none` is the end of the source. -/
def readExactly (n : Nat) (s : List Nat) : Option (List Nat) := if s.length < n then none else some (s.drop n)

/-- `read_matching_string`, /repo/src/scn/impl.h:2273-2287, and `read_matching_string_classic`, 2289-2315. -/
def readMatchingString (str s : List Nat) : Option (List Nat) :=
  match readExactly str.length s with
  | none => none
  | some it => if between s it ≠ str then none else some it

/-- `bool_reader_base::read_numeric`, /repo/src/scn/impl.h:5417-5433. -/
def readBoolNumeric (s : List Nat) : Option (Bool × List Nat) :=
  match readMatchingUnit 48 s with
  | some r => some (false, r)
  | none =>
    match readMatchingUnit 49 s with
    | some r => some (true, r)
    | none => none

/-- `bool_reader_base::read_textual_classic`, /repo/src/scn/impl.h:5435-5451 ("true", "false"). -/
def readBoolText (s : List Nat) : Option (Bool × List Nat) :=
  match readMatchingString [116, 114, 117, 101] s with
  | some r => some (true, r)
  | none =>
    match readMatchingString [102, 97, 108, 115, 101] s with
    | some r => some (false, r)
    | none => none

/-- `bool_reader::read_textual_custom`, /repo/src/scn/impl.h:5499-5524: the shorter name first. -/
def readBoolNames (truename falsename s : List Nat) : Option (Bool × List Nat) :=
  let trueShorter := decide (truename.length ≤ falsename.length)
  let shorter := if trueShorter then truename else falsename
  let longer := if trueShorter then falsename else truename
  match readMatchingString shorter s with
  | some r => some (trueShorter, r)
  | none =>
    match readMatchingString longer s with
    | some r => some (! trueShorter, r)
    | none => none

/-- `bool_reader_base::read_classic`, /repo/src/scn/impl.h:5388-5414, and
    `bool_reader::read_localized`, 5459-5495, with the reader of the text. -/
def readBool (numeric text : Bool) (rdText : List Nat → Option (Bool × List Nat)) (s : List Nat) : Res (Bool × List Nat) :=
  match (if numeric then readBoolNumeric s else none) with
  | some r => .ok r
  | none =>
    match (if text then rdText s else none) with
    | some r => .ok r
    | none => .err .invalidScannedValue

/-- `reader_impl_for_bool::get_options`, /repo/src/scn/impl.h:5565-5588: may the value be numeric, may
    it be text. -/
def boolOptions : Pres → Bool × Bool
  | .string => (false, true)
  | .intGeneric | .intBinary | .intDecimal | .intHex | .intOctal | .intUnsigned => (true, false)
  | _ => (true, true)

/-- The outcome of a regex engine, /repo/src/scn/impl.h:4371-4480: an error (of the pattern, the flags, or while
    matching), no match at the beginning of the text, or the length of the match. -/
inductive Match where
  | bad
  | none
  | found (n : Nat)
  deriving DecidableEq, Repr

/-- The environment of the readers. What `L` selects: the thousands separator, the decimal point, and the names of the
    truth values (`std::numpunct`), /repo/src/scn/impl.h:1823-1891 and 5476-5480; and the regex engine
    (`read_regex_string_impl`, 4371-4480, a parameter): pattern, flags and text. A backend that does not support wide
    strings is an engine that reports an error for them (4954-4959). -/
structure LocaleData where
  thsep : Nat
  point : Nat
  truename : List Nat
  falsename : List Nat
  regex : Enc → List Nat → Nat → List Nat → Match

/-- `reader_impl_for_bool::read_specs`, /repo/src/scn/impl.h:5547-5563. -/
def boolReader (loc : LocaleData) (sp : Specs) : Reader Bool :=
  ⟨true, fun _ s =>
    readBool (boolOptions sp.type).1 (boolOptions sp.type).2
      (if sp.localized then readBoolNames loc.truename loc.falsename else readBoolText) s⟩

/-- `code_unit_reader::read`, /repo/src/scn/impl.h:5595-5606. -/
def readCodeUnit : List Nat → Res (Nat × List Nat)
  | [] => .err .endOfInput
  | c :: cs => .ok (c, cs)

/-- `code_point_reader<char32_t>::read`, /repo/src/scn/impl.h:5611-5628: the decoder is the one for
    valid text. -/
def readCodePoint (e : Enc) (s : List Nat) : Res (Nat × List Nat) :=
  match readCpInto e s with
  | none => .ub
  | some (r, units) =>
    if units = [] then .err .invalidScannedValue
    else
      match decodeCpValid e units with
      | none => .ub
      | some cp => .ok (cp, r)

/-- `code_point_reader<wchar_t>::read`, /repo/src/scn/impl.h:5630-5648. -/
def readWideChar (e wide : Enc) (s : List Nat) : Res (Nat × List Nat) :=
  (readCodePoint e s).bind fun r => (encodeWide wide r.1 true).map fun c => (c, r.2)

/-- A destination of a built-in type. The widths of the integer types follow from
    `make_reader`, /repo/src/scn/impl.h:5845-5888. String and string view destinations have an encoding; `stored` says
    that the text of a view lies in more than one segment of a source that is not contiguous, and had to be copied
    (1733-1751). Floating-point destinations come with the conversions of their type (values are bit patterns); `seg`
    is as in `readFloat`. -/
inductive Dest where
  | int (T : IntTy) (ty : ArgTy)
  | bool
  | char
  | wchar
  | codePoint
  | string (dst : Enc)
  | pointer
  | view (dst : Enc) (stored : Bool)
  | float (ty : ArgTy) (cv : FloatConv Nat) (seg : Bool)

/-- The argument type of a destination, /repo/include/scn/scan.h:5442-5470. -/
def Dest.argTy : Dest → ArgTy
  | .int _ ty => ty
  | .bool => .bool
  | .char => .narrowChar
  | .wchar => .wideChar
  | .codePoint => .codePoint
  | .string .utf8 => .narrowString
  | .string _ => .wideString
  | .pointer => .pointer
  | .view .utf8 _ => .narrowStringView
  | .view _ _ => .wideStringView
  | .float ty _ _ => ty

/-- A scanned value: what the destinations of `arg_reader` hold, /repo/src/scn/impl.h:6224-6250. -/
inductive Val where
  | int (x : Int)
  | bool (b : Bool)
  | char (c : Nat)
  | string (s : List Nat)
  | pointer (a : Int)
  | float (bits : Nat)
  deriving DecidableEq, Repr

/-- Change the value of a reader (`arg_reader` stores it in the destination,
    /repo/src/scn/impl.h:6224-6250). -/
def Reader.mapVal {V W : Type} (f : V → W) (rd : Reader V) : Reader W :=
  ⟨rd.skipWs, fun l s => (rd.read l s).map fun r => (f r.1, r.2)⟩

/-- The kind of source, for the integer reader (`CharT`, contiguous or not), cf.
    /repo/src/scn/impl.h:2327-2366. -/
def srcOf (e : Enc) (l : Layout) : Src := ⟨decide (e = .utf8), decide (l = .contiguous)⟩

/-- `format_specs::get_base`, /repo/include/scn/scan.h:6975-7002; `none` is the unreachable default
    case. The arbitrary base is always 0 (it is never set). -/
def Specs.getBase (sp : Specs) : Option Nat :=
  match sp.type with
  | .none => some 10
  | .intGeneric => some 0
  | .intArbitrary => some 0
  | .intBinary => some 2
  | .intOctal => some 8
  | .intDecimal => some 10
  | .intUnsigned => some 10
  | .intHex => some 16
  | _ => Option.none

/-- `reader_impl_for_int::read_specs`, /repo/src/scn/impl.h:3583-3656. -/
def intSpecsReader (e : Enc) (loc : LocaleData) (T : IntTy) (sp : Specs) : Reader Int :=
  ⟨true, fun l s =>
    match sp.getBase with
    | none => .ub
    | some b => readInt (srcOf e l) T ⟨b, decide (sp.type = .intUnsigned), if sp.localized then some loc.thsep else none⟩ s⟩

/-- `reader_impl_for_char::read_default`, /repo/src/scn/impl.h:5679-5692: a wide source is not
    allowed. -/
def readCharDefault (e : Enc) (s : List Nat) : Res (Nat × List Nat) := if e = .utf8 then readCodeUnit s else .ub

/-- `reader_impl_for_wchar::read_default`, /repo/src/scn/impl.h:5717-5728. -/
def readWcharDefault (e wide : Enc) (s : List Nat) : Res (Nat × List Nat) :=
  if e = .utf8 then readWideChar e wide s else readCodeUnit s

/-- `reader_impl_for_char::read_specs`, /repo/src/scn/impl.h:5694-5711. With an integer presentation
    an integer is read, and then the destination (`old`) is assigned to itself. -/
def charReader (e : Enc) (loc : LocaleData) (sp : Specs) (old : Nat) : Reader Nat :=
  ⟨false, fun l s =>
    if sp.type = .none ∨ sp.type = .character then readCharDefault e s
    else ((intSpecsReader e loc ⟨8, true⟩ sp).read l s).map fun r => (old, r.2)⟩

/-- `reader_impl_for_wchar::read_specs`, /repo/src/scn/impl.h:5730-5749. -/
def wcharReader (e wide : Enc) (loc : LocaleData) (sp : Specs) (old : Nat) : Reader Nat :=
  ⟨false, fun l s =>
    if sp.type = .none ∨ sp.type = .character then readWcharDefault e wide s
    else ((intSpecsReader e loc ⟨if wide = .utf16 then 16 else 32, true⟩ sp).read l s).map fun r => (old, r.2)⟩

/-- `reader_impl_for_code_point::read_specs`, /repo/src/scn/impl.h:5763-5771. -/
def codePointReader (e : Enc) : Reader Nat := ⟨false, fun _ s => readCodePoint e s⟩

/-- `reader_impl_for_voidptr::read_default` and `read_specs`, /repo/src/scn/impl.h:5801-5824: an
    unsigned 64-bit integer in hexadecimal presentation. -/
def pointerReader (e : Enc) : Reader Int :=
  ⟨true, fun l s => readInt (srcOf e l) ⟨64, false⟩ ⟨16, false, none⟩ s⟩

/-- Where the text of a string field ends: the first half of the readers of /repo/src/scn/impl.h:4854-5237, which is
    the same for strings and for views. -/
def stringEnd (e : Enc) (sp : Specs) (k : StrKind) (l : Layout) (s : List Nat) : Res (List Nat) :=
  match k with
  | .word =>
    match readUntilSpace e l s with
    | none => .ub
    | some it => .ok it
  | .customWord =>
    match sp.fill.units e with
    | [u] => .ok (readUntilUnit (fun c => c == u) s)
    | us => .ok (readUntilUnits us s)
  | .character => if sp.precision != 0 then .ok (readAll s) else .err .invalidFormatString
  | .characterSet => charsetSource e sp s

/-- `string_reader` into a string view, /repo/src/scn/impl.h:4808-5369. -/
def viewReader (e dst : Enc) (stored : Bool) (sp : Specs) (k : StrKind) : Reader (List Nat) :=
  ⟨k == .word, fun l s => (stringEnd e sp k l s).bind (readStringView e dst stored s)⟩

/-- `regex_string_reader_impl::impl` with the pattern from `string_reader::read_impl`,
    /repo/src/scn/impl.h:4947-4976, 5349-5362: a source that is not contiguous is an error. -/
def regexStringEnd (e : Enc) (loc : LocaleData) (sp : Specs) (l : Layout) (s : List Nat) : Res (List Nat) :=
  if l ≠ .contiguous then .err .invalidFormatString
  else match regexPattern sp with
    | none => .ub
    | some p =>
      match loc.regex e p sp.regexFlags s with
      | .bad => .err .invalidFormatString
      | .none => .err .invalidScannedValue
      | .found n => .ok (s.drop n)

/-- `regex_string_reader_impl` into a string, /repo/src/scn/impl.h:4923-4934. -/
def regexReader (e dst : Enc) (loc : LocaleData) (sp : Specs) : Reader (List Nat) :=
  ⟨false, fun l s => (regexStringEnd e loc sp l s).bind (readString e dst s)⟩

/-- `regex_string_reader_impl` into a string view, /repo/src/scn/impl.h:4936-4945. -/
def regexViewReader (e dst : Enc) (stored : Bool) (loc : LocaleData) (sp : Specs) : Reader (List Nat) :=
  ⟨false, fun l s => (regexStringEnd e loc sp l s).bind (readStringView e dst stored s)⟩

/-- The separator and the decimal point for a floating-point number, /repo/src/scn/impl.h:1868-1890, 4203-4221. -/
def floatLocOf (loc : LocaleData) (localized : Bool) : FloatLoc := if localized then ⟨loc.thsep, loc.point⟩ else .classic

/-- `reader_impl_for_float::read_specs`, /repo/src/scn/impl.h:4181-4221. -/
def floatReader (e : Enc) (loc : LocaleData) (cv : FloatConv Nat) (seg : Bool) (sp : Specs) : Reader Nat :=
  ⟨true, fun l s => readFloatAs cv e (srcOf e l) seg (floatLocOf loc sp.localized) sp.type s⟩

/-- `make_reader` with `skip_ws_before_read` and `read_default`, /repo/src/scn/impl.h:5845-5888, for
    the destinations of the model: 3575-3581 (integers), 5538-5545 (booleans), 5299-5305 (strings:
    words), 5679-5692, 5717-5728, 5754-5761 (characters), 5801-5813 (pointers), 4181-4191 (floating-point). -/
def Dest.defaultReader (e wide : Enc) : Dest → Reader Val
  | .int T _ => (Reader.mk true fun l s => readIntDefault (srcOf e l) T s).mapVal .int
  | .bool => (Reader.mk true fun _ s => readBool true true readBoolText s).mapVal .bool
  | .char => (Reader.mk false fun _ s => readCharDefault e s).mapVal .char
  | .wchar => (Reader.mk false fun _ s => readWcharDefault e wide s).mapVal .char
  | .codePoint => (codePointReader e).mapVal .char
  | .string dst => (Reader.mk true fun l s => readWord e dst l s).mapVal .string
  | .pointer => (pointerReader e).mapVal .pointer
  | .view dst stored => (viewReader e dst stored {} .word).mapVal .string
  | .float _ cv seg => (Reader.mk true fun l s => readFloatAs cv e (srcOf e l) seg .classic .none s).mapVal .float

/-- `make_reader` with `read_specs`. `old` is the previous value of a character destination.
    /repo/src/scn/impl.h:5845-5888. -/
def Dest.specsReader (e wide : Enc) (loc : LocaleData) (old : Nat) (sp : Specs) : Dest → Reader Val
  | .int T _ => (intSpecsReader e loc T sp).mapVal .int
  | .bool => (boolReader loc sp).mapVal .bool
  | .char => (charReader e loc sp old).mapVal .char
  | .wchar => (wcharReader e wide loc sp old).mapVal .char
  | .codePoint => (codePointReader e).mapVal .char
  | .string dst =>
    match strKind sp with
    | some k => (stringReader e dst sp k).mapVal .string
    | none => (regexReader e dst loc sp).mapVal .string
  | .pointer => (pointerReader e).mapVal .pointer
  | .view dst stored =>
    match strKind sp with
    | some k => (viewReader e dst stored sp k).mapVal .string
    | none => (regexViewReader e dst stored loc sp).mapVal .string
  | .float _ cv seg => (floatReader e loc cv seg sp).mapVal .float

/-- `default_arg_reader::impl` with `skip_ws_before_if_required`, /repo/src/scn/impl.h:5832-5843 and
    5900-5907. -/
def defaultRead {V : Type} (e : Enc) (rd : Reader V) (lay : List Nat → Layout) (s : List Nat) : Res (V × List Nat) :=
  if s = [] then .err .endOfInput
  else if rd.skipWs then (skipSpace e (lay s) false s).bind fun it => rd.read (lay it) it
  else rd.read (lay s) s

/-- `arg_reader::operator()` on a contiguous source, /repo/src/scn/impl.h:6224-6234: the check of the
    specs, then the reading. -/
def Dest.readSpecs (e wide : Enc) (loc : LocaleData) (old : Nat) (d : Dest) (sp : Specs) (lay : List Nat → Layout)
    (s : List Nat) : Res (Val × List Nat) :=
  match runTypeCheck d.argTy sp with
  | none => .ub
  | some false => .err .invalidFormatString
  | some true => argRead e sp (d.specsReader e wide loc old sp) lay s

/-- A scan call over a contiguous source into these destinations, /repo/src/scn/impl.cpp:1742-1788
    with `default_arg_reader` and `arg_reader`. There are no custom arguments. -/
def stdEnv (e wide : Enc) (cfg : RegexCfg) (loc : LocaleData) (old : Nat) (ds : List Dest) : Env Val where
  enc := e
  cfg := cfg
  skip := readWhileSpace e .contiguous
  count := ds.length
  ty id := ((ds[id]?).map Dest.argTy).getD .none
  readDefault id s :=
    match ds[id]? with
    | none => .ub
    | some d => defaultRead e (d.defaultReader e wide) (fun _ => .contiguous) s
  readSpecs id sp s :=
    match ds[id]? with
    | none => .ub
    | some d => d.readSpecs e wide loc old sp (fun _ => .contiguous) s
  readCustom _ pos _ := (pos, .ub)

end Scn
