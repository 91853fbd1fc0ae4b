import Verif.Model.Space
/-
Model of the format string parser, /repo/include/scn/scan.h:6822-7799.

A position in the format string is the list of the units from that position to the end, so
"inside the string" is "a suffix of the format string", and reading a unit at the end is
impossible by construction: it is `none` (undefined behaviour).  The parser is parametrised by a
handler, like the C++ templates.
-/
namespace Scn

/-- `align_type`, /repo/include/scn/scan.h:6822-6827. -/
inductive Align where
  | none | left | right | center
  deriving DecidableEq, Repr

/-- `presentation_type`, /repo/include/scn/scan.h:6829-6849. -/
inductive Pres where
  | none | intBinary | intDecimal | intGeneric | intUnsigned | intOctal | intHex | intArbitrary
  | floatHex | floatScientific | floatFixed | floatGeneral
  | string | stringSet | regex | regexEscaped | character | escapedCharacter | pointer
  deriving DecidableEq, Repr

/-- The numeric order of the enumerators, /repo/include/scn/scan.h:6829-6849, used by the
    comparisons at 7901-7948. -/
def Pres.ord : Pres → Nat
  | .none => 0 | .intBinary => 1 | .intDecimal => 2 | .intGeneric => 3 | .intUnsigned => 4
  | .intOctal => 5 | .intHex => 6 | .intArbitrary => 7 | .floatHex => 8 | .floatScientific => 9
  | .floatFixed => 10 | .floatGeneral => 11 | .string => 12 | .stringSet => 13 | .regex => 14
  | .regexEscaped => 15 | .character => 16 | .escapedCharacter => 17 | .pointer => 18

/-- `fill_type`, /repo/include/scn/scan.h:6893-6958: four bytes and a size in bytes. -/
structure Fill where
  data : List Nat
  size : Nat
  deriving DecidableEq, Repr

/-- The default fill, /repo/include/scn/scan.h:6953-6954. -/
def Fill.default : Fill := ⟨[32, 0, 0, 0], 1⟩

/-- `fill_type::operator=(basic_string_view)`, /repo/include/scn/scan.h:6901-6932: for wide
    characters `m_size` is not updated. `none` when a precondition fails. The data keep their old
    bytes beyond the assigned ones; the field is only ever assigned once, so they are zero. -/
def Fill.assign (e : Enc) (s : List Nat) : Option Fill :=
  match e, s with
  | _, [] => none
  | .utf8, s => if s.length > 4 then none else some ⟨s ++ List.replicate (4 - s.length) 0, s.length⟩
  | .utf16, [a] => some ⟨[a % 256, a / 256 % 256, 0, 0], 1⟩
  | .utf16, [a, b] => some ⟨[a % 256, a / 256 % 256, b % 256, b / 256 % 256], 1⟩
  | .utf16, _ => none
  | .utf32, [a] => some ⟨[a % 256, a / 256 % 256, a / 65536 % 256, a / 16777216 % 256], 1⟩
  | .utf32, _ => none

/-- `fill_type::get_code_unit` and `get_code_units`, /repo/include/scn/scan.h:6939-6952, chosen by the
    size test at /repo/src/scn/impl.h:5993 (and 4882, 4904): the code units that count as fill. When
    the size in bytes does not exceed `sizeof(CharT)`, one unit made of the first `size` bytes
    (little endian). -/
def Fill.units (e : Enc) (f : Fill) : List Nat :=
  let width := match e with | .utf8 => 1 | .utf16 => 2 | .utf32 => 4
  if f.size ≤ width then [(f.data.take f.size).foldr (fun b a => b + 256 * a) 0] else f.data.take f.size

/-- `format_specs`, /repo/include/scn/scan.h:6960-7010. The 16 bytes `charset_literals` are one
    128-bit number whose bit `v` is bit `v % 8` of byte `v / 8`; the charset string view is its
    contents. -/
structure Specs where
  width : Nat := 0
  precision : Nat := 0
  fill : Fill := Fill.default
  type : Pres := .none
  literals : Nat := 0
  nonascii : Bool := false
  inverted : Bool := false
  setString : List Nat := []
  regexFlags : Nat := 0
  align : Align := .none
  localized : Bool := false
  deriving DecidableEq, Repr

/-- `arg_type`, /repo/include/scn/scan.h:5442-5470. -/
inductive ArgTy where
  | none | schar | short | int | long | llong | uchar | ushort | uint | ulong | ullong | bool
  | narrowChar | wideChar | codePoint | pointer | float | double | ldouble
  | narrowStringView | wideStringView | narrowString | wideString
  | narrowRegex | wideRegex | custom
  deriving DecidableEq, Repr

/-- `arg_type_category`, /repo/include/scn/scan.h:7801-7811. -/
inductive ArgCat where
  | none | integer | unsignedInteger | floating | string | pointer | boolean | character | custom
  deriving DecidableEq, Repr

/-- `get_category_for_arg_type`, /repo/include/scn/scan.h:7813-7865; the two regex types reach the
    `SCN_ENSURE(false)` of the default case. -/
def ArgTy.category : ArgTy → Option ArgCat
  | .none => some .none
  | .schar | .short | .int | .long | .llong => some .integer
  | .uchar | .ushort | .uint | .ulong | .ullong => some .unsignedInteger
  | .pointer => some .pointer
  | .bool => some .boolean
  | .narrowChar | .wideChar | .codePoint => some .character
  | .float | .double | .ldouble => some .floating
  | .narrowStringView | .wideStringView | .narrowString | .wideString => some .string
  | .custom => some .custom
  | .narrowRegex | .wideRegex => Option.none

/-- The state of `specs_checker<specs_setter>`: the specs being filled and whether `m_error` is
    set (all its errors are `invalid_format_string`), /repo/include/scn/scan.h:7012-7138 and
    7867-7895. -/
structure Setter where
  specs : Specs
  err : Bool
  deriving DecidableEq, Repr

/-- `specs_setter::on_error`, /repo/include/scn/scan.h:7118-7128. -/
def Setter.onError (st : Setter) : Setter := { st with err := true }

/-- `specs_setter::on_width`, /repo/include/scn/scan.h:7036-7045. -/
def Setter.onWidth (st : Setter) (w : Nat) : Setter :=
  if st.specs.precision ≠ 0 ∧ w > st.specs.precision then st.onError
  else { st with specs := { st.specs with width := w } }

/-- `specs_setter::on_precision`, /repo/include/scn/scan.h:7046-7055. -/
def Setter.onPrecision (st : Setter) (p : Nat) : Setter :=
  if st.specs.width > p then st.onError
  else { st with specs := { st.specs with precision := p } }

/-- `specs_setter::on_align`, /repo/include/scn/scan.h:7016-7019. -/
def Setter.onAlign (st : Setter) (a : Align) : Setter :=
  { st with specs := { st.specs with align := a } }

/-- `specs_setter::on_fill`, /repo/include/scn/scan.h:7020-7024. -/
def Setter.onFill (e : Enc) (st : Setter) (s : List Nat) : Option Setter :=
  (Fill.assign e s).map fun f => { st with specs := { st.specs with fill := f } }

/-- `specs_checker::on_localized`, /repo/include/scn/scan.h:7877-7891, then
    `specs_setter::on_localized`, 7025-7034 (locale support enabled). -/
def Setter.onLocalized (ty : ArgTy) (st : Setter) : Option Setter :=
  match ty.category with
  | Option.none => Option.none
  | some cat =>
    if cat ≠ .integer ∧ cat ≠ .unsignedInteger ∧ cat ≠ .floating ∧ cat ≠ .boolean then some st.onError
    else some { st with specs := { st.specs with localized := true } }

/-- `specs_setter::on_type`, /repo/include/scn/scan.h:7057-7060. -/
def Setter.onType (st : Setter) (t : Pres) : Setter :=
  { st with specs := { st.specs with type := t } }

/-- `specs_setter::on_charset_single`, /repo/include/scn/scan.h:7062-7072. -/
def Setter.onCharsetSingle (st : Setter) (cp : Nat) : Setter :=
  if cp ≤ 127 then { st with specs := { st.specs with literals := st.specs.literals ||| 1 <<< cp } }
  else { st with specs := { st.specs with nonascii := true } }

/-- The loop of `on_charset_range`: set the bits of `first`, `first+1`, ... (`n` of them),
    /repo/include/scn/scan.h:7084-7087. -/
def setBits (bits first : Nat) : Nat → Nat
  | 0 => bits
  | n + 1 => setBits (bits ||| 1 <<< first) (first + 1) n

/-- `specs_setter::on_charset_range`, /repo/include/scn/scan.h:7074-7092; `last` is one past the
    range, `none` when its precondition fails. -/
def Setter.onCharsetRange (st : Setter) (first last : Nat) : Option Setter :=
  if ¬ first < last then none
  else if last ≤ 127 then
    some { st with specs := { st.specs with literals := setBits st.specs.literals first (last - first) } }
  else some { st with specs := { st.specs with nonascii := true } }

/-- `specs_setter::on_charset_inverted`, /repo/include/scn/scan.h:7094-7097. -/
def Setter.onInverted (st : Setter) : Setter := { st with specs := { st.specs with inverted := true } }

/-- `specs_setter::on_character_set_string`, /repo/include/scn/scan.h:7099-7105. -/
def Setter.onSetString (st : Setter) (s : List Nat) : Setter :=
  { st with specs := { st.specs with setString := s, type := .stringSet } }

/-- `specs_setter::on_regex_pattern`, /repo/include/scn/scan.h:7107-7112. -/
def Setter.onRegexPattern (st : Setter) (s : List Nat) : Setter :=
  { st with specs := { st.specs with setString := s } }

/-- `specs_setter::on_regex_flags`, /repo/include/scn/scan.h:7113-7116. -/
def Setter.onRegexFlags (st : Setter) (f : Nat) : Setter :=
  { st with specs := { st.specs with regexFlags := f } }

/-- The test `c >= '0' && c <= '9'`, /repo/include/scn/scan.h:7144, 7155, 7167, 7350. -/
def isDec (c : Nat) : Bool := 48 ≤ c && c ≤ 57

/-- The largest `int`, `std::numeric_limits<int>::max()` at /repo/include/scn/scan.h:7151. -/
def intMax : Nat := 2147483647

/-- The loop of `parse_simple_int`, /repo/include/scn/scan.h:7140-7157: the value (or -1) and the
    position. `value` stays below `10 * 2^31`, so the 64-bit arithmetic is exact. -/
def simpleIntLoop : Nat → List Nat → Int × List Nat
  | v, [] => (v, [])
  | v, c :: cs =>
    if isDec c then
      if v * 10 + (c - 48) > intMax then (-1, c :: cs) else simpleIntLoop (v * 10 + (c - 48)) cs
    else (v, c :: cs)

/-- `parse_simple_int`, /repo/include/scn/scan.h:7140-7157. -/
def parseSimpleInt (s : List Nat) : Option (Int × List Nat) :=
  match s with
  | [] => none
  | c :: cs => if isDec c then some (simpleIntLoop 0 (c :: cs)) else none

/-- `parse_presentation_type`, /repo/include/scn/scan.h:7203-7253; `none` (the option) is the
    `SCN_EXPECT(false)` for `[` and `/`. -/
def parsePresType (c : Nat) : Option Pres :=
  if c = 98 ∨ c = 66 then some .intBinary
  else if c = 100 then some .intDecimal
  else if c = 105 then some .intGeneric
  else if c = 117 then some .intUnsigned
  else if c = 111 then some .intOctal
  else if c = 120 ∨ c = 88 then some .intHex
  else if c = 114 ∨ c = 82 then some .intArbitrary
  else if c = 97 ∨ c = 65 then some .floatHex
  else if c = 101 ∨ c = 69 then some .floatScientific
  else if c = 102 ∨ c = 70 then some .floatFixed
  else if c = 103 ∨ c = 71 then some .floatGeneral
  else if c = 115 then some .string
  else if c = 99 then some .character
  else if c = 63 then some .escapedCharacter
  else if c = 112 then some .pointer
  else if c = 91 ∨ c = 47 then none
  else some .none

/-- `is_ascii_letter`, /repo/include/scn/scan.h:7255-7260. -/
def isAsciiLetter (c : Nat) : Bool := (97 ≤ c && c ≤ 122) || (65 ≤ c && c ≤ 90)

/-- `check_align`, /repo/include/scn/scan.h:7285-7296. -/
def checkAlign (c : Nat) : Align :=
  if c = 60 then .left else if c = 62 then .right else if c = 94 then .center else .none

/-- `code_point_length`, /repo/include/scn/scan.h:7262-7276. -/
def fillLength (e : Enc) (c : Nat) : Nat :=
  match e with
  | .utf8 => cpLength8 c
  | _ => 1

/-- `parse_align`, /repo/include/scn/scan.h:7278-7341. -/
def parseAlign (e : Enc) (st : Setter) (s : List Nat) : Option (Setter × List Nat) :=
  match s with
  | [] => none
  | c :: _ =>
    let len := fillLength e c
    if len = 0 ∨ s.length < len then some (st.onError, s)
    else
      let onFill := checkAlign c
      let fill := s.take len
      match s.drop len with
      | [] => some (st, s)
      | d :: after =>
        if len = 1 ∧ c = 123 then some (st.onError, after)
        else if len = 1 ∧ c = 91 then some (st, s)
        else if checkAlign d = .none then
          if onFill ≠ .none then some (st.onAlign onFill, d :: after) else some (st, s)
        else (st.onFill e fill).map fun st => (st.onAlign (checkAlign d), after)

/-- `parse_width`, /repo/include/scn/scan.h:7343-7361. -/
def parseWidth (st : Setter) (s : List Nat) : Option (Setter × List Nat) :=
  match s with
  | [] => none
  | c :: _ =>
    if isDec c then
      (parseSimpleInt s).map fun r =>
        if r.1 ≠ -1 then (st.onWidth r.1.toNat, r.2) else (st.onError, r.2)
    else some (st, s)

/-- `parse_precision`, /repo/include/scn/scan.h:7363-7381. -/
def parsePrecision (st : Setter) (s : List Nat) : Option (Setter × List Nat) :=
  match s with
  | [] => none
  | c :: _ =>
    if isDec c then
      (parseSimpleInt s).map fun r =>
        if r.1 ≠ -1 then (st.onPrecision r.1.toNat, r.2) else (st.onError, r.2)
    else some (st, s)

/-- The handler interface `parse_presentation_set` is a template over,
    /repo/include/scn/scan.h:7383-7493: `on_charset_single`, `on_charset_range` (`none` is a
    violated precondition), `on_charset_inverted`, `on_error`, and `!get_error()`. -/
structure SetHandler (σ : Type) where
  single : σ → Nat → σ
  range : σ → Nat → Nat → Option σ
  inverted : σ → σ
  error : σ → σ
  failed : σ → Bool

/-- `specs_setter` as a handler of character sets, /repo/include/scn/scan.h:7062-7097, 7118-7133. -/
def setterSet : SetHandler Setter :=
  ⟨Setter.onCharsetSingle, Setter.onCharsetRange, Setter.onInverted, Setter.onError, Setter.err⟩

/-- `parse_presentation_set_code_point`, /repo/include/scn/scan.h:7383-7405: the state, the code
    point (`none` if invalid), the position. -/
def setCodePoint {σ : Type} (H : SetHandler σ) (e : Enc) (st : σ) (s : List Nat) :
    Option (σ × Option Nat × List Nat) :=
  match s with
  | [] => none
  | c :: _ =>
    let len := cpLength e c
    if len = 0 ∨ s.length < len then some (H.error st, none, s)
    else
      match decodeCp e (s.take len) with
      | none => none
      | some cp =>
        if cp ≥ invalidCp then some (H.error st, none, s) else some (st, some cp, s.drop len)

/-- `parse_presentation_set_literal`, /repo/include/scn/scan.h:7407-7440. -/
def setLiteral {σ : Type} (H : SetHandler σ) (e : Enc) (st : σ) (s : List Nat) :
    Option (σ × List Nat) :=
  match setCodePoint H e st s with
  | none => none
  | some (st, none, s) => some (st, s)
  | some (st, some first, s) =>
    match s with
    | 45 :: d :: rest =>
      if d ≠ 93 then
        match setCodePoint H e st (d :: rest) with
        | none => none
        | some (st, none, s) => some (st, s)
        | some (st, some second, s) =>
          if second < first then some (H.error st, s)
          else (H.range st first (second + 1)).map fun st => (st, s)
      else some (H.single st first, s)
    | _ => some (H.single st first, s)

/-- The `while` loop of `parse_presentation_set`, /repo/include/scn/scan.h:7478-7488, its
    iterations bounded by the first argument: the state, whether the closing bracket was found,
    and the position. -/
def setLoop {σ : Type} (H : SetHandler σ) (e : Enc) : Nat → σ → List Nat → Option (σ × Bool × List Nat)
  | _, st, [] => some (st, false, [])
  | 0, _, _ :: _ => none
  | n + 1, st, c :: cs =>
    if H.failed st then some (st, false, c :: cs)
    else if c = 93 then some (st, true, cs)
    else
      match setLiteral H e st (c :: cs) with
      | none => none
      | some (st, s) => setLoop H e n st s

/-- The end of `parse_presentation_set`, /repo/include/scn/scan.h:7480-7493: the view from the
    opening bracket (`s`), or an error when no closing bracket was found. -/
def setFinish {σ : Type} (H : SetHandler σ) (s : List Nat) :
    Option (σ × Bool × List Nat) → Option (σ × List Nat × List Nat)
  | none => none
  | some (st, true, rest) => some (st, s.take (s.length - rest.length), rest)
  | some (st, false, rest) => some (H.error st, [], rest)

/-- `parse_presentation_set`, /repo/include/scn/scan.h:7442-7493: the state, the view (empty on
    error) and the position. -/
def parseSet {σ : Type} (H : SetHandler σ) (e : Enc) (st : σ) (s : List Nat) :
    Option (σ × List Nat × List Nat) :=
  match s with
  | 91 :: s1 =>
    match s1 with
    | [] => some (H.error st, [], [])
    | 94 :: s2 =>
      let st := H.inverted st
      match s2 with
      | [] => some (H.error st, [], [])
      | 93 :: s3 => setFinish H s (setLoop H e (s3.length + 1) (H.single st 93) s3)
      | s2 => setFinish H s (setLoop H e (s2.length + 1) st s2)
    | 93 :: s2 => some (st, [91, 93], s2)
    | s1 => setFinish H s (setLoop H e (s1.length + 1) st s1)
  | _ => none

/-- Build configuration of the regex backend: `SCN_REGEX_BACKEND == SCN_REGEX_BACKEND_STD`,
    `SCN_HAS_STD_REGEX_MULTILINE` and `SCN_REGEX_SUPPORTS_WIDE_STRINGS`,
    /repo/include/scn/scan.h:7504, 7567-7580. -/
structure RegexCfg where
  std : Bool
  stdMultiline : Bool
  wide : Bool
  deriving DecidableEq, Repr

/-- The loop finding the closing slash, /repo/include/scn/scan.h:7518-7528: `prev` is
    `*(begin - 1)`; the result is whether an escaped slash was seen, and the position. -/
def regexEnd (prev : Nat) : List Nat → Bool × List Nat
  | [] => (false, [])
  | c :: cs =>
    if c = 47 then
      if prev ≠ 92 then (false, c :: cs)
      else let r := regexEnd c cs; (true, r.2)
    else regexEnd c cs

/-- The bit of a regex flag letter, /repo/include/scn/scan.h:7549-7553. -/
def regexFlag (c : Nat) : Option Nat :=
  if c = 109 then some 1 else if c = 115 then some 2 else if c = 105 then some 4
  else if c = 110 then some 8 else none

/-- The flag loop, /repo/include/scn/scan.h:7554-7589. The Boolean says whether the function
    returned from inside the loop. -/
def regexFlags (cfg : RegexCfg) : Setter → Nat → List Nat → Setter × Nat × Bool × List Nat
  | st, f, [] => (st, f, false, [])
  | st, f, c :: cs =>
    if c = 125 then (st, f, false, c :: cs)
    else
      match regexFlag c with
      | none => (st.onError, f, true, c :: cs)
      | some b =>
        if f &&& b ≠ 0 then (st.onError, f, true, c :: cs)
        else
          let bad := cfg.std && (c == 115 || (c == 109 && !cfg.stdMultiline))
          regexFlags cfg (if bad then st.onError else st) (f ||| b) cs

/-- `parse_presentation_regex`, /repo/include/scn/scan.h:7495-7602 (regex support enabled). -/
def parseRegex (cfg : RegexCfg) (e : Enc) (st : Setter) (s : List Nat) : Option (Setter × List Nat) :=
  match s with
  | 47 :: s1 =>
    if e ≠ .utf8 ∧ cfg.wide = false then some (st.onError, s)
    else
      match s1 with
      | [] => some (st.onError, [])
      | _ =>
        let r := regexEnd 47 s1
        let st := st.onType (if r.1 then .regexEscaped else .regex)
        match r.2 with
        | [] => some (st.onError, [])
        | slash :: s2 =>
          let pattern := s1.take (s1.length - r.2.length)
          if pattern = [] then some (st.onError, slash :: s2)
          else
            let st := st.onRegexPattern pattern
            match s2 with
            | [] => some (st.onError, [])
            | _ =>
              match regexFlags cfg st 0 s2 with
              | (st, _, true, p) => some (st, p)
              | (st, f, false, p) =>
                let st := st.onRegexFlags f
                if p = [] then some (st.onError, []) else some (st, p)
  | _ => none

/-- The lambda `do_presentation`, /repo/include/scn/scan.h:7609-7631. -/
def parsePresentation (cfg : RegexCfg) (e : Enc) (st : Setter) (s : List Nat) :
    Option (Setter × List Nat) :=
  match s with
  | [] => none
  | c :: cs =>
    if c = 91 then
      match parseSet setterSet e st s with
      | none => none
      | some (st, view, rest) =>
        if view.length ≤ 2 then some (st.onError, rest) else some (st.onSetString view, rest)
    else if c = 47 then parseRegex cfg e st s
    else
      match parsePresType c with
      | Option.none => Option.none
      | some .none => some (st.onError, cs)
      | some t => some (st.onType t, cs)

/-- `begin == end` test with "Unexpected end of format string",
    /repo/include/scn/scan.h:7638-7683: continue with `k` unless at the end. -/
def unlessEnd (r : Option (Setter × List Nat)) (k : Setter → List Nat → Option (Setter × List Nat)) :
    Option (Setter × List Nat) :=
  match r with
  | none => none
  | some (st, []) => some (st.onError, [])
  | some (st, s) => k st s

/-- `parse_format_specs`, /repo/include/scn/scan.h:7604-7686. -/
def parseSpecs (cfg : RegexCfg) (e : Enc) (ty : ArgTy) (st : Setter) (s : List Nat) :
    Option (Setter × List Nat) :=
  let long :=
    unlessEnd (some (st, s)) fun st s =>
    unlessEnd (parseAlign e st s) fun st s =>
    unlessEnd (parseWidth st s) fun st s =>
    unlessEnd (match s with
      | 46 :: s1 => unlessEnd (some (st, s1)) fun st s => unlessEnd (parsePrecision st s) fun st s => some (st, s)
      | s => some (st, s)) fun st s =>
    unlessEnd (match s with
      | 76 :: s1 => (st.onLocalized ty).map fun st => (st, s1)
      | s => some (st, s)) fun st s =>
    unlessEnd (match s with
      | 125 :: _ => some (st, s)
      | s => parsePresentation cfg e st s) fun st s => some (st, s)
  match s with
  | c :: 125 :: _ => if isAsciiLetter c ∧ c ≠ 76 then parsePresentation cfg e st s else long
  | _ => long

/-- The callbacks of a format string handler,
    /repo/include/scn/scan.h:7688-7799 (`none` is undefined behaviour). -/
structure Handler (σ : Type) where
  onLiteral : σ → List Nat → Option σ
  onAutoId : σ → σ × Nat
  onManualId : σ → Nat → σ × Nat
  onField : σ → Nat → List Nat → Option σ
  onSpecs : σ → Nat → List Nat → Option (σ × List Nat)
  onError : σ → σ
  hasError : σ → Bool

/-- `parse_arg_id` and `do_parse_arg_id`, /repo/include/scn/scan.h:7159-7201, with the `id_adapter`
    of 7693-7711 (whose `arg_id` starts at 0): state, id, position. -/
def parseArgId {σ : Type} (H : Handler σ) (st : σ) (s : List Nat) : Option (σ × Nat × List Nat) :=
  match s with
  | [] => none
  | c :: cs =>
    if c = 125 ∨ c = 58 then
      let r := H.onAutoId st
      some (r.1, r.2, s)
    else if ¬ isDec c then some (H.onError st, 0, s)
    else
      let p : Int × List Nat := if c ≠ 48 then simpleIntLoop 0 s else (0, cs)
      match p.2 with
      | [] => some (H.onError st, 0, [])
      | d :: _ =>
        if d ≠ 125 ∧ d ≠ 58 then some (H.onError st, 0, p.2)
        else
          let r := H.onManualId st p.1.toNat
          some (r.1, r.2, p.2)

/-- `parse_replacement_field`, /repo/include/scn/scan.h:7688-7755; `s` starts after the opening
    brace. -/
def parseField {σ : Type} (H : Handler σ) (st : σ) (s : List Nat) : Option (σ × List Nat) :=
  match s with
  | [] => some (H.onError st, [])
  | 125 :: rest =>
    let r := H.onAutoId st
    (H.onField r.1 r.2 s).map fun st => (st, rest)
  | 123 :: rest => (H.onLiteral st [123]).map fun st => (st, rest)
  | _ =>
    match parseArgId H st s with
    | none => none
    | some (st, id, p) =>
      match p with
      | [] => some (H.onError st, [])
      | 125 :: rest => (H.onField st id p).map fun st => (st, rest)
      | [58] => some (H.onError st, p)
      | 58 :: q =>
        match H.onSpecs st id q with
        | none => none
        | some (st, p) =>
          match p with
          | 125 :: rest => some (st, rest)
          | p => some (H.onError st, p)
      | p => some (H.onError st, p)

/-- Is the unit a brace. /repo/include/scn/scan.h:7769, 7777. -/
def isBrace (c : Nat) : Bool := c == 123 || c == 125

/-- The loop of `parse_format_string_impl`, /repo/include/scn/scan.h:7757-7789. One step handles the
    text up to the next brace (the C++ loop advances one unit at a time until then). The first
    argument bounds the number of steps; `none` if it were exhausted. -/
def parseLoop {σ : Type} (H : Handler σ) : Nat → σ → List Nat → Option σ
  | 0, _, _ => none
  | n + 1, st, s =>
    let lit := s.takeWhile (fun c => ! isBrace c)
    match s.dropWhile (fun c => ! isBrace c) with
    | [] => H.onLiteral st lit
    | c :: cs =>
      if c = 123 then
        match H.onLiteral st lit with
        | none => none
        | some st =>
          match parseField H st cs with
          | none => none
          | some (st, s) => if H.hasError st then some st else parseLoop H n st s
      else
        match cs with
        | 125 :: rest =>
          match H.onLiteral st (lit ++ [125]) with
          | none => none
          | some st => parseLoop H n st rest
        | _ => some (H.onError st)

end Scn
