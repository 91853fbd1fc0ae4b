import Verif.Model.IntReader
import Verif.Model.Space
import Verif.Model.Format
/-
Model of the floating-point reader, /repo/src/scn/impl.h:3664-4285, and of the dispatch to the conversions,
/repo/src/scn/impl.cpp:340-913.

The conversions themselves (`fast_float::from_chars`, `strtod` and its relatives) and the type of floating-point numbers are
parameters (`FloatConv`). `std::from_chars` is never used: the condition for it compares a character type with
`has_charconv_for` (/repo/src/scn/impl.cpp:696), which is always false.
-/
namespace Scn

/-- `float_reader_base::options_type` without `allow_thsep`, /repo/src/scn/impl.h:3665-3670; `allow_thsep` is whether
    `FloatLoc.sep` is set. -/
structure FloatOpts where
  hex : Bool
  sci : Bool
  fixed : Bool
  deriving DecidableEq, Repr

/-- `localized_number_formatting_options`, /repo/src/scn/impl.h:1868-1890: the thousands separator, 0 for none, and the
    decimal point. The grouping is never used. -/
structure FloatLoc where
  sep : Nat
  point : Nat
  deriving DecidableEq, Repr

/-- The options without a locale, /repo/src/scn/impl.h:1868-1890. -/
def FloatLoc.classic : FloatLoc := ⟨0, 46⟩

/-- `float_reader_base::float_kind`, /repo/src/scn/impl.h:3672-3683. -/
inductive FloatKind where
  | generic | fixed | scientific | hexWithout | hexWith | infShort | infLong | nanSimple | nanPayload
  deriving DecidableEq, Repr

/-- The characters that `read_dec_digits` and `read_hex_digits` take, /repo/src/scn/impl.h:3802-3835. -/
def floatDigit (loc : FloatLoc) (base : Nat) (thsep : Bool) (c : Nat) : Bool :=
  charToInt c < base || (thsep && loc.sep != 0 && c == loc.sep)

/-- `read_exponent`, /repo/src/scn/impl.h:3917-3945: the exponent that is read, empty if there is none. -/
def readExponent (letters : List Nat) : List Nat → List Nat
  | [] => []
  | c :: cs =>
    if c ∈ letters then
      let sg := match parseNumericSign cs with
        | some (_, some _) => cs.take 1
        | _ => []
      let ds := (cs.drop sg.length).takeWhile fun d => charToInt d < 10
      if ds = [] then [] else c :: (sg ++ ds)
    else []

/-- The decimal point that is read, empty if there is none, /repo/src/scn/impl.h:3969-3972, 4007-4010. -/
def readPoint (loc : FloatLoc) : List Nat → List Nat
  | [] => []
  | c :: _ => if c = loc.point then [c] else []

/-- The digits, the point and the digits after it, as read by `read_hexfloat`, /repo/src/scn/impl.h:3947-3986, and
    `read_regular_float`, 3993-4025: `none` if the digits before the point are missing. -/
def readSignificand (loc : FloatLoc) (base : Nat) (s : List Nat) : Option (List Nat) :=
  match s.takeWhile (floatDigit loc base true) with
  | [] => none
  | i =>
    let t := i ++ readPoint loc (s.drop i.length)
    some (t ++ (s.drop t.length).takeWhile (floatDigit loc base false))

/-- `read_hexfloat`, /repo/src/scn/impl.h:3947-3991: the text that is read. -/
def readHexfloat (loc : FloatLoc) (s : List Nat) : Res (List Nat) :=
  match readSignificand loc 16 s with
  | none => .err .invalidScannedValue
  | some t => .ok (t ++ readExponent [112, 80] (s.drop t.length))

/-- `read_regular_float`, /repo/src/scn/impl.h:3993-4045: the text that is read, and its kind. -/
def readRegularFloat (loc : FloatLoc) (o : FloatOpts) (s : List Nat) : Res (FloatKind × List Nat) :=
  match readSignificand loc 10 s with
  | none => .err .invalidScannedValue
  | some t =>
    let x := if o.sci then readExponent [101, 69] (s.drop t.length) else []
    if o.sci && !o.fixed && x.isEmpty then .err .invalidScannedValue
    else .ok (if x.isEmpty then .fixed else .scientific, t ++ x)

/-- `read_inf`, /repo/src/scn/impl.h:3844-3866. -/
def readInf (k : Src) (s : List Nat) : Option FloatKind :=
  (readMatchingNocase k s [105, 110, 102]).map fun r =>
    if (readMatchingNocase k r [105, 110, 105, 116, 121]).isSome then .infLong else .infShort

/-- The characters of a NaN payload, /repo/src/scn/impl.h:3897-3901. -/
def isPayloadChar (c : Nat) : Bool := (48 ≤ c && c ≤ 57) || (97 ≤ c && c ≤ 122) || (65 ≤ c && c ≤ 90) || c == 95

/-- `read_nan`, /repo/src/scn/impl.h:3868-3915: `none` if the text does not begin with `nan`; else the payload, if there is
    one. -/
def readNan (k : Src) (s : List Nat) : Option (Res (Option (List Nat))) :=
  (readMatchingNocase k s [110, 97, 110]).map fun r =>
    match r with
    | [] => .ok none
    | c :: r =>
      if c = 40 then
        match r.drop (r.takeWhile isPayloadChar).length with
        | 41 :: _ => .ok (some (r.takeWhile isPayloadChar))
        | _ => .err .invalidScannedValue
      else .ok none

/-- What `read_source_impl` has found: `m_kind`, the text for `m_buffer`, and `m_nan_payload_buffer`. /repo/src/scn/impl.h:3755-3799, 4134-4139 -/
structure FloatBody where
  kind : FloatKind
  text : List Nat := []
  payload : List Nat := []
  deriving DecidableEq, Repr

/-- `read_regular` as given to `do_read_source_impl`, /repo/src/scn/impl.h:3755-3788: with a contiguous source and no
    locale, everything is read. -/
def floatRegular (k : Src) (loc : FloatLoc) (o : FloatOpts) (s : List Nat) : Res FloatBody :=
  if k.contiguous && loc.sep == 0 && loc.point == 46 then
    if s = [] then .err .invalidScannedValue else .ok { kind := .generic, text := s }
  else (readRegularFloat loc o s).map fun r => { kind := r.1, text := r.2 }

/-- `read_hex` as given to `do_read_source_impl`, /repo/src/scn/impl.h:3755-3788. The first argument is the prefix that was
    read. -/
def floatHex (k : Src) (loc : FloatLoc) (kind : FloatKind) (pre s : List Nat) : Res FloatBody :=
  if k.contiguous && loc.sep == 0 && loc.point == 46 then
    if pre ++ s = [] then .err .invalidScannedValue else .ok { kind, text := pre ++ s }
  else (readHexfloat loc s).map fun t => { kind, text := pre ++ t }

/-- `do_read_source_impl`, /repo/src/scn/impl.h:4047-4107. -/
def floatBody (k : Src) (loc : FloatLoc) (o : FloatOpts) (s : List Nat) : Res FloatBody :=
  match readInf k s with
  | some kind => .ok { kind }
  | none =>
    match readNan k s with
    | some r => r.map fun
      | none => { kind := .nanSimple }
      | some p => { kind := .nanPayload, payload := p }
    | none =>
      if o.hex && !(o.sci || o.fixed) then
        match hexPrefix k s with
        | some r => floatHex k loc .hexWith (s.take 2) r
        | none => floatHex k loc .hexWithout [] s
      else if !o.hex && (o.sci || o.fixed) then
        (readRegularFloat loc o s).map fun r => { kind := r.1, text := r.2 }
      else
        match hexPrefix k s with
        | some r => floatHex k loc .hexWith (s.take 2) r
        | none => floatRegular k loc o s

/-- `m_buffer` after `handle_separators`: the string that it stores, if it does, what `view()` is, and the number of
    separators. /repo/src/scn/impl.h:1624-1770, 4109-4148 -/
structure FloatBuffer where
  stored : Option (List Nat)
  view : List Nat
  seps : Nat
  deriving DecidableEq, Repr

/-- `handle_separators`, /repo/src/scn/impl.h:4109-4148, on a buffer that stores its text or not. The view is not updated
    when the string is made shorter: after the terminating 0 are the units that were there. -/
def handleSeparators (loc : FloatLoc) (stores : Bool) (text : List Nat) : FloatBuffer :=
  if loc.sep = 0 ∧ loc.point = 46 then ⟨if stores then some text else none, text, 0⟩
  else
    let str := if loc.point ≠ 46 then text.map (fun c => if c = loc.point then 46 else c) else text
    if loc.sep = 0 ∨ loc.sep ∉ str then ⟨some str, str, 0⟩
    else
      let kept := str.filter (· ≠ loc.sep)
      ⟨some kept, kept ++ 0 :: str.drop (kept.length + 1), str.length - kept.length⟩

/-- The result of `fast_float::from_chars`, as used at /repo/src/scn/impl.cpp:759-774: how many units were read. -/
inductive FastRes (V : Type) where
  | invalid
  | outOfRange
  | ok (v : V) (n : Nat)
  deriving Repr

/-- The result of `strtod`, as used at /repo/src/scn/impl.cpp:389-394. -/
structure StrtodRes (V : Type) where
  value : V
  read : Nat
  erange : Bool
  deriving Repr

/-- The conversions and the numbers, /repo/src/scn/impl.cpp:340-788: `fast_float::from_chars` with the flags `fixed` and
    `scientific`, `strtod` (for the type and the character type), the special values and tests, and `std::copysign` with
    a negative number or a positive one. `useFast`: the type is not `long double`. -/
structure FloatConv (V : Type) where
  useFast : Bool
  fast : Bool → Bool → List Nat → FastRes V
  strtod : List Nat → StrtodRes V
  isZero : V → Bool
  isInf : V → Bool
  inf : V
  nan : V
  copysign : Bool → V → V

/-- The text given to `strtod`, `fast_float_fallback` and `strtod_impl`, /repo/src/scn/impl.cpp:378-394, 688-710: what the buffer
    stores, or its view up to whitespace. -/
def strtodInput (e : Enc) (b : FloatBuffer) : Option (List Nat) :=
  match b.stored with
  | some s => some s
  | none => (readUntilSpace e .contiguous b.view).map fun r => b.view.take (b.view.length - r.length)

/-- `strtod_impl::operator()`, /repo/src/scn/impl.cpp:378-470, 545-556. (`check_error` also rejects a prefix `0x` if hexadecimal numbers are not allowed, which cannot be.) -/
def strtodImpl {V : Type} (cv : FloatConv V) (e : Enc) (kind : FloatKind) (b : FloatBuffer) : Res (V × Nat) :=
  match strtodInput e b with
  | none => .ub
  | some t =>
    let r := cv.strtod (if kind = .hexWithout then 48 :: 120 :: t else t)
    if cv.isZero r.value && r.read == 0 then .err .invalidScannedValue
    else if r.erange && cv.isZero r.value then .err .valuePositiveUnderflow
    else if cv.isInf r.value then .err .valuePositiveOverflow
    else .ok (r.value, if kind = .hexWithout ∧ r.read ≥ 2 then r.read - 2 else r.read)

/-- `dispatch_impl` with `fast_float_impl` and `fast_float_fallback`, /repo/src/scn/impl.cpp:688-888: the value and the number
    of units read. -/
def floatDispatch {V : Type} (cv : FloatConv V) (e : Enc) (o : FloatOpts) (kind : FloatKind) (b : FloatBuffer) (payload : List Nat) : Res (V × Nat) :=
  match kind with
  | .infShort => .ok (cv.inf, 3)
  | .infLong => .ok (cv.inf, 8)
  | .nanSimple => .ok (cv.nan, 3)
  | .nanPayload => .ok (cv.nan, 5 + payload.length)
  | _ =>
    match b.view with
    | [] => .ub
    | c :: _ =>
      if kind = .hexWithout ∧ charToInt c ≥ 16 then .err .invalidScannedValue
      else if charToInt c ≥ 10 then .err .invalidScannedValue
      else if cv.useFast then
        if kind = .hexWithout ∨ kind = .hexWith then strtodImpl cv e kind b
        else
          match cv.fast o.fixed o.sci b.view with
          | .invalid => .err .invalidScannedValue
          | .outOfRange => strtodImpl cv e kind b
          | .ok v n => .ok (v, n)
      else strtodImpl cv e kind b

/-- The errors of a negative number, /repo/src/scn/impl.cpp:901-912. -/
def signedErr (sign : Option Sign) : Err → Err
  | .valuePositiveOverflow => if sign = some .minus then .valueNegativeOverflow else .valuePositiveOverflow
  | .valuePositiveUnderflow => if sign = some .minus then .valueNegativeUnderflow else .valuePositiveUnderflow
  | x => x

/-- `reader_impl_for_float::read_impl` with `read_source_impl` and `parse_value`, /repo/src/scn/impl.h:3732-3800, 4229-4244,
    /repo/src/scn/impl.cpp:890-913. `seg` says whether a numeral of a source that is not contiguous lies in more than one
    segment, so that the buffer stores it (/repo/src/scn/impl.h:1733-1751). -/
def readFloat {V : Type} (cv : FloatConv V) (e : Enc) (k : Src) (seg : Bool) (loc : FloatLoc) (o : FloatOpts) (src : List Nat) : Res (V × List Nat) :=
  match parseNumericSign src with
  | none => .err .endOfInput
  | some (s, sign) =>
    (floatBody k loc o s).bind fun body =>
      let b := handleSeparators loc (!k.contiguous && seg) body.text
      match floatDispatch cv e o body.kind b body.payload with
      | .ub => .ub
      | .err x => .err (signedErr sign x)
      | .ok (v, n) => .ok (cv.copysign (decide (sign = some .minus)) v, src.drop (n + (if sign.isSome then 1 else 0) + b.seps))

/-- `get_options`, /repo/src/scn/impl.h:4246-4283: `none` where the code has an assertion that fails. -/
def floatOptions : Pres → Option FloatOpts
  | .floatFixed => some ⟨false, false, true⟩
  | .floatScientific => some ⟨false, true, false⟩
  | .floatHex => some ⟨true, false, false⟩
  | .floatGeneral => some ⟨false, true, true⟩
  | .none => some ⟨true, true, true⟩
  | _ => none

/-- `reader_impl_for_float::read_specs`, and, with the presentation `none` and without a locale, `read_default`,
    /repo/src/scn/impl.h:4181-4221. -/
def readFloatAs {V : Type} (cv : FloatConv V) (e : Enc) (k : Src) (seg : Bool) (loc : FloatLoc) (ty : Pres) (src : List Nat) : Res (V × List Nat) :=
  match floatOptions ty with
  | none => .ub
  | some o => readFloat cv e k seg loc o src

end Scn
