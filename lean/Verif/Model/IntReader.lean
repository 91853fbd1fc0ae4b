import Verif.Model.IntParse
/-
Model of the integer reader: sign, base prefix, digit collection and value,
/repo/src/scn/impl.h:3256-3475 and 3527-3658, with the string matching helpers
/repo/src/scn/impl.h:2242-2395.
-/
namespace Scn

/-- The kind of source range a reader is instantiated for: is `CharT` `char`, is the range
    contiguous (`if constexpr (ranges::contiguous_range<Range>)`, e.g. /repo/src/scn/impl.h:2327-2366). -/
structure Src where
  narrow : Bool
  contiguous : Bool
  deriving DecidableEq, Repr

/-- `fast_streq_nocase` on equally long byte strings, /repo/src/scn/impl.h:2318-2325. -/
def runningDiff : List Nat → List Nat → Nat
  | a :: as, b :: bs => (a ^^^ b) ||| runningDiff as bs
  | _, _ => 0

/-- `fast_streq_nocase`, /repo/src/scn/impl.h:2318-2325. -/
def fastStreqNocase (a b : List Nat) : Bool := runningDiff a b == 0 || runningDiff a b == 32

/-- `ascii_tolower` in `read_matching_string_classic_nocase`,
    /repo/src/scn/impl.h:2344-2350. -/
def asciiTolower (c : Nat) : Nat := if c < 65 ∨ c > 90 then c else c + 32

/-- `read_matching_string_classic_nocase`, /repo/src/scn/impl.h:2327-2366. `none` is any
    parse error (end of input or mismatch); otherwise the remaining source. -/
def readMatchingNocase (k : Src) (s str : List Nat) : Option (List Nat) :=
  if s.length < str.length then none
  else if k.contiguous && k.narrow then
    if fastStreqNocase (s.take str.length) str then some (s.drop str.length) else none
  else
    if (s.take str.length).map asciiTolower = str then some (s.drop str.length) else none

/-- `parse_numeric_sign` with `read_one_of_code_unit(range, "+-")`,
    /repo/src/scn/impl.h:3254-3271 and 2368-2384. `none` is end of input; the sign is
    `none` for `default_sign`. -/
def parseNumericSign : List Nat → Option (List Nat × Option Sign)
  | [] => none
  | c :: cs =>
    if c = 45 then some (cs, some .minus)
    else if c = 43 then some (cs, some .plus)
    else some (c :: cs, none)

/-- `parse_integer_bin_base_prefix`, /repo/src/scn/impl.h:3291-3296. -/
def binPrefix (k : Src) (s : List Nat) : Option (List Nat) := readMatchingNocase k s [48, 98]
/-- `parse_integer_hex_base_prefix`, /repo/src/scn/impl.h:3298-3303. -/
def hexPrefix (k : Src) (s : List Nat) : Option (List Nat) := readMatchingNocase k s [48, 120]
/-- `parse_integer_oct_base_prefix`, /repo/src/scn/impl.h:3305-3319: the flag is
    `zero_parsed`. -/
def octPrefix (k : Src) (s : List Nat) : Option (List Nat × Bool) :=
  match readMatchingNocase k s [48, 111] with
  | some r => some (r, false)
  | none =>
    match s with
    | c :: cs => if c = 48 then some (cs, true) else none
    | [] => none

/-- `parse_integer_base_prefix_for_detection`, /repo/src/scn/impl.h:3321-3338. -/
def basePrefixDetect (k : Src) (s : List Nat) : List Nat × Nat × Bool :=
  match hexPrefix k s with
  | some r => (r, 16, false)
  | none =>
    match binPrefix k s with
    | some r => (r, 2, false)
    | none =>
      match octPrefix k s with
      | some (r, z) => (r, 8, z)
      | none => (s, 10, false)

/-- `parse_integer_base_prefix`, /repo/src/scn/impl.h:3340-3371. -/
def basePrefix (k : Src) (s : List Nat) (base : Nat) : List Nat × Nat × Bool :=
  if base = 2 then ((binPrefix k s).getD s, 2, false)
  else if base = 8 then
    match octPrefix k s with
    | some (r, z) => (r, 8, z)
    | none => (s, 8, false)
  else if base = 16 then ((hexPrefix k s).getD s, 16, false)
  else if base = 0 then basePrefixDetect k s
  else (s, base, false)

/-- `parse_integer_prefix_result`, /repo/src/scn/impl.h:3283-3289. -/
structure PrefixResult where
  rest : List Nat
  base : Nat
  sign : Sign
  isZero : Bool
  deriving DecidableEq, Repr

/-- "end or not a digit below `n`", the tests at /repo/src/scn/impl.h:3385-3386 and
    3394-3395. -/
def noDigitAt (s : List Nat) (n : Nat) : Bool :=
  match s with
  | [] => true
  | c :: _ => charToInt c ≥ n

/-- `parse_integer_prefix`, /repo/src/scn/impl.h:3373-3405; `none` is end of input. -/
def parseIntegerPrefix (k : Src) (s : List Nat) (base : Nat) : Option PrefixResult :=
  match parseNumericSign s with
  | none => none
  | some (afterSign, sign) =>
    let (digits, parsedBase, zero) := basePrefix k afterSign base
    let sg := sign.getD .plus
    if zero then
      if noDigitAt digits 8 then some ⟨afterSign, parsedBase, sg, true⟩
      else some ⟨digits, parsedBase, sg, false⟩
    else if noDigitAt digits parsedBase then some ⟨afterSign, parsedBase, sg, false⟩
    else some ⟨digits, parsedBase, sg, false⟩

/-- `parse_integer_digits_without_thsep`, /repo/src/scn/impl.h:3407-3430: the buffer handed
    to `parse_integer_value` (everything on contiguous ranges, the maximal digit run
    otherwise). -/
def digitsWithoutThsep (k : Src) (s : List Nat) (base : Nat) : Res (List Nat) :=
  if k.contiguous then
    match s with
    | [] => .err .invalidScannedValue
    | _ => .ok s
  else
    match s.takeWhile (fun c => charToInt c < base) with
    | [] => .err .invalidScannedValue
    | ds => .ok ds

/-- `parse_integer_digits_with_thsep`, /repo/src/scn/impl.h:3432-3464: the rest, the digits
    without separators and the number of separators. -/
def thsepLoop (sep base : Nat) : List Nat → List Nat × List Nat × Nat
  | [] => ([], [], 0)
  | c :: cs =>
    if c = sep then
      let r := thsepLoop sep base cs
      (r.1, r.2.1, r.2.2 + 1)
    else if charToInt c ≥ base then (c :: cs, [], 0)
    else
      let r := thsepLoop sep base cs
      (r.1, c :: r.2.1, r.2.2)

/-- Integer presentation relevant to `read_specs`: the base requested by the format
    specifiers (0 = detect), whether it is `u`, and the thousands separator when `L` is
    given. /repo/include/scn/scan.h:6985-7009 (`get_base`),
    /repo/src/scn/impl.h:3584-3650. -/
structure IntSpecs where
  base : Nat
  unsignedOnly : Bool
  thsep : Option Nat
  deriving DecidableEq, Repr

/-- `reader_impl_for_int::read_default_with_base`, /repo/src/scn/impl.h:3539-3573, and
    `read_specs`, 3584-3656 (they share their structure; `read_default` is base 10, not
    `u`, not localized). Returns the value and the remaining source: the position is the
    start of the digits advanced by the number of digits read (plus separators). -/
def readInt (k : Src) (T : IntTy) (sp : IntSpecs) (s : List Nat) : Res (Int × List Nat) :=
  match parseIntegerPrefix k s sp.base with
  | none => .err .endOfInput
  | some p =>
    if p.sign = .minus ∧ (T.signed = false ∨ sp.unsignedOnly = true) then
      .err .invalidScannedValue
    else if p.isZero then .ok (0, p.rest.drop 1)
    else
      match sp.thsep with
      | none =>
        (digitsWithoutThsep k p.rest p.base).bind fun buf =>
          (parseIntegerValue k.narrow T p.sign p.base buf).bind fun r =>
            .ok (r.1, p.rest.drop (buf.length - r.2.length))
      | some sep =>
        let d := thsepLoop sep p.base p.rest
        match d.2.1 with
        | [] => .err .invalidScannedValue
        | ds =>
          (parseIntegerValue k.narrow T p.sign p.base ds).bind fun r =>
            .ok (r.1, p.rest.drop (ds.length - r.2.length + d.2.2))

/-- `read_default` for integers, /repo/src/scn/impl.h:3575-3581. -/
def readIntDefault (k : Src) (T : IntTy) (s : List Nat) : Res (Int × List Nat) :=
  readInt k T ⟨10, false, none⟩ s

end Scn
