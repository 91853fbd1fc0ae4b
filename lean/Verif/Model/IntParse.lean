import Verif.Model.Basic
/-
Model of the integer value parser, /repo/src/scn/impl.cpp:935-1240 and the digit table of
/repo/src/scn/impl.h:3218-3254.

64-bit unsigned arithmetic is `Nat` arithmetic with an explicit `% 2^64`.
Pointers are the list of remaining code units.
-/
namespace Scn

/-- `char_to_int_table`, /repo/src/scn/impl.h:3218-3236 (copied entry by entry). -/
def charToIntTable : List Nat :=
  [255, 255, 255, 255, 255, 255, 255, 255, 255, 255, 255, 255, 255, 255, 255,
   255, 255, 255, 255, 255, 255, 255, 255, 255, 255, 255, 255, 255, 255, 255,
   255, 255, 255, 255, 255, 255, 255, 255, 255, 255, 255, 255, 255, 255, 255,
   255, 255, 255, 0,   1,   2,   3,   4,   5,   6,   7,   8,   9,   255, 255,
   255, 255, 255, 255, 255, 10,  11,  12,  13,  14,  15,  16,  17,  18,  19,
   20,  21,  22,  23,  24,  25,  26,  27,  28,  29,  30,  31,  32,  33,  34,
   35,  255, 255, 255, 255, 255, 255, 10,  11,  12,  13,  14,  15,  16,  17,
   18,  19,  20,  21,  22,  23,  24,  25,  26,  27,  28,  29,  30,  31,  32,
   33,  34,  35,  255, 255, 255, 255, 255, 255, 255, 255, 255, 255, 255, 255,
   255, 255, 255, 255, 255, 255, 255, 255, 255, 255, 255, 255, 255, 255, 255,
   255, 255, 255, 255, 255, 255, 255, 255, 255, 255, 255, 255, 255, 255, 255,
   255, 255, 255, 255, 255, 255, 255, 255, 255, 255, 255, 255, 255, 255, 255,
   255, 255, 255, 255, 255, 255, 255, 255, 255, 255, 255, 255, 255, 255, 255,
   255, 255, 255, 255, 255, 255, 255, 255, 255, 255, 255, 255, 255, 255, 255,
   255, 255, 255, 255, 255, 255, 255, 255, 255, 255, 255, 255, 255, 255, 255,
   255, 255, 255, 255, 255, 255, 255, 255, 255, 255, 255, 255, 255, 255, 255,
   255, 255, 255, 255, 255, 255, 255, 255, 255, 255, 255, 255, 255, 255, 255,
   255]

/-- `char_to_int` for `char` and `wchar_t`, /repo/src/scn/impl.h:3238-3254. A `char` is
    always `≤ 255`; a wide code unit above 255 is not a digit. -/
def charToInt (c : Nat) : Nat := charToIntTable.getD c 255

/-- An integer destination type (the template parameter `T` of /repo/src/scn/impl.cpp:1051-1300): its
    width and signedness. -/
structure IntTy where
  bits : Nat
  signed : Bool
  deriving DecidableEq, Repr

/-- The integer types the library instantiates (LP64):
    /repo/src/scn/impl.cpp:1242-1300. -/
def IntTy.Std (T : IntTy) : Prop :=
  T.bits = 8 ∨ T.bits = 16 ∨ T.bits = 32 ∨ T.bits = 64

instance (T : IntTy) : Decidable T.Std := by unfold IntTy.Std; infer_instance

/-- `std::numeric_limits<T>::max()`, as used at /repo/src/scn/impl.cpp:1064-1087. -/
def IntTy.max (T : IntTy) : Nat :=
  if T.signed then 2 ^ (T.bits - 1) - 1 else 2 ^ T.bits - 1

/-- `static_cast<T>` of an integer: reduction modulo `2^bits` into the range of `T`;
    as used at /repo/src/scn/impl.cpp:1075-1088. -/
def IntTy.cast (T : IntTy) (x : Int) : Int :=
  if T.signed then x.bmod (2 ^ T.bits) else x % (2 ^ T.bits : Nat)

/-- `get_eight_digits_word` on a little-endian machine: eight bytes as a 64-bit word,
    /repo/src/scn/impl.cpp:939-947. -/
def word8 : List Nat → Nat
  | [] => 0
  | b :: bs => b + 256 * word8 bs

/-- `parse_eight_decimal_digits_unrolled_fast`, /repo/src/scn/impl.cpp:949-958. -/
def parseEight (word : Nat) : Nat :=
  let mask := 0x000000FF000000FF
  let mul1 := 0x000F424000000064
  let mul2 := 0x0000271000000001
  let w1 := (word + (2 ^ 64 - 0x3030303030303030)) % 2 ^ 64
  let w2 := (w1 * 10 + (w1 >>> 8)) % 2 ^ 64
  let w3 := (((w2 &&& mask) * mul1 + ((w2 >>> 16) &&& mask) * mul2) % 2 ^ 64) >>> 32
  w3 % 2 ^ 32

/-- `is_word_made_of_eight_decimal_digits_fast`, /repo/src/scn/impl.cpp:960-964. -/
def isEightDigits (word : Nat) : Bool :=
  ((((word + 0x4646464646464646) % 2 ^ 64) |||
      ((word + (2 ^ 64 - 0x3030303030303030)) % 2 ^ 64)) &&& 0x8080808080808080) == 0

/-- `loop_parse_if_eight_decimal_digits`, /repo/src/scn/impl.cpp:966-977: returns the new
    accumulator and the remaining input. -/
def loopEight (s : List Nat) (val : Nat) : Nat × List Nat :=
  if h : 8 ≤ s.length ∧ isEightDigits (word8 (s.take 8)) = true then
    loopEight (s.drop 8) ((val * 100000000 + parseEight (word8 (s.take 8))) % 2 ^ 64)
  else (val, s)
termination_by s.length
decreasing_by simp only [List.length_drop]; omega

/-- The per-digit loop of /repo/src/scn/impl.cpp:985-992 (base 10) and 1122-1130
    (any base): accumulate while the next unit is a digit of the base. -/
def digitLoop (base : Nat) : List Nat → Nat → Nat × List Nat
  | [], val => (val, [])
  | c :: cs, val =>
    if charToInt c ≥ base then (val, c :: cs)
    else digitLoop base cs ((base * val + charToInt c) % 2 ^ 64)

/-- `parse_decimal_integer_fast_impl`, /repo/src/scn/impl.cpp:979-995. -/
def parseDecimalFastImpl (s : List Nat) (val : Nat) : Nat × List Nat :=
  let r := loopEight s val
  digitLoop 10 r.2 r.1

/-- `maxdigits_u64_table`, /repo/src/scn/impl.cpp:997-999. -/
def maxdigitsTable : List Nat :=
  [0,  0,  64, 41, 32, 28, 25, 23, 22, 21, 20, 19, 18, 18, 17, 17, 16, 16, 16,
   16, 15, 15, 15, 15, 14, 14, 14, 14, 14, 14, 14, 13, 13, 13, 13, 13, 13]

/-- `min_safe_u64_table`, /repo/src/scn/impl.cpp:1007-1043. -/
def minSafeTable : List Nat :=
  [0, 0,
   9223372036854775808, 12157665459056928801, 4611686018427387904, 7450580596923828125,
   4738381338321616896, 3909821048582988049, 9223372036854775808, 12157665459056928801,
   10000000000000000000, 5559917313492231481, 2218611106740436992, 8650415919381337933,
   2177953337809371136, 6568408355712890625, 1152921504606846976, 2862423051509815793,
   6746640616477458432, 15181127029874798299, 1638400000000000000, 3243919932521508681,
   6221821273427820544, 11592836324538749809, 876488338465357824, 1490116119384765625,
   2481152873203736576, 4052555153018976267, 6502111422497947648, 10260628712958602189,
   15943230000000000000, 787662783788549761, 1152921504606846976, 1667889514952984961,
   2386420683693101056, 3379220508056640625, 4738381338321616896]

/-- `maxdigits_u64`, /repo/src/scn/impl.cpp:1001-1005. -/
def maxdigits (base : Nat) : Nat := maxdigitsTable.getD base 0

/-- `min_safe_u64`, /repo/src/scn/impl.cpp:1045-1049. -/
def minSafe (base : Nat) : Nat := minSafeTable.getD base 0

/-- `check_integer_overflow<T>`, /repo/src/scn/impl.cpp:1051-1073. The `if constexpr` on
    `uint64_t` is kept; the addition of `is_negative` is 64-bit. -/
def checkOverflow (T : IntTy) (val digits base : Nat) (neg : Bool) : Bool :=
  if digits > maxdigits base then true
  else if digits = maxdigits base ∧ val < minSafe base then true
  else if ¬ (T.bits = 64 ∧ T.signed = false) ∧
      val > (T.max + (if neg then 1 else 0)) % 2 ^ 64 then true
  else false

/-- `store_result<T>`, /repo/src/scn/impl.cpp:1075-1088. The subtraction
    `u64val - max` is 64-bit unsigned, its cast to `T` wraps; the outer subtraction is
    done in (at least) `int` and its result cast to `T`. -/
def storeResult (T : IntTy) (v : Nat) (neg : Bool) : Int :=
  if neg then
    T.cast (-(T.max : Int) - T.cast ((((v : Int) - T.max) % (2 ^ 64 : Nat))))
  else T.cast v

/-- The error of an overflowing numeral, /repo/src/scn/impl.cpp:1102-1105. -/
def overflowErr (neg : Bool) : Err :=
  if neg then .valueNegativeOverflow else .valuePositiveOverflow

/-- `parse_decimal_integer_fast<T>`, /repo/src/scn/impl.cpp:1090-1110. -/
def parseDecimalFast (T : IntTy) (neg : Bool) (s : List Nat) : Res (Int × List Nat) :=
  let r := parseDecimalFastImpl s 0
  if checkOverflow T r.1 (s.length - r.2.length) 10 neg then .err (overflowErr neg)
  else .ok (storeResult T r.1 neg, r.2)

/-- `parse_regular_integer<CharT, T>`, /repo/src/scn/impl.cpp:1112-1143. -/
def parseRegular (T : IntTy) (base : Nat) (neg : Bool) (s : List Nat) :
    Res (Int × List Nat) :=
  let r := digitLoop base s 0
  if checkOverflow T r.1 (s.length - r.2.length) base neg then .err (overflowErr neg)
  else .ok (storeResult T r.1 neg, r.2)

/-- `sign_type` after defaulting, /repo/src/scn/impl.h:3216. -/
inductive Sign where
  | minus
  | plus
  deriving DecidableEq, Repr

/-- `parse_integer_value<CharT, T>`, /repo/src/scn/impl.cpp:1146-1194. `narrow` says
    whether `CharT` is `char` (which enables the fast path for base 10). The
    `SCN_EXPECT`s of lines 1153-1156 are explicit; a base outside 2..36 would index the
    tables out of bounds (lines 1003, 1047). -/
def parseIntegerValue (narrow : Bool) (T : IntTy) (sign : Sign) (base : Nat)
    (s : List Nat) : Res (Int × List Nat) :=
  match s with
  | [] => .ub
  | c :: _ =>
    if T.signed = false ∧ sign = .minus then .ub
    else if base < 2 ∨ 36 < base then .ub
    else if charToInt c ≥ base then .err .invalidScannedValue
    else
      let start := s.dropWhile (· = 48)
      match start with
      | [] => .ok (0, [])
      | d :: _ =>
        if charToInt d ≥ base then .ok (0, start)
        else if narrow ∧ base = 10 then parseDecimalFast T (sign = .minus) start
        else parseRegular T base (sign = .minus) start

/-- The 8-byte loop of `parse_integer_value_exhaustive_valid`,
    /repo/src/scn/impl.cpp:1215-1222; `none` when the `SCN_EXPECT` at 1216 fails. -/
def loopEightValid (s : List Nat) (val : Nat) : Option (Nat × List Nat) :=
  if h : 8 ≤ s.length then
    if isEightDigits (word8 (s.take 8)) then
      loopEightValid (s.drop 8) ((val * 100000000 + parseEight (word8 (s.take 8))) % 2 ^ 64)
    else none
  else some (val, s)
termination_by s.length
decreasing_by simp only [List.length_drop]; omega

/-- The tail loop of `parse_integer_value_exhaustive_valid`,
    /repo/src/scn/impl.cpp:1224-1229; `none` when the `SCN_EXPECT` at 1226 fails. -/
def tailValid : List Nat → Nat → Option Nat
  | [], val => some val
  | c :: cs, val =>
    if charToInt c < 10 then tailValid cs ((10 * val + charToInt c) % 2 ^ 64) else none

/-- `parse_integer_value_exhaustive_valid<T>`, /repo/src/scn/impl.cpp:1196-1240. Every
    violated `SCN_EXPECT` is `ub`. -/
def parseExhaustiveValid (T : IntTy) (source : List Nat) : Res Int :=
  match source with
  | [] => .ub
  | c0 :: _ =>
    let neg : Bool := T.signed && (c0 == 45)
    let s := if neg then source.drop 1 else source
    match s with
    | [] => .ub
    | c :: _ =>
      if charToInt c ≥ 10 then .ub
      else
        match loopEightValid s 0 with
        | none => .ub
        | some (v, r) =>
          match tailValid r v with
          | none => .ub
          | some v' =>
            if checkOverflow T v' s.length 10 neg then .ub
            else .ok (storeResult T v' neg)

end Scn
