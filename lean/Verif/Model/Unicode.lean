import Verif.Model.Basic
/-
Model of the Unicode helpers: /repo/include/scn/scan.h:4024-4316 and
/repo/src/scn/impl.h:1239-1566.

Code units are `Nat`s (a `char` as `unsigned char`). Functions with `SCN_EXPECT`
preconditions return `Option`; `none` is a violated precondition (undefined behaviour).
-/
namespace Scn

/-- Encoding of a character type by its size: `char` (1 byte), 2-byte `wchar_t`, 4-byte
    `wchar_t`/`char32_t`. /repo/include/scn/scan.h:4065-4082. -/
inductive Enc where
  | utf8
  | utf16
  | utf32
  deriving DecidableEq, Repr

/-- `invalid_code_point`, /repo/include/scn/scan.h:4082. -/
def invalidCp : Nat := 0x110000

/-- The string literal `lengths` including its terminating zero,
    /repo/include/scn/scan.h:4036-4044. -/
def lengthsTable : List Nat :=
  [1, 1, 1, 1, 1, 1, 1, 1, 1, 1, 1, 1, 1, 1, 1, 1,
   0, 0, 0, 0, 0, 0, 0, 0, 2, 2, 2, 2, 3, 3, 4, 0]

/-- `utf8_code_point_length_by_starting_code_unit`, /repo/include/scn/scan.h:4029-4046. -/
def cpLength8 (c : Nat) : Nat := lengthsTable.getD (c >>> 3) 0

/-- `utf16_code_point_length_by_starting_code_unit`, /repo/include/scn/scan.h:4048-4063. -/
def cpLength16 (c : Nat) : Nat :=
  let lead := 0xffff &&& c
  if lead ≥ 0xd800 ∧ lead ≤ 0xdbff then 2
  else if lead ≥ 0xdc00 ∧ lead ≤ 0xdfff then 0
  else 1

/-- `code_point_length_by_starting_code_unit`, /repo/include/scn/scan.h:4065-4080. -/
def cpLength (e : Enc) (c : Nat) : Nat :=
  match e with
  | .utf8 => cpLength8 c
  | .utf16 => cpLength16 c
  | .utf32 => 1

/-- `is_trailing_code_unit`, /repo/include/scn/scan.h:4089-4091. -/
def isTrailing (c : Nat) : Bool := c >>> 6 == 2

/-- `decode_utf8_code_point_exhaustive`, /repo/include/scn/scan.h:4084-4164; `none` when the
    size precondition of line 4089 fails. -/
def decodeUtf8 : List Nat → Option Nat
  | [a] => some (if a ≥ 0x80 then invalidCp else a)
  | [a, b] => some <|
    if a &&& 0xe0 ≠ 0xc0 then invalidCp
    else if ¬ isTrailing b then invalidCp
    else ((a &&& 0x1f) <<< 6) ||| (b &&& 0x3f)
  | [a, b, c] => some <|
    if a &&& 0xf0 ≠ 0xe0 then invalidCp
    else if ¬ isTrailing b ∨ ¬ isTrailing c then invalidCp
    else (((a &&& 0x0f) <<< 12) ||| ((b &&& 0x3f) <<< 6)) ||| (c &&& 0x3f)
  | [a, b, c, d] => some <|
    if a &&& 0xf8 ≠ 0xf0 then invalidCp
    else if a > 0xf4 then invalidCp
    else if ¬ isTrailing b ∨ ¬ isTrailing c ∨ ¬ isTrailing d then invalidCp
    else ((((a &&& 0x07) <<< 18) ||| ((b &&& 0x3f) <<< 12)) ||| ((c &&& 0x3f) <<< 6)) |||
      (d &&& 0x3f)
  | _ => none

/-- `decode_utf8_code_point_exhaustive_valid`, /repo/include/scn/scan.h:4166-4222: the checks
    of the previous function are `SCN_EXPECT`s. -/
def decodeUtf8Valid : List Nat → Option Nat
  | [a] => if a < 0x80 then some a else none
  | [a, b] =>
    if a &&& 0xe0 = 0xc0 ∧ isTrailing b then some (((a &&& 0x1f) <<< 6) ||| (b &&& 0x3f)) else none
  | [a, b, c] =>
    if a &&& 0xf0 = 0xe0 ∧ isTrailing b ∧ isTrailing c then
      some ((((a &&& 0x0f) <<< 12) ||| ((b &&& 0x3f) <<< 6)) ||| (c &&& 0x3f))
    else none
  | [a, b, c, d] =>
    if a &&& 0xf8 = 0xf0 ∧ a ≤ 0xf4 ∧ isTrailing b ∧ isTrailing c ∧ isTrailing d then
      some (((((a &&& 0x07) <<< 18) ||| ((b &&& 0x3f) <<< 12)) ||| ((c &&& 0x3f) <<< 6)) |||
        (d &&& 0x3f))
    else none
  | _ => none

/-- `decode_utf16_code_point_exhaustive`, /repo/include/scn/scan.h:4224-4245. -/
def decodeUtf16 : List Nat → Option Nat
  | [a] => some a
  | [a, b] => some <|
    if a < 0xd800 ∨ a > 0xdbff ∨ b < 0xdc00 ∨ b > 0xdfff then invalidCp
    else (((a - 0xd800) <<< 10) ||| (b - 0xdc00)) + 0x10000
  | _ => none

/-- `decode_utf16_code_point_exhaustive_valid`, /repo/include/scn/scan.h:4247-4268. -/
def decodeUtf16Valid : List Nat → Option Nat
  | [a] => some a
  | [a, b] =>
    if 0xd800 ≤ a ∧ a ≤ 0xdbff ∧ 0xdc00 ≤ b ∧ b ≤ 0xdfff then
      some ((((a - 0xd800) <<< 10) ||| (b - 0xdc00)) + 0x10000)
    else none
  | _ => none

/-- `decode_code_point_exhaustive`, /repo/include/scn/scan.h:4270-4288. -/
def decodeCp (e : Enc) (s : List Nat) : Option Nat :=
  match e with
  | .utf8 => decodeUtf8 s
  | .utf16 => decodeUtf16 s
  | .utf32 =>
    match s with
    | [a] => some (if a ≥ invalidCp then invalidCp else a)
    | _ => none

/-- `decode_code_point_exhaustive_valid`, /repo/include/scn/scan.h:4290-4304. -/
def decodeCpValid (e : Enc) (s : List Nat) : Option Nat :=
  match e with
  | .utf8 => decodeUtf8Valid s
  | .utf16 => decodeUtf16Valid s
  | .utf32 =>
    match s with
    | [a] => some a
    | _ => none

/-- `is_cp_space`, /repo/include/scn/scan.h:4306-4316. -/
def isCpSpace (cp : Nat) : Bool :=
  (cp ≥ 0x09 && cp ≤ 0x0d) || cp == 0x20 || cp == 0x85 || cp == 0x200e || cp == 0x200f ||
    cp == 0x2028 || cp == 0x2029

/-- The loop of `validate_unicode`, /repo/src/scn/impl.h:1239-1259. The first argument bounds
    the number of iterations by the length (see `validateUnicode`); `none` is a violated
    precondition of the decoder (or an exhausted bound: neither happens,
    `validateUnicode_total`). -/
def validateAux (e : Enc) : Nat → List Nat → Option Bool
  | _, [] => some true
  | 0, _ :: _ => none
  | n + 1, c :: cs =>
    let len := cpLength e c
    if len = 0 then some false
    else if (c :: cs).length < len then some false
    else
      match decodeCp e ((c :: cs).take len) with
      | none => none
      | some cp => if cp ≥ invalidCp then some false else validateAux e n ((c :: cs).drop len)

/-- `validate_unicode`, /repo/src/scn/impl.h:1239-1259. -/
def validateUnicode (e : Enc) (s : List Nat) : Option Bool := validateAux e s.length s

/-- `get_start_for_next_code_point`, /repo/src/scn/impl.h:1261-1272. -/
def startNext (e : Enc) (s : List Nat) : List Nat := s.dropWhile (fun c => cpLength e c = 0)

/-- `get_next_code_point`, /repo/src/scn/impl.h:1274-1292: the rest and the code point. -/
def getNext (e : Enc) (s : List Nat) : Option (List Nat × Nat) :=
  match s with
  | [] => none
  | c :: _ =>
    let len := cpLength e c
    if len = 0 then some (startNext e s, invalidCp)
    else if len > s.length then some ([], invalidCp)
    else (decodeCp e (s.take len)).map fun cp => (s.drop len, cp)

/-- `get_next_code_point_valid`, /repo/src/scn/impl.h:1294-1306. -/
def getNextValid (e : Enc) (s : List Nat) : Option (List Nat × Nat) :=
  match s with
  | [] => none
  | c :: _ =>
    let len := cpLength e c
    if len > s.length then none
    else (decodeCpValid e (s.take len)).map fun cp => (s.drop len, cp)

/-- `for_each_code_point`, /repo/src/scn/impl.h:1541-1553: the sequence of values handed to
    the callback. Also the loop of `transcode_to_string_impl_to32`, 1351-1369.
    The recursion is bounded by the length (fuel); `none` if it were ever exhausted, which
    `forEachCp_total` excludes. -/
def forEachCpAux (e : Enc) : Nat → List Nat → Option (List Nat)
  | _, [] => some []
  | 0, _ :: _ => none
  | n + 1, s@(_ :: _) =>
    match getNext e s with
    | none => none
    | some (r, cp) => (forEachCpAux e n r).map (cp :: ·)

/-- `for_each_code_point`, /repo/src/scn/impl.h:1541-1553. -/
def forEachCp (e : Enc) (s : List Nat) : Option (List Nat) := forEachCpAux e s.length s

/-- `for_each_code_point_valid`, /repo/src/scn/impl.h:1555-1566, and the loop of
    `transcode_valid_to_string_impl_to32`, 1370-1387 (whose `SCN_EXPECT` on the value is
    `none` too). -/
def forEachCpValidAux (e : Enc) : Nat → List Nat → Option (List Nat)
  | _, [] => some []
  | 0, _ :: _ => none
  | n + 1, s@(_ :: _) =>
    match getNextValid e s with
    | none => none
    | some (r, cp) => (forEachCpValidAux e n r).map (cp :: ·)

/-- `for_each_code_point_valid`, /repo/src/scn/impl.h:1555-1566. -/
def forEachCpValid (e : Enc) (s : List Nat) : Option (List Nat) := forEachCpValidAux e s.length s

/-- `transcode_valid_to_string_impl_to32`, /repo/src/scn/impl.h:1371-1387. -/
def transcodeValidTo32 (e : Enc) (s : List Nat) : Option (List Nat) :=
  match forEachCpValid e s with
  | none => none
  | some cps => if cps.all (· < invalidCp) then some cps else none

/-- `transcode_to_string_impl_to32`, /repo/src/scn/impl.h:1351-1370. -/
def transcodeTo32 (e : Enc) (s : List Nat) : Option (List Nat) :=
  (forEachCp e s).map fun cps => cps.map fun cp => if cp = invalidCp then 0xfffd else cp

/-- One iteration of `transcode_to_string_impl_32to8<VerifiedValid>`,
    /repo/src/scn/impl.h:1389-1432. The casts to `char` are reductions modulo 256. -/
def encode8 (verified : Bool) (cp : Nat) : List Nat :=
  if ¬ verified ∧ cp ≥ invalidCp then [0xef, 0xbf, 0xbd]
  else if cp < 128 then [cp]
  else if cp < 2048 then [(0xc0 ||| (cp >>> 6)) % 256, (0x80 ||| (cp &&& 0x3f)) % 256]
  else if cp < 65536 then
    [(0xe0 ||| (cp >>> 12)) % 256, (0x80 ||| ((cp >>> 6) &&& 0x3f)) % 256,
     (0x80 ||| (cp &&& 0x3f)) % 256]
  else
    [(0xf0 ||| (cp >>> 18)) % 256, (0x80 ||| ((cp >>> 12) &&& 0x3f)) % 256,
     (0x80 ||| ((cp >>> 6) &&& 0x3f)) % 256, (0x80 ||| (cp &&& 0x3f)) % 256]

/-- `transcode_to_string_impl_32to8`, /repo/src/scn/impl.h:1389-1432. -/
def transcode32to8 (verified : Bool) (s : List Nat) : List Nat := s.flatMap (encode8 verified)

/-- One iteration of `transcode_to_string_impl_32to16<VerifiedValid>`,
    /repo/src/scn/impl.h:1434-1456 (the second unit adds 0xd800 as in the source). -/
def encode16 (verified : Bool) (cp : Nat) : List Nat :=
  if ¬ verified ∧ cp ≥ invalidCp then [0xfffd]
  else if cp < 0x10000 then [cp]
  else [((cp - 0x10000) / 0x400 + 0xd800) % 65536, ((cp - 0x10000) % 0x400 + 0xd800) % 65536]

/-- `transcode_to_string_impl_32to16`, /repo/src/scn/impl.h:1434-1456. -/
def transcode32to16 (verified : Bool) (s : List Nat) : List Nat := s.flatMap (encode16 verified)

/-- `transcode_valid_to_string`, /repo/src/scn/impl.h:1498-1539; source and destination sizes
    differ. The combination utf16 to utf32 names a non-existent function
    (`trasncode_valid_to_string_impl_to32`, line 1525) and does not compile; it is `none`
    here like the unreachable end of the function. -/
def transcodeValid (src dst : Enc) (s : List Nat) : Option (List Nat) :=
  if validateUnicode src s ≠ some true then none
  else
    match src, dst with
    | .utf8, .utf16 => (transcodeValidTo32 .utf8 s).map (transcode32to16 true)
    | .utf8, .utf32 => transcodeValidTo32 .utf8 s
    | .utf16, .utf8 => (transcodeValidTo32 .utf16 s).map (transcode32to8 true)
    | .utf32, .utf8 => some (transcode32to8 true s)
    | .utf32, .utf16 => some (transcode32to16 true s)
    | _, _ => none

/-- `encode_code_point_as_wide_character`, /repo/src/scn/impl.h:1325-1349. -/
def encodeWide (dst : Enc) (cp : Nat) (errorOnOverflow : Bool) : Res Nat :=
  if cp ≥ invalidCp then .ub
  else
    match dst with
    | .utf32 => .ok cp
    | _ =>
      if cp < 0x10000 then .ok cp
      else if errorOnOverflow then .err .valuePositiveOverflow
      else .ok (((cp - 0x10000) / 0x400 + 0xd800) % 65536)

end Scn
