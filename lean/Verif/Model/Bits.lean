import Verif.Model.IntParse
/-
Model of the bit tricks, /repo/src/scn/impl.h:490-590. 64-bit and 32-bit words are `Nat`s
with explicit reduction modulo 2^64 and 2^32; `~w` is `2 ^ 64 - 1 - w`;
`~0ull / 255` is 0x0101010101010101.
-/
namespace Scn

/-- `~w` on `uint64_t`. Used by /repo/src/scn/impl.h:522-558. -/
def not64 (w : Nat) : Nat := 2 ^ 64 - 1 - w

/-- The trailing zero count of a non-zero word, searching at most the given number of bits;
    the result of the compiler builtins of /repo/src/scn/impl.h:490-516. -/
def ctzAux : Nat → Nat → Nat
  | 0, _ => 0
  | n + 1, x => if x % 2 = 1 then 0 else 1 + ctzAux n (x / 2)

/-- `count_trailing_zeroes`, /repo/src/scn/impl.h:490-516: `none` is the violated precondition
    `val != 0`. All platform variants compute the number of trailing zero bits. -/
def ctz (x : Nat) : Option Nat := if x = 0 then none else some (ctzAux 64 x)

/-- `has_zero_byte`, /repo/src/scn/impl.h:522-525. -/
def hasZeroByte (w : Nat) : Nat :=
  ((w + (2 ^ 64 - 0x0101010101010101)) % 2 ^ 64) &&& not64 w &&& 0x8080808080808080

/-- `has_byte_between`, /repo/src/scn/impl.h:527-535: `m = a - 1` and `127 - m` wrap. -/
def hasByteBetween (w a b : Nat) : Nat :=
  let m := (a + (2 ^ 64 - 1)) % 2 ^ 64
  let n := b + 1
  let l := w &&& (0x0101010101010101 * 127)
  let hi := (0x0101010101010101 * (127 + n) % 2 ^ 64 + (2 ^ 64 - l)) % 2 ^ 64
  let lo := (l + 0x0101010101010101 * ((127 + (2 ^ 64 - m)) % 2 ^ 64) % 2 ^ 64) % 2 ^ 64
  (hi &&& not64 w &&& lo) &&& (0x0101010101010101 * 128)

/-- `has_byte_greater`, /repo/src/scn/impl.h:537-540: `127 - n` is computed in `int` and
    converted, so it wraps for `n > 127`. -/
def hasByteGreater (w n : Nat) : Nat :=
  ((w + 0x0101010101010101 * ((127 + (2 ^ 64 - n)) % 2 ^ 64) % 2 ^ 64) % 2 ^ 64 ||| w) &&&
    (0x0101010101010101 * 128)

/-- `get_index_of_first_nonmatching_byte`, /repo/src/scn/impl.h:542-549. -/
def firstNonmatching (w : Nat) : Option Nat :=
  let w := w ^^^ 0x8080808080808080
  if w = 0 then some 8 else (ctz w).map (· / 8)

/-- `get_index_of_first_matching_byte`, /repo/src/scn/impl.h:551-558. -/
def firstMatching (w pattern : Nat) : Option Nat :=
  let mask := 0x7f7f7f7f7f7f7f7f
  let input := w ^^^ pattern
  let tmp := ((input &&& mask) + mask) % 2 ^ 64
  (ctz (not64 (tmp ||| input ||| mask))).map (· / 8)

/-- The table of `log2_fast`, /repo/src/scn/impl.h:560-573. -/
def log2Table : List Nat :=
  [0, 9, 1, 10, 13, 21, 2, 29, 11, 14, 16,
   18, 22, 25, 3, 30, 8, 12, 20, 28, 15, 17,
   24, 7, 19, 27, 23, 6, 26, 5, 4, 31]

/-- `log2_fast`, /repo/src/scn/impl.h:560-573. The index is below 32 by the shift. -/
def log2Fast (val : Nat) : Nat :=
  let v := val ||| val >>> 1
  let v := v ||| v >>> 2
  let v := v ||| v >>> 4
  let v := v ||| v >>> 8
  let v := v ||| v >>> 16
  log2Table.getD ((v * 0x07c4acdd % 2 ^ 32) >>> 27) 0

/-- The table of `log2_pow2_fast`, /repo/src/scn/impl.h:575-582. -/
def log2Pow2Table : List Nat :=
  [0, 1, 28, 2, 29, 14, 24, 3, 30, 22, 20,
   15, 25, 17, 4, 8, 31, 27, 13, 23, 21, 19,
   16, 7, 26, 12, 18, 6, 11, 5, 10, 9]

/-- `log2_pow2_fast`, /repo/src/scn/impl.h:575-582. -/
def log2Pow2Fast (val : Nat) : Nat :=
  log2Pow2Table.getD ((val * 0x077cb531 % 2 ^ 32) >>> 27) 0

/-- `byteswap`, /repo/src/scn/impl.h:584-590. -/
def byteswap (v : Nat) : Nat :=
  (v &&& 0xFF00000000000000) >>> 56 ||| (v &&& 0x00FF000000000000) >>> 40 |||
  (v &&& 0x0000FF0000000000) >>> 24 ||| (v &&& 0x000000FF00000000) >>> 8 |||
  (v &&& 0x00000000FF000000) <<< 8 ||| (v &&& 0x0000000000FF0000) <<< 24 |||
  (v &&& 0x000000000000FF00) <<< 40 ||| (v &&& 0x00000000000000FF) <<< 56

end Scn
