import Verif.Model.Format
/-
Model of the type-erased argument store (/repo/include/scn/scan.h:5749-5776, 6028-6236) and of
`scan_error::to_errc` (3762-3784). `std::size_t` is 64 bits wide; addresses are `Nat`.
-/
namespace Scn

/-- The enumerator values of `arg_type`, /repo/include/scn/scan.h:5441-5470. -/
def ArgTy.code : ArgTy → Nat
  | .none => 0 | .schar => 1 | .short => 2 | .int => 3 | .long => 4 | .llong => 5
  | .uchar => 6 | .ushort => 7 | .uint => 8 | .ulong => 9 | .ullong => 10 | .bool => 11
  | .narrowChar => 12 | .wideChar => 13 | .codePoint => 14 | .pointer => 15
  | .float => 16 | .double => 17 | .ldouble => 18
  | .narrowStringView => 19 | .wideStringView => 20 | .narrowString => 21 | .wideString => 22
  | .narrowRegex => 23 | .wideRegex => 24 | .custom => 25

/-- `packed_arg_bits`, /repo/include/scn/scan.h:5749. -/
def packedArgBits : Nat := 5
/-- `max_packed_args`, /repo/include/scn/scan.h:5751-5752. -/
def maxPackedArgs : Nat := (64 - 2) / packedArgBits - 1
/-- `is_unpacked_bit`, /repo/include/scn/scan.h:5753. -/
def isUnpackedBit : Nat := 2 ^ (64 - 1)
/-- `has_custom_types_bit`, /repo/include/scn/scan.h:5754. -/
def hasCustomTypesBit : Nat := 2 ^ (64 - 2)

/-- `encode_types_impl`, /repo/include/scn/scan.h:5756-5766. -/
def encodeTypesImpl : List ArgTy → Nat
  | [] => 0
  | t :: ts => t.code ||| (encodeTypesImpl ts <<< packedArgBits) % 2 ^ 64

/-- `encode_types`, /repo/include/scn/scan.h:5768-5780; `none` is its `SCN_EXPECT(false)`. -/
def encodeTypes (ts : List ArgTy) : Option Nat :=
  if ts.length < 2 ^ packedArgBits then some (ts.length ||| (encodeTypesImpl ts <<< packedArgBits) % 2 ^ 64) else none

/-- `scan_arg_store_kind`, /repo/include/scn/scan.h (named at 6045-6057). -/
inductive StoreKind where
  | unpacked | builtin | packed
  deriving DecidableEq, Repr

/-- `determine_arg_store_kind`, /repo/include/scn/scan.h:6044-6057 (not on Apple Clang), with
    `all_types_builtin` 6032-6042. -/
def storeKind (ts : List ArgTy) : StoreKind :=
  if ts.length > maxPackedArgs then .unpacked
  else if ts.all (fun t => decide (t ≠ .custom)) then .builtin
  else .packed

/-- `compute_arg_store_desc`, /repo/include/scn/scan.h:6059-6071. -/
def storeDesc (ts : List ArgTy) : Option Nat :=
  match storeKind ts with
  | .builtin => encodeTypes ts
  | .packed => (encodeTypes ts).map fun d => d ||| hasCustomTypesBit
  | .unpacked => some (ts.length ||| isUnpackedBit)

/-- What `scan_arg_store::args` points to: addresses, values (of which the reference or the custom value
    is represented by the address), or whole arguments, /repo/include/scn/scan.h:6081-6105. -/
inductive ArgData where
  | builtins (addrs : List Nat)
  | values (addrs : List Nat)
  | args (args : List (ArgTy × Nat))
  deriving DecidableEq, Repr

/-- `make_arg` for each destination, /repo/include/scn/scan.h:6097-6105. -/
def storeData (as : List (ArgTy × Nat)) : ArgData :=
  match storeKind (as.map Prod.fst) with
  | .builtin => .builtins (as.map Prod.snd)
  | .packed => .values (as.map Prod.snd)
  | .unpacked => .args as

/-- `is_packed`, /repo/include/scn/scan.h:6206-6209. -/
def isPacked (desc : Nat) : Bool := decide (desc &&& isUnpackedBit = 0)
/-- `is_only_builtin`, /repo/include/scn/scan.h:6210-6213. -/
def isOnlyBuiltin (desc : Nat) : Bool := decide (desc &&& hasCustomTypesBit = 0)
/-- `basic_scan_args::type`, /repo/include/scn/scan.h:6215-6221: the enumerator value. -/
def typeCode (desc index : Nat) : Nat := (desc >>> ((index + 1) * packedArgBits)) &&& (1 <<< packedArgBits - 1)
/-- `max_size`, /repo/include/scn/scan.h:6223-6228. -/
def maxSize (desc : Nat) : Nat :=
  if isPacked desc then maxPackedArgs
  else desc &&& (2 ^ 64 - 1 - isUnpackedBit) &&& (2 ^ 64 - 1 - hasCustomTypesBit)

/-- The union member of `basic_scan_args` that `get` reads; reading a member other than the one stored, or
    outside the array, is undefined (`none`), /repo/include/scn/scan.h:6230-6235. -/
def ArgData.builtinAt : ArgData → Nat → Option Nat
  | .builtins as, i => as[i]?
  | _, _ => none
/-- As `builtinAt`, for `m_values`, /repo/include/scn/scan.h:6230-6235. -/
def ArgData.valueAt : ArgData → Nat → Option Nat
  | .values as, i => as[i]?
  | _, _ => none
/-- As `builtinAt`, for `m_args`, /repo/include/scn/scan.h:6230-6235. -/
def ArgData.argAt : ArgData → Nat → Option (Nat × Nat)
  | .args as, i => (as[i]?).map fun a => (a.1.code, a.2)
  | _, _ => none

/-- `basic_scan_args::get`, /repo/include/scn/scan.h:6146-6176: the enumerator value of the type with the
    address, or an empty argument (`some none`); `none` is undefined behaviour. -/
def argsGet (desc : Nat) (data : ArgData) (id : Nat) : Option (Option (Nat × Nat)) :=
  if isPacked desc = false then
    if id < maxSize desc then (data.argAt id).map some else some none
  else if id ≥ maxPackedArgs then some none
  else if typeCode desc id = ArgTy.none.code then some none
  else if isOnlyBuiltin desc then (data.builtinAt id).map fun a => some (typeCode desc id, a)
  else (data.valueAt id).map fun a => some (typeCode desc id, a)

/-- `basic_scan_args::size`, /repo/include/scn/scan.h:6181-6189. -/
def argsSize (desc : Nat) : Nat :=
  if isPacked desc = false then maxSize desc else desc &&& (1 <<< packedArgBits - 1)

/-- The `std::errc` conditions `to_errc` can yield, /repo/include/scn/scan.h:3762-3784. -/
inductive Errc where
  | invalidArgument | ioError | resultOutOfRange
  deriving DecidableEq, Repr

/-- `scan_error::to_errc`, /repo/include/scn/scan.h:3762-3784. -/
def Err.toErrc : Err → Errc
  | .endOfInput | .invalidFormatString | .invalidScannedValue | .invalidLiteral | .invalidFill | .lengthTooShort =>
    .invalidArgument
  | .invalidSourceState => .ioError
  | .valuePositiveOverflow | .valueNegativeOverflow | .valuePositiveUnderflow | .valueNegativeUnderflow =>
    .resultOutOfRange

end Scn
