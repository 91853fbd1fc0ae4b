import Verif.Model.Space
import Verif.Model.Format
/-
Model of the string readers, /repo/src/scn/impl.h:4789-5366, and of the reading algorithms they
use, /repo/src/scn/impl.h:1935-2154. The regex readers are not modelled.
-/
namespace Scn

/-- `read_all`, /repo/src/scn/impl.h:1935-1939. -/
def readAll (_s : List Nat) : List Nat := []

/-- `read_until_code_unit`, /repo/src/scn/impl.h:2051-2068. -/
def readUntilUnit (pred : Nat → Bool) (s : List Nat) : List Nat := s.dropWhile fun c => ! pred c

/-- `read_while_code_unit`, /repo/src/scn/impl.h:2070-2076. -/
def readWhileUnit (pred : Nat → Bool) (s : List Nat) : List Nat := readUntilUnit (fun c => ! pred c) s

/-- `read_until_code_units`, /repo/src/scn/impl.h:2102-2130: `std::search` for the needle. -/
def readUntilUnits (needle : List Nat) : List Nat → List Nat
  | [] => []
  | c :: cs => if needle.isPrefixOf (c :: cs) then c :: cs else readUntilUnits needle cs

/-- `read_while_code_units`, /repo/src/scn/impl.h:2132-2154: the loop, bounded by the first
    argument. -/
def readWhileUnitsAux (needle : List Nat) : Nat → List Nat → Option (List Nat)
  | _, [] => some []
  | 0, _ :: _ => none
  | n + 1, s@(_ :: _) =>
    if needle.isPrefixOf s then readWhileUnitsAux needle n (s.drop needle.length) else some s

/-- `read_while_code_units`, /repo/src/scn/impl.h:2132-2154. -/
def readWhileUnits (needle s : List Nat) : Option (List Nat) := readWhileUnitsAux needle s.length s

/-- The units between a position and a later one, `make_contiguous_buffer(subrange{it, end})`,
    /repo/src/scn/impl.h:1098-1118. -/
def between (s rest : List Nat) : List Nat := s.take (s.length - rest.length)

/-- `transcode_if_necessary`, /repo/src/scn/impl.h:3079-3136. -/
def transcodeIfNecessary (src dst : Enc) (s : List Nat) : Res (List Nat) :=
  if src = dst then .ok s
  else match transcodeValid src dst s with
    | none => .ub
    | some t => .ok t

/-- `read_string_impl`, /repo/src/scn/impl.h:4789-4806: the value is the units from `s` to `rest`. -/
def readString (src dst : Enc) (s rest : List Nat) : Res (List Nat × List Nat) :=
  match validateUnicode src (between s rest) with
  | none => .ub
  | some false => .err .invalidScannedValue
  | some true => (transcodeIfNecessary src dst (between s rest)).map fun v => (v, rest)

/-- `read_string_view_impl`, /repo/src/scn/impl.h:4808-4852. `stored` says that the units had to be
    copied into an allocated string because the range is not contiguous. -/
def readStringView (src dst : Enc) (stored : Bool) (s rest : List Nat) : Res (List Nat × List Nat) :=
  if stored then .err .invalidFormatString
  else if src ≠ dst then .err .invalidFormatString
  else match validateUnicode src (between s rest) with
    | none => .ub
    | some false => .err .invalidScannedValue
    | some true => .ok (between s rest, rest)

/-- `nonascii_specs_handler`, /repo/src/scn/impl.h:5028-5078: its ranges (half open) and whether
    `err` is set. -/
structure NonAscii where
  ranges : List (Nat × Nat)
  err : Bool
  deriving DecidableEq, Repr

/-- The loop of `nonascii_specs_handler::on_charset_range`, /repo/src/scn/impl.h:5034-5054. -/
def addRange (b e : Nat) : List (Nat × Nat) → List (Nat × Nat)
  | [] => [(b, e)]
  | (x, y) :: t => if x = e then (b, y) :: t else if y = b then (x, e) :: t else (x, y) :: addRange b e t

/-- `nonascii_specs_handler::on_charset_range`, /repo/src/scn/impl.h:5034-5054. -/
def NonAscii.onRange (st : NonAscii) (b e : Nat) : NonAscii :=
  if e ≤ 127 then st else { st with ranges := addRange b e st.ranges }

/-- `nonascii_specs_handler` as a handler of character sets, /repo/src/scn/impl.h:5028-5078. -/
def nonAsciiSet : SetHandler NonAscii :=
  ⟨fun st cp => st.onRange cp (cp + 1), fun st b e => some (st.onRange b e), fun st => st,
   fun st => { st with err := true }, NonAscii.err⟩

/-- `specs_helper::handle_nonascii`, /repo/src/scn/impl.h:5142-5159: the extra ranges, sorted. The
    failure of an `SCN_ENSURE` is undefined behaviour. -/
def handleNonascii (e : Enc) (sp : Specs) : Res (List (Nat × Nat)) :=
  if sp.nonascii = false then .ok []
  else match parseSet nonAsciiSet e ⟨[], false⟩ sp.setString with
    | none => .ub
    | some (st, view, rest) =>
      if st.err then .err .invalidFormatString
      else if rest ≠ [] ∨ view ≠ sp.setString then .ub
      else .ok (st.ranges.mergeSort fun a b => decide (a.1 < b.1) || (a.1 == b.1 && decide (a.2 ≤ b.2)))

/-- `specs_helper::is_char_set_in_literals`, /repo/src/scn/impl.h:5115-5123: byte `ch / 8`, bit
    `ch % 8` of the literal table. -/
def inLiterals (sp : Specs) (c : Nat) : Bool := ((sp.literals >>> (8 * (c / 8))) % 256).testBit (c % 8)

/-- `specs_helper::is_char_set_in_extra_literals`, /repo/src/scn/impl.h:5125-5140. -/
def inExtra (ranges : List (Nat × Nat)) (cp : Nat) : Bool := ranges.any fun p => p.1 ≤ cp && p.2 > cp

/-- `read_source_callback::on_ascii_only`, /repo/src/scn/impl.h:5166-5173. -/
def onAsciiOnly (sp : Specs) (c : Nat) : Bool := if c ≤ 127 then inLiterals sp c else false

/-- `read_source_callback::on_classic_with_extra_ranges`, /repo/src/scn/impl.h:5175-5182. -/
def onExtraRanges (sp : Specs) (ranges : List (Nat × Nat)) (cp : Nat) : Bool :=
  if cp ≤ 127 then inLiterals sp cp else inExtra ranges cp

/-- `check_nonempty`, /repo/src/scn/impl.h:5224-5235: the positions are compared by what is left. -/
def checkNonempty (it s : List Nat) : Res (List Nat) :=
  if it.length = s.length then .err .invalidScannedValue else .ok it

/-- `character_set_reader_impl::read_source_impl`, /repo/src/scn/impl.h:5188-5222. -/
def charsetSource (e : Enc) (sp : Specs) (s : List Nat) : Res (List Nat) :=
  (handleNonascii e sp).bind fun ranges =>
    if sp.nonascii then
      match (if sp.inverted then readUntilCp e (onExtraRanges sp ranges) s
             else readWhileCp e (onExtraRanges sp ranges) s) with
      | none => .ub
      | some it => checkNonempty it s
    else
      checkNonempty (if sp.inverted then readUntilUnit (onAsciiOnly sp) s
                     else readWhileUnit (onAsciiOnly sp) s) s

/-- `character_set_reader_impl::read` into a string, /repo/src/scn/impl.h:5083-5095. -/
def readCharset (src dst : Enc) (sp : Specs) (s : List Nat) : Res (List Nat × List Nat) :=
  (charsetSource src sp s).bind (readString src dst s)

/-- `word_reader_impl::read` into a string, /repo/src/scn/impl.h:4857-4862. -/
def readWord (src dst : Enc) (l : Layout) (s : List Nat) : Res (List Nat × List Nat) :=
  match readUntilSpace src l s with
  | none => .ub
  | some it => readString src dst s it

/-- `custom_word_reader_impl::read` into a string, /repo/src/scn/impl.h:4876-4896: up to the fill
    character. -/
def readCustomWord (src dst : Enc) (sp : Specs) (s : List Nat) : Res (List Nat × List Nat) :=
  match sp.fill.units src with
  | [u] => readString src dst s (readUntilUnit (fun c => c == u) s)
  | us => readString src dst s (readUntilUnits us s)

/-- `character_reader_impl::read`, /repo/src/scn/impl.h:4989-5025: without a maximum field width
    (a `take_width_view`, flag `limited`) there is an error. -/
def readCharacters (src dst : Enc) (limited : Bool) (s : List Nat) : Res (List Nat × List Nat) :=
  if limited then readString src dst s (readAll s) else .err .invalidFormatString

end Scn
