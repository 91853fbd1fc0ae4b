import Verif.Model.Strings
import Verif.Model.IntReader
/-
Model of the text width, of `take_width` and of `arg_reader`: /repo/src/scn/impl.h:2401-2950 and
5980-6266.
-/
namespace Scn

/-- `calculate_text_width_for_fmt_v10`, /repo/src/scn/impl.h:2401-2424. -/
def textWidth (cp : Nat) : Nat :=
  if cp ≥ 0x1100 ∧
    (cp ≤ 0x115f ∨ cp = 0x2329 ∨ cp = 0x232a ∨ (cp ≥ 0x2e80 ∧ cp ≤ 0xa4cf ∧ cp ≠ 0x303f) ∨
      (cp ≥ 0xac00 ∧ cp ≤ 0xd7a3) ∨ (cp ≥ 0xf900 ∧ cp ≤ 0xfaff) ∨ (cp ≥ 0xfe10 ∧ cp ≤ 0xfe19) ∨
      (cp ≥ 0xfe30 ∧ cp ≤ 0xfe6f) ∨ (cp ≥ 0xff00 ∧ cp ≤ 0xff60) ∨ (cp ≥ 0xffe0 ∧ cp ≤ 0xffe6) ∨
      (cp ≥ 0x20000 ∧ cp ≤ 0x2fffd) ∨ (cp ≥ 0x30000 ∧ cp ≤ 0x3fffd) ∨ (cp ≥ 0x1f300 ∧ cp ≤ 0x1f64f) ∨
      (cp ≥ 0x1f900 ∧ cp ≤ 0x1f9ff)) then 2 else 1

/-- `calculate_text_width` of a string, /repo/src/scn/impl.h:2446-2454. (`forEachCp` is total.) -/
def textWidthOf (e : Enc) (s : List Nat) : Nat :=
  match forEachCp e s with
  | none => 0
  | some cps => (cps.map textWidth).sum

/-- `counted_width_iterator::_get_width_at_current_cp_start` with the length from
    `_get_cp_length_at_current`, /repo/src/scn/impl.h:2746-2773. -/
def widthAt (e : Enc) : List Nat → Nat
  | [] => 0
  | c :: cs =>
    if cpLength e c = 0 then 0
    else if cpLength e c = 1 then textWidth c
    else if (c :: cs).length < cpLength e c then 0
    else textWidthOf e ((c :: cs).take (cpLength e c))

/-- The units of a `take_width_view` from a state of its iterator (`m_count`,
    `m_multibyte_left`): increments (/repo/src/scn/impl.h:2775-2787) up to the sentinel
    (2877-2883). -/
def takeWidthAux (e : Enc) : Int → Int → List Nat → List Nat
  | _, _, [] => []
  | count, left, c :: cs =>
    if (count = 0 ∧ left = 0) ∨ (count = 1 ∧ left = 0 ∧ widthAt e (c :: cs) = 2) then []
    else if left = 0 then c :: takeWidthAux e (count - widthAt e (c :: cs)) ((cpLength e c : Int) - 1) cs
    else c :: takeWidthAux e count (left - 1) cs

/-- `take_width`, /repo/src/scn/impl.h:2847-2947: what the view presents. -/
def takeWidth (e : Enc) (n : Int) (s : List Nat) : List Nat := takeWidthAux e n 0 s

/-- `count()` of a `counted_width_iterator` after the given number of increments,
    /repo/src/scn/impl.h:2775-2787. -/
def countAfter (e : Enc) : Nat → Int → Int → List Nat → Int
  | 0, count, _, _ => count
  | _, count, _, [] => count
  | k + 1, count, left, c :: cs =>
    if left = 0 then countAfter e k (count - widthAt e (c :: cs)) ((cpLength e c : Int) - 1) cs
    else countAfter e k count (left - 1) cs

/-- `max_width - w_it.count()`, as at /repo/src/scn/impl.h:6014, 6036, 6092, 6141, 6196, when the iterator
    has advanced by `k`. -/
def consumedWidth (e : Enc) (n : Int) (s : List Nat) (k : Nat) : Int := n - countAfter e k n 0 s

/-- The two searches of `skip_fill`, /repo/src/scn/impl.h:5993-6011 and 6019-6033. -/
def readWhileFill (units s : List Nat) : Option (List Nat) :=
  match units with
  | [u] => some (readWhileUnit (fun c => c == u) s)
  | us => readWhileUnits us s

/-- The width of one fill character as computed at /repo/src/scn/impl.h:6001-6004 and 6024-6026. -/
def fillWidth (e : Enc) (units : List Nat) : Nat :=
  match units with
  | [u] => textWidth u
  | us => textWidthOf e us

/-- `skip_fill`, /repo/src/scn/impl.h:5983-6039. -/
def skipFill (e : Enc) (s : List Nat) (maxWidth : Int) (fill : Fill) (want : Bool) : Option (List Nat × Int) :=
  let units := fill.units e
  if maxWidth = 0 then
    (readWhileFill units s).map fun it =>
      (it, if want then ((fillWidth e units * (s.length - it.length) / units.length : Nat) : Int) else 0)
  else
    let view := takeWidth e maxWidth s
    (readWhileFill units view).map fun it =>
      let k := view.length - it.length
      (s.drop k, if want then consumedWidth e maxWidth s k else 0)

/-- The part of a reader `arg_reader` uses: `skip_ws_before_read` and `read_specs`,
    /repo/src/scn/impl.h:5832-5888. -/
structure Reader (V : Type) where
  skipWs : Bool
  read : Layout → List Nat → Res (V × List Nat)

/-- The integer reader as `arg_reader` sees it (presentation `base`, not localized): whitespace is
    skipped before it (`reader_base`, /repo/src/scn/impl.h:3154-3166), `read_specs` is
    /repo/src/scn/impl.h:3583-3656. -/
def intReader (e : Enc) (T : IntTy) (base : Nat) (uo : Bool) : Reader Int :=
  ⟨true, fun l s => readInt ⟨decide (e = .utf8), decide (l = .contiguous)⟩ T ⟨base, uo, none⟩ s⟩

/-- `string_reader::reader_type` without the regex readers, which are not modelled,
    /repo/src/scn/impl.h:5317-5325. -/
inductive StrKind where
  | word | customWord | character | characterSet
  deriving DecidableEq, Repr

/-- The reader type chosen by `string_reader::check_specs_impl`, /repo/src/scn/impl.h:5257-5287;
    presentations other than these leave the initial `word` (5371) and have been rejected by
    `check_string_type_specs`. `none` for regexes. -/
def strKind (sp : Specs) : Option StrKind :=
  match sp.type with
  | .none => some .word
  | .string => if sp.align = .left ∨ sp.align = .center then some .customWord else some .word
  | .character => some .character
  | .stringSet => some .characterSet
  | .regex => none
  | .regexEscaped => none
  | _ => some .word

/-- `string_reader::skip_ws_before_read` and `read_specs` into a string,
    /repo/src/scn/impl.h:5294-5297 and 5307-5369. `character` fields have a precision
    (`check_string_type_specs`), so that they read from a `take_width_view`. -/
def stringReader (src dst : Enc) (sp : Specs) (k : StrKind) : Reader (List Nat) :=
  ⟨k == .word, fun l s =>
    match k with
    | .word => readWord src dst l s
    | .customWord => readCustomWord src dst sp s
    | .character => readCharacters src dst (sp.precision != 0) s
    | .characterSet => readCharset src dst sp s⟩

/-- `arg_reader::impl_prefix`, /repo/src/scn/impl.h:6071-6108. -/
def argPrefix (e : Enc) (sp : Specs) (skipWs : Bool) (l : Layout) (s : List Nat) : Res (List Nat × Int) :=
  let need := decide (sp.width ≠ 0 ∨ sp.precision ≠ 0)
  if sp.align = .right ∨ sp.align = .center then
    match skipFill e s sp.precision sp.fill need with
    | none => .ub
    | some r => .ok r
  else if sp.align = .none ∧ skipWs then
    if sp.precision ≠ 0 then
      let view := takeWidth e sp.precision s
      (skipSpace e (.segmented 0) false view).map fun it =>
        (s.drop (view.length - it.length), consumedWidth e sp.precision s (view.length - it.length))
    else
      (skipSpace e l false s).map fun it => (it, if need then (textWidthOf e (between s it) : Int) else 0)
  else .ok (s, 0)

/-- `arg_reader::impl_postfix`, /repo/src/scn/impl.h:6110-6156. -/
def argPostfix (e : Enc) (sp : Specs) (skipWs : Bool) (l : Layout) (prefixWidth valueWidth : Int) (s : List Nat) :
    Res (List Nat × Int) :=
  let need := decide (sp.width ≠ 0 ∨ sp.precision ≠ 0)
  if sp.align = .left ∨ sp.align = .center then
    if sp.precision ≠ 0 ∧ (sp.precision : Int) - valueWidth - prefixWidth = 0 then .ok (s, 0)
    else
      match skipFill e s ((sp.precision : Int) - valueWidth - prefixWidth) sp.fill need with
      | none => .ub
      | some r => .ok r
  else if sp.align = .none ∧ ! skipWs ∧ ((sp.width ≠ 0 ∧ prefixWidth + valueWidth < sp.width) ∨
      (sp.precision ≠ 0 ∧ prefixWidth + valueWidth < sp.precision)) then
    if sp.precision ≠ 0 then
      let initial := (sp.precision : Int) - prefixWidth - valueWidth
      let view := takeWidth e initial s
      (skipSpace e (.segmented 0) true view).map fun it =>
        (s.drop (view.length - it.length), consumedWidth e initial s (view.length - it.length))
    else
      (skipSpace e l true s).map fun it => (it, if need then (textWidthOf e (between s it) : Int) else 0)
  else .ok (s, 0)

/-- `check_widths_for_arg_reader`, /repo/src/scn/impl.h:6041-6061; a failed `SCN_ENSURE` is `ub`. -/
def checkWidths (sp : Specs) (total : Int) : Res Unit :=
  if sp.width ≠ 0 ∧ total < sp.width then .err .lengthTooShort
  else if sp.precision ≠ 0 ∧ ¬ total ≤ sp.precision then .ub
  else .ok ()

/-- The prefix part of `arg_reader::impl`, /repo/src/scn/impl.h:6165-6179. -/
def argBefore (e : Enc) (sp : Specs) (skipWs : Bool) (l : Layout) (s : List Nat) : Res (List Nat × Int) :=
  if sp.precision ≠ 0 then
    let view := takeWidth e sp.precision s
    (argPrefix e sp skipWs (.segmented 0) view).map fun r => (s.drop (view.length - r.1.length), r.2)
  else argPrefix e sp skipWs l s

/-- The value part of `arg_reader::impl`, /repo/src/scn/impl.h:6181-6207: the value, the new position
    and the width of the value. -/
def argValue {V : Type} (e : Enc) (sp : Specs) (rd : Reader V) (l : Layout) (prefixWidth : Int) (s : List Nat) :
    Res (V × List Nat × Int) :=
  if sp.precision ≠ 0 then
    if (sp.precision : Int) ≤ prefixWidth then .err .invalidFill
    else
      let initial := (sp.precision : Int) - prefixWidth
      let view := takeWidth e initial s
      (rd.read (.segmented 0) view).map fun r =>
        (r.1, s.drop (view.length - r.2.length), consumedWidth e initial s (view.length - r.2.length))
  else
    (rd.read l s).map fun r =>
      (r.1, r.2, if sp.width ≠ 0 then (textWidthOf e (between s r.2) : Int) else 0)

/-- The postfix part of `arg_reader::impl`, /repo/src/scn/impl.h:6209-6217. -/
def argAfter (e : Enc) (sp : Specs) (skipWs : Bool) (l : Layout) (prefixWidth valueWidth : Int) (s : List Nat) :
    Res (List Nat × Int) :=
  if s = [] then .ok (s, 0) else argPostfix e sp skipWs l prefixWidth valueWidth s

/-- `arg_reader::impl`, /repo/src/scn/impl.h:6158-6222. `lay` tells how the source is presented from
    each position on (by what remains there). -/
def argRead {V : Type} (e : Enc) (sp : Specs) (rd : Reader V) (lay : List Nat → Layout) (s : List Nat) :
    Res (V × List Nat) :=
  (argBefore e sp rd.skipWs (lay s) s).bind fun b =>
    (argValue e sp rd (lay b.1) b.2 b.1).bind fun r =>
      (argAfter e sp rd.skipWs (lay r.2.1) b.2 r.2.2 r.2.1).bind fun a =>
        (checkWidths sp (b.2 + r.2.2 + a.2)).bind fun _ => .ok (r.1, a.1)

end Scn
