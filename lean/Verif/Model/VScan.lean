import Verif.Model.Format
/-
Model of the scanning driver: argument bookkeeping and the run-time format handler,
/repo/src/scn/impl.cpp:1313-1797.

The readers of the individual fields are parameters (`Env`); the driver is independent of them.
-/
namespace Scn

/-- What the driver is given: the character type, the whitespace skipper of the context's range,
    the argument list (number and types) and, for each argument, the effect of
    `default_arg_reader`, `arg_reader` and `custom_reader` on the remaining source
    (/repo/src/scn/impl.h:5891-6292). A successful reader yields the value stored in the
    destination and the new position. A custom reader also moves the parse context. -/
structure Env (V : Type) where
  enc : Enc
  cfg : RegexCfg
  skip : List Nat → Option (List Nat)
  count : Nat
  ty : Nat → ArgTy
  readDefault : Nat → List Nat → Res (V × List Nat)
  readSpecs : Nat → Specs → List Nat → Res (V × List Nat)
  readCustom : Nat → List Nat → List Nat → List Nat × Res (V × List Nat)

/-- What happened during a scan call, in order: literal text was matched, from one source position
    to another, or failed (/repo/src/scn/impl.cpp:1598-1636), an argument's reader was invoked at a source position
    with a result (1648-1663). This is the observable history, used to state properties. -/
inductive Event (V : Type) where
  | literal (text src rest : List Nat) (failure : Option Err)
  | visit (id : Nat) (src : List Nat) (res : Res (V × List Nat))

/-- `format_handler` with its base, /repo/src/scn/impl.cpp:1409-1510 and 1575-1727: the remaining
    source, `parse_ctx.begin()`, `m_next_arg_id`, `error`, `visited_args_lower64`,
    `visited_args_upper`; whether the parse context has an error (`m_error`, /repo/include/scn/scan.h:6344-6354), which is set
    where automatic and explicit numbers are mixed; plus the history. -/
structure FH (V : Type) where
  src : List Nat
  fmtPos : List Nat
  nextId : Int
  err : Option Err
  lower : Nat
  upper : List Nat
  mixed : Bool
  events : List (Event V)

variable {V : Type}

/-- `format_handler_base::on_error`, /repo/src/scn/impl.cpp:1452-1461: overwrites. -/
def FH.onError (st : FH V) (e : Err) : FH V := { st with err := some e }

/-- `format_handler_base(argcount)`, /repo/src/scn/impl.cpp:1410-1415, and
    `format_handler`, 1586-1596. -/
def FH.init (count : Nat) (fmt src : List Nat) : FH V :=
  ⟨src, fmt, 0, none, 0, if count ≥ 64 then List.replicate ((count - 64) / 8) 0 else [], false, []⟩

/-- `has_arg_been_visited`, /repo/src/scn/impl.cpp:1468-1482, for an id in range; an index outside
    the vector is undefined (`none`). -/
def FH.visited (st : FH V) (id : Nat) : Option Bool :=
  if id < 64 then some (st.lower.testBit id)
  else (st.upper[(id - 64) / 8]?).map fun b => b.testBit ((id - 64) % 8)

/-- `set_arg_as_visited`, /repo/src/scn/impl.cpp:1484-1504. -/
def FH.setVisited (count : Nat) (st : FH V) (id : Nat) : Option (FH V) :=
  if id ≥ count then some (st.onError .invalidFormatString)
  else
    match st.visited id with
    | none => none
    | some v =>
      let st := if v then st.onError .invalidFormatString else st
      if id < 64 then some { st with lower := st.lower ||| 1 <<< id }
      else
        match st.upper[(id - 64) / 8]? with
        | none => none
        | some b =>
          some { st with upper := st.upper.set ((id - 64) / 8) ((b ||| 1 <<< ((id - 64) % 8)) % 256) }

/-- The loop over all but the last byte in `check_args_exhausted`,
    /repo/src/scn/impl.cpp:1436-1443; the result is `last_args_count` (which may wrap, hence an
    integer) or `none` for "not exhausted". -/
def upperLoop : List Nat → Int → Option Int
  | [], c => some c
  | b :: bs, c => if b ≠ 255 then none else upperLoop bs (c - 8)

/-- `static_cast<uint8_t>(1u << last_args_count) - 1`, an `int`,
    /repo/src/scn/impl.cpp:1445; a shift by 32 or more is undefined (`none`). -/
def lastMask (c : Int) : Option Int :=
  if c < 0 ∨ c ≥ 32 then none else some (((1 <<< c.toNat) % 256 : Nat) - 1)

/-- `check_args_exhausted`, /repo/src/scn/impl.cpp:1417-1450. `visited_args_upper.end() - 1` and
    `back()` on an empty vector are undefined. -/
def FH.checkExhausted (count : Nat) (st : FH V) : Option (FH V) :=
  let mask := if count ≥ 64 then 2 ^ 64 - 1 else 1 <<< count - 1
  if st.lower ≠ mask then some (st.onError .invalidFormatString)
  else if count < 64 then some st
  else
    match st.upper.getLast? with
    | none => none
    | some last =>
      match upperLoop st.upper.dropLast ((count : Int) - 64) with
      | none => some (st.onError .invalidFormatString)
      | some c =>
        match lastMask c with
        | none => none
        | some m => if (last : Int) ≠ m then some (st.onError .invalidFormatString) else some st

/-- `basic_scan_parse_context::next_arg_id`, /repo/include/scn/scan.h:6313-6324. At run time
    `do_check_arg_id` does nothing. -/
def nextArgId (next : Int) : Int × Nat := if next < 0 then (next, 0) else (next + 1, next.toNat)

/-- `basic_scan_parse_context::check_arg_id`, /repo/include/scn/scan.h:6326-6335. -/
def checkArgId (next : Int) : Int := if next > 0 then next else -1

/-- `on_arg_id()`, /repo/src/scn/impl.cpp:1638-1641. Where the numbering was explicit before, `on_error` of the parse context is
    called, /repo/include/scn/scan.h:6315-6319; the handler itself never looks at that error. -/
def FH.autoId (st : FH V) : FH V × Nat :=
  ({ st with nextId := (nextArgId st.nextId).1, mixed := st.mixed || decide (st.nextId < 0) }, (nextArgId st.nextId).2)

/-- `on_arg_id(id)`, /repo/src/scn/impl.cpp:1642-1646; with `on_error` of the parse context where the numbering was automatic before,
    /repo/include/scn/scan.h:6328-6332. -/
def FH.manualId (st : FH V) (id : Nat) : FH V × Nat :=
  ({ st with nextId := checkArgId st.nextId, mixed := st.mixed || decide (st.nextId > 0) }, id)

/-- `custom_reader`, /repo/src/scn/impl.h:6265-6291, with `parse_custom_arg`, /repo/include/scn/scan.h:5552-5583: once the scanner has parsed
    its specification, an error of the parse context is reported instead of scanning. -/
def Env.custom (env : Env V) (mixed : Bool) (id : Nat) (pos src : List Nat) : List Nat × Res (V × List Nat) :=
  if mixed then (pos, .err .invalidFormatString) else env.readCustom id pos src

/-- The loop of `on_literal_text`, /repo/src/scn/impl.cpp:1598-1636, with `is_first_char_space`,
    /repo/src/scn/impl.h:1315-1323, its iterations bounded by the first argument: the new source position
    and the failure. -/
def litLoop (env : Env V) : Nat → List Nat → List Nat → Option (List Nat × Option Err)
  | _, src, [] => some (src, none)
  | 0, _, _ :: _ => none
  | n + 1, src, c :: cs =>
    match src with
    | [] => some (src, some .invalidLiteral)
    | d :: ds =>
      match getNext env.enc (c :: cs) with
      | none => none
      | some (after, cp) =>
        if cp = invalidCp then some (src, some .invalidFormatString)
        else if isCpSpace cp then
          match env.skip src, readWhileSpace env.enc .contiguous after with
          | some src', some text' => litLoop env n src' text'
          | _, _ => none
        else if d ≠ c then some (src, some .invalidLiteral)
        else litLoop env n ds cs

/-- `on_literal_text`, /repo/src/scn/impl.cpp:1598-1636. -/
def FH.onLiteral (env : Env V) (st : FH V) (text : List Nat) : Option (FH V) :=
  match litLoop env text.length st.src text with
  | none => none
  | some (src, failure) =>
    let st : FH V := { st with src := src, events := st.events ++ [Event.literal text st.src src failure] }
    match failure with
    | none => some st
    | some e => some (st.onError e)

/-- `on_visit_scan_arg`, /repo/src/scn/impl.cpp:1648-1663; `res` is the visitor's result, `id` an
    argument that exists. -/
def FH.onVisit (st : FH V) (id : Nat) (res : Res (V × List Nat)) : Option (FH V) :=
  let st' : FH V := { st with events := st.events ++ [Event.visit id st.src res] }
  match res with
  | .ub => none
  | .err e => some (st'.onError e)
  | .ok (_, rest) => some { st' with src := rest }

/-- `get_arg` followed by `set_arg_as_visited`, /repo/src/scn/impl.cpp:1369-1377, 1667-1668 and
    1680-1681: a missing argument is an error. -/
def FH.enter (env : Env V) (st : FH V) (id : Nat) : Option (FH V) :=
  (if id ≥ env.count then st.onError .invalidFormatString else st).setVisited env.count id

/-- Should the visitor run: no error so far and the argument exists,
    /repo/src/scn/impl.cpp:1651. -/
def FH.canVisit (env : Env V) (st : FH V) (id : Nat) : Bool := st.err.isNone && decide (id < env.count)

/-- `on_replacement_field`, /repo/src/scn/impl.cpp:1665-1674. -/
def FH.onField (env : Env V) (st : FH V) (id : Nat) : Option (FH V) :=
  match st.enter env id with
  | none => none
  | some st => if st.canVisit env id then st.onVisit id (env.readDefault id st.src) else some st

/-- The type of argument `id`: `none_type` when there is no such argument,
    /repo/src/scn/impl.cpp:1683-1695, /repo/include/scn/scan.h:6148-6175. -/
def Env.argTy (env : Env V) (id : Nat) : ArgTy := if id < env.count then env.ty id else .none

/-- `on_format_specs`, /repo/src/scn/impl.cpp:1676-1714. A specification error is only recorded in
    the local `handler`; the function then returns `parse_ctx.begin()`. -/
def FH.onSpecs (env : Env V) (st : FH V) (id : Nat) (pos : List Nat) : Option (FH V × List Nat) :=
  match st.enter env id with
  | none => none
  | some st =>
    if env.argTy id = .custom then
      let st := { st with fmtPos := pos }
      if st.canVisit env id then
        let r := env.custom st.mixed id pos st.src
        ({ st with fmtPos := r.1 }.onVisit id r.2).map fun st => (st, st.fmtPos)
      else some (st, st.fmtPos)
    else
      match parseSpecs env.cfg env.enc (env.argTy id) ⟨{}, false⟩ pos with
      | none => none
      | some (setter, p) =>
        match p with
        | 125 :: _ =>
          if setter.err then some (st, st.fmtPos)
          else
            let st := { st with fmtPos := p }
            if st.canVisit env id then
              (st.onVisit id (env.readSpecs id setter.specs st.src)).map fun st => (st, st.fmtPos)
            else some (st, st.fmtPos)
        | _ => some (st.onError .invalidFormatString, st.fmtPos)

/-- `format_handler` as the parser's handler, /repo/src/scn/impl.cpp:1575-1727. -/
def runHandler (env : Env V) : Handler (FH V) where
  onLiteral := FH.onLiteral env
  onAutoId := FH.autoId
  onManualId := FH.manualId
  onField st id _ := FH.onField env st id
  onSpecs := FH.onSpecs env
  onError st := st.onError .invalidFormatString
  hasError st := st.err.isSome

/-- A bound on the steps of the parser loop: it can be sent back to an earlier position at most
    once per argument (`parse_format_string_impl`, /repo/include/scn/scan.h:7757-7789). -/
def parseFuel (count : Nat) (fmt : List Nat) : Nat := (count + 2) * (fmt.length + 2)

/-- `vscan_parse_format_string` with `parse_format_string`, /repo/src/scn/impl.cpp:1729-1740 and
    /repo/include/scn/scan.h:7791-7799: the final handler state. -/
def vscanGeneral (env : Env V) (fmt src : List Nat) : Option (FH V) :=
  match parseLoop (runHandler env) (parseFuel env.count fmt) (FH.init env.count fmt src) fmt with
  | none => none
  | some st => st.checkExhausted env.count

/-- `scan_simple_single_argument`, /repo/src/scn/impl.cpp:1323-1367, and `vscan_value_internal`,
    1790-1796: one visit with the default reader. The argument exists. -/
def scanSimple (env : Env V) (src : List Nat) : Res (V × List Nat) := env.readDefault 0 src

/-- `vscan_internal`, /repo/src/scn/impl.cpp:1742-1788: the remaining source and the history, or the
    error with the history. -/
def vscan (env : Env V) (fmt src : List Nat) : Option (Except Err (List Nat) × List (Event V)) :=
  if fmt = [123, 125] ∧ env.count = 1 then
    match scanSimple env src with
    | .ub => none
    | .err e => some (.error e, [.visit 0 src (.err e)])
    | .ok (v, rest) => some (.ok rest, [.visit 0 src (.ok (v, rest))])
  else
    (vscanGeneral env fmt src).map fun st =>
      (match st.err with | some e => .error e | none => .ok st.src, st.events)

end Scn
