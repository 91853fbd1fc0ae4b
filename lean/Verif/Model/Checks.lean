import Verif.Model.VScan
/-
Model of the per-type specification checks, /repo/include/scn/scan.h:7897-8020, and of the
compile-time format string checker, /repo/include/scn/scan.h:6741-6819, 8519-8675, 9035-9134.
The checks return `true` when no error is reported.
-/
namespace Scn

/-- `check_int_type_specs`, /repo/include/scn/scan.h:7897-7917. -/
def checkInt (sp : Specs) : Bool :=
  if sp.type.ord > Pres.intHex.ord then false
  else if sp.localized then
    if sp.type = .intBinary then false
    else if sp.type = .intArbitrary then false
    else true
  else true

/-- `check_char_type_specs`, /repo/include/scn/scan.h:7919-7928. -/
def checkChar (sp : Specs) : Bool :=
  ! (decide (sp.type.ord > Pres.intHex.ord) || sp.type == .intArbitrary)

/-- `check_code_point_type_specs`, /repo/include/scn/scan.h:7930-7939. -/
def checkCodePoint (sp : Specs) : Bool := ! (sp.type != .none && sp.type != .character)

/-- `check_float_type_specs`, /repo/include/scn/scan.h:7941-7951. -/
def checkFloat (sp : Specs) : Bool :=
  ! (sp.type != .none && (decide (sp.type.ord < Pres.floatHex.ord) || decide (sp.type.ord > Pres.floatGeneral.ord)))

/-- `check_string_type_specs`, /repo/include/scn/scan.h:7953-7974. -/
def checkString (sp : Specs) : Bool :=
  if sp.type = .none ∨ sp.type = .string ∨ sp.type = .stringSet ∨ sp.type = .regex ∨ sp.type = .regexEscaped then
    true
  else if sp.type = .character then sp.precision != 0
  else false

/-- `check_pointer_type_specs`, /repo/include/scn/scan.h:7976-7985. -/
def checkPointer (sp : Specs) : Bool := ! (sp.type != .none && sp.type != .pointer)

/-- `check_bool_type_specs`, /repo/include/scn/scan.h:7987-8002. -/
def checkBool (sp : Specs) : Bool :=
  ! (sp.type != .none && sp.type != .string && sp.type != .intGeneric && sp.type != .intHex &&
     sp.type != .intBinary && sp.type != .intUnsigned && sp.type != .intOctal && sp.type != .intDecimal)

/-- `check_regex_type_specs`, /repo/include/scn/scan.h:8004-8020. -/
def checkRegex (sp : Specs) : Bool :=
  if sp.type = .none ∨ sp.setString = [] then false
  else sp.type == .regex || sp.type == .regexEscaped

/-- The switch of `scanner_parse_for_builtin_type`, /repo/include/scn/scan.h:9035-9117: the
    compile-time check of a specification; `none` is the `SCN_ENSURE(false)` for types without
    built-in scanner. Code points use the character check (lines 9081-9085). -/
def compileTypeCheck (ty : ArgTy) (sp : Specs) : Option Bool :=
  match ty with
  | .none | .custom => Option.none
  | .bool => some (checkBool sp)
  | .schar | .short | .int | .long | .llong | .uchar | .ushort | .uint | .ulong | .ullong => some (checkInt sp)
  | .narrowChar | .wideChar | .codePoint => some (checkChar sp)
  | .float | .double | .ldouble => some (checkFloat sp)
  | .narrowString | .narrowStringView | .wideString | .wideStringView => some (checkString sp)
  | .pointer => some (checkPointer sp)
  | .narrowRegex | .wideRegex => some (checkRegex sp)

/-- The run-time check: `check_specs` of the reader chosen by `make_reader`,
    /repo/src/scn/impl.h:3154-3163, 3533-3537, 4175-4179, 4703-4709, 5244-5295, 5532-5536,
    5660-5674, 5790-5799, 5846-5888. `none`: the violated `SCN_EXPECT`s of the regex reader, or a
    type without reader. -/
def runTypeCheck (ty : ArgTy) (sp : Specs) : Option Bool :=
  match ty with
  | .none | .custom => Option.none
  | .bool => some (checkBool sp)
  | .schar | .short | .int | .long | .llong | .uchar | .ushort | .uint | .ulong | .ullong => some (checkInt sp)
  | .narrowChar | .wideChar => some (checkChar sp)
  | .codePoint => some (checkCodePoint sp)
  | .float | .double | .ldouble => some (checkFloat sp)
  | .narrowString | .narrowStringView | .wideString | .wideStringView => some (checkString sp)
  | .pointer => some (checkPointer sp)
  | .narrowRegex | .wideRegex => if sp.setString = [] then Option.none else some (checkRegex sp)

/-- The constants of one `format_string_checker` instantiation: character type, configuration,
    argument types, and whether the source is contiguous and borrowed,
    /repo/include/scn/scan.h:8519-8533. -/
structure CTEnv where
  enc : Enc
  cfg : RegexCfg
  types : List ArgTy
  contiguous : Bool
  borrowed : Bool

/-- `format_string_checker` with its `compile_parse_context`, /repo/include/scn/scan.h:8519-8675 and
    6741-6793: `m_next_arg_id`, `m_visited_args`, and whether the non-constexpr `on_error` was
    reached (the program is then rejected). `autoUsed` and `manualUsed` record the calls of the two
    `on_arg_id` overloads. -/
structure CT where
  nextId : Int
  visited : List Bool
  err : Bool
  autoUsed : Bool
  manualUsed : Bool
  deriving DecidableEq, Repr

/-- `format_string_checker::on_error`, /repo/include/scn/scan.h:8617-8621. -/
def CT.onError (st : CT) : CT := { st with err := true }

/-- `on_literal_text` of the checker, /repo/include/scn/scan.h:8535-8557: the same loop as
    `validate_unicode`. -/
def CT.onLiteral (env : CTEnv) (st : CT) (text : List Nat) : Option CT :=
  (validateUnicode env.enc text).map fun ok => if ok then st else st.onError

/-- `on_arg_id()`, /repo/include/scn/scan.h:8559-8562, 6770-6777, 6313-6324, 6806-6819: errors when
    switching from manual indexing or when there is no such argument. -/
def CT.onAutoId (env : CTEnv) (st : CT) : CT × Nat :=
  let st := { st with autoUsed := true }
  if st.nextId < 0 then (st.onError, 0)
  else
    let id := st.nextId.toNat
    let st := { st with nextId := st.nextId + 1 }
    (if id ≥ env.types.length then st.onError else st, id)

/-- `on_arg_id(id)`, /repo/include/scn/scan.h:8563-8567, 6779-6785, 6326-6335, 6806-6819. -/
def CT.onManualId (env : CTEnv) (st : CT) (id : Nat) : CT × Nat :=
  let st := { st with manualUsed := true }
  let st := if st.nextId > 0 then st.onError else { st with nextId := -1 }
  (if id ≥ env.types.length then st.onError else st, id)

/-- `set_arg_as_read`, /repo/include/scn/scan.h:8632-8641. -/
def CT.setRead (env : CTEnv) (st : CT) (id : Nat) : CT :=
  if id ≥ env.types.length then st.onError
  else if st.visited.getD id false then st.onError
  else { st with visited := st.visited.set id true }

/-- `check_arg_can_be_read`, /repo/include/scn/scan.h:8643-8667. -/
def CT.canBeRead (env : CTEnv) (st : CT) (ty : ArgTy) : CT :=
  if (ty = .narrowStringView ∨ ty = .wideStringView) ∧ ¬ (env.contiguous ∧ env.borrowed) then st.onError
  else if (ty = .narrowRegex ∨ ty = .wideRegex) ∧ ¬ env.contiguous then st.onError
  else st

/-- `on_replacement_field` of the checker, /repo/include/scn/scan.h:8569-8592 (built-in types; a
    custom type's own `parse` is not modelled). -/
def CT.onField (env : CTEnv) (st : CT) (id : Nat) : CT :=
  let st := st.setRead env id
  match env.types[id]? with
  | Option.none => st
  | some ty =>
    let st := st.canBeRead env ty
    if ty = .narrowRegex ∨ ty = .wideRegex then st.onError else st

/-- `on_format_specs` of the checker, /repo/include/scn/scan.h:8594-8603, with
    `scanner_parse_for_builtin_type`, 9035-9134 (built-in types). -/
def CT.onSpecs (env : CTEnv) (st : CT) (id : Nat) (pos : List Nat) : Option (CT × List Nat) :=
  let st := st.setRead env id
  match env.types[id]? with
  | Option.none => some (st, pos)
  | some ty =>
    let st := st.canBeRead env ty
    if pos = [] then some (st, pos) else
    match parseSpecs env.cfg env.enc ty ⟨{}, false⟩ pos with
    | Option.none => Option.none
    | some (setter, p) =>
      let regexBad := (setter.specs.type = .regex ∨ setter.specs.type = .regexEscaped) ∧
        ¬ (env.contiguous ∧ env.borrowed)
      match compileTypeCheck ty setter.specs with
      | Option.none => Option.none
      | some ok => some (if setter.err ∨ ¬ ok ∨ regexBad then st.onError else st, p)

/-- `format_string_checker` as the parser's handler, /repo/include/scn/scan.h:8519-8675. Constant evaluation stops at the first error;
    here `hasError` stops the parser and the error is sticky (`get_error` itself always reports
    success, lines 8626-8629). -/
def compileHandler (env : CTEnv) : Handler CT where
  onLiteral := CT.onLiteral env
  onAutoId := CT.onAutoId env
  onManualId := CT.onManualId env
  onField st id _ := some (CT.onField env st id)
  onSpecs := CT.onSpecs env
  onError := CT.onError
  hasError st := st.err

/-- `check_args_exhausted` of the checker, /repo/include/scn/scan.h:8605-8615. -/
def CT.checkExhausted (st : CT) : CT := if st.visited.all id then st else st.onError

/-- `check_format_string`, /repo/include/scn/scan.h:8689-8704: the final state. -/
def compileCheck (env : CTEnv) (fmt : List Nat) : Option CT :=
  (parseLoop (compileHandler env) (parseFuel env.types.length fmt)
    ⟨0, List.replicate env.types.length false, false, false, false⟩ fmt).map CT.checkExhausted

end Scn
