import Verif.Model.Ast
import Verif.Model.Utf8
import Verif.Model.Lexer.Core
/-!
Model of `src/builder.rs`, first part: state, diagnostics, locations and the checks.

The builder shares its tables with the parser and the lexer through `Rc`; here they are the fields of `BState`, passed along.
A function that cannot fail, panic or touch the tables is an ordinary function; one that can panic returns `Res`; one that
reads or writes the tables runs in `BldM`; one returning `Result<_, ()>` runs in `BldR`.
-/
namespace Verif

/-- The `DiagnosticMessage` variants src/builder.rs emits. -/
inductive BldMsg where
  | InvalidSymbol (symbol : Text) | DuplicateHashKey | NthRefIsTooBig (nthRef : Text) | InvalidIdToGet (identifier : Text)
  | CircularArgumentReference (argName : Text) | DynamicConstantAssignment | CantAssignToSelf | CantAssignToNil
  | CantAssignToTrue | CantAssignToFalse | CantAssignToFile | CantAssignToLine | CantAssignToEncoding
  | CantSetVariable (varName : Text) | BlockAndBlockArgGiven | BlockGivenToYield | SymbolLiteralWithInterpolation
  | DuplicatedArgumentName | CantAssignToNumparam (numparam : Text) | ForwardArgAfterRestarg
  | ReservedForNumparam (numparam : Text) | KeyMustBeValidAsLocalVariable | DuplicateVariableName | DuplicateKeyName
  | RegexError (error : Text) | VoidValueExpression | OrdinaryParamDefined | NumparamUsed
deriving DecidableEq, Repr

/-- src/error/diagnostic.rs:11-20 with a structured message. -/
structure BldDiag where
  level : ErrorLevel
  message : BldMsg
  loc : Loc
deriving DecidableEq, Repr

/-- src/builder.rs:62-71 `Builder`, without the token pool (an allocator). -/
structure BState where
  staticEnv : StaticEnv := .new
  context : Context := .empty
  currentArg : CurArgStack := .new
  numparams : NumStack := .new
  patternVariables : VarStack := .new
  patternHashKeys : VarStack := .new
  diagnostics : List BldDiag := []
deriving DecidableEq, Repr

/-- What is not in the repository: `char::is_lowercase`, `char::is_alphanumeric`, and the regexp compiler behind the feature
`onig` (`none` when the feature is off, which is the default): it maps source and options to an error text or to the names of
the groups. -/
structure BldExt where
  isLowercase : Nat → Bool
  isAlphanumeric : Nat → Bool
  regex : Option (Text → Option Text → Except Text (List Text)) := none

/-- Computations over the tables. -/
abbrev BldM := StateT BState (Except Panic)
/-- The same returning `Result<_, ()>`: what was reported stays reported when an `Err(())` is passed up. -/
abbrev BldR := ExceptT Unit BldM

namespace Builder

/-- Abort. -/
def panic (p : Panic) : BldM α := fun _ => .error p
/-- Something that can only panic. -/
def liftR (r : Res α) : BldM α := fun s => do return (← r, s)
/-- `Err(())`. -/
def err : BldR α := ExceptT.mk (Pure.pure (.error ()))

/-- src/builder.rs:4103-4109 `error`. -/
def error (message : BldMsg) (loc : Loc) : BldM Unit := fun s =>
  .ok ((), { s with diagnostics := s.diagnostics ++ [⟨.error, message, loc⟩] })
/-- src/builder.rs:4111-4117 `warn`. -/
def warn (message : BldMsg) (loc : Loc) : BldM Unit := fun s =>
  .ok ((), { s with diagnostics := s.diagnostics ++ [⟨.warning, message, loc⟩] })

/-! ### Tokens and locations -/

/-- src/builder.rs:4300-4302 `value`: `into_string().unwrap()`. -/
def value (t : Token) : Res Text :=
  if Utf8.valid t.tokenValue then .ok (Utf8.lossy t.tokenValue) else .error .expect
/-- src/builder.rs:4304-4306 `clone_value`. -/
def cloneValue (t : Token) : Text := Utf8.lossy t.tokenValue
/-- src/builder.rs:4308-4310 `maybe_value`. -/
def maybeValue : Option Token → Res (Option Text)
  | none => .ok none
  | some t => do return some (← value t)
/-- src/builder.rs:4046-4048 `maybe_loc`. -/
def maybeLoc (t : Option Token) : Option Loc := t.map (·.loc)
/-- src/builder.rs:4288-4290 `maybe_node_expr`, `maybe_boxed_node_expr`. -/
def maybeExpr (n : Option Node) : Option Loc := n.map (·.expression)
/-- src/builder.rs:4312-4314 `join_exprs`. -/
def joinExprs (a b : Node) : Loc := a.expression.join b.expression
/-- src/builder.rs:4320-4327 `join_maybe_locs`. -/
def joinMaybeLocs : Option Loc → Option Loc → Option Loc
  | none, none => none
  | none, some r => some r
  | some l, none => some l
  | some l, some r => some (l.join r)
/-- src/builder.rs:4316-4318 `join_maybe_exprs`. -/
def joinMaybeExprs (a b : Option Node) : Option Loc := joinMaybeLocs (maybeExpr a) (maybeExpr b)
/-- src/builder.rs:4296-4298 `collection_expr`. -/
def collectionExpr (nodes : List Node) : Option Loc := joinMaybeExprs nodes.head? nodes.getLast?

/-- src/builder.rs:4329-4333 `CollectionMap`. -/
structure CollectionMap where
  beginL : Option Loc
  endL : Option Loc
  expressionL : Loc
deriving DecidableEq, Repr

/-- src/builder.rs:4050-4071 `collection_map`. -/
def collectionMap (begin_t : Option Token) (parts : List Node) (end_t : Option Token) : Res CollectionMap :=
  let begin_l := maybeLoc begin_t
  let end_l := maybeLoc end_t
  let expression_l := collectionExpr parts
  let expression_l := joinMaybeLocs expression_l begin_l
  let expression_l := joinMaybeLocs expression_l end_l
  match expression_l with
  | some l => .ok ⟨begin_l, end_l, l⟩
  | none => .error .unreachable

/-- The bytes are those of a heredoc start: `len() >= 2 && [0] == b'<' && [1] == b'<'`. -/
def startsHeredoc : Bytes → Bool
  | a :: b :: _ => a == asc '<' && b == asc '<'
  | _ => false
/-- src/builder.rs:4073-4081 `is_heredoc`. -/
def isHeredoc : Option Token → Bool
  | some t => startsHeredoc t.tokenValue
  | none => false

/-- src/builder.rs:4335-4339 `HeredocMap`. -/
structure HeredocMap where
  heredocBodyL : Loc
  heredocEndL : Loc
  expressionL : Loc
deriving DecidableEq, Repr

/-- src/builder.rs:4083-4101 `heredoc_map`. -/
def heredocMap (begin_t : Option Token) (parts : List Node) (end_t : Option Token) : Res HeredocMap :=
  match begin_t with
  | none => .error .expect
  | some b => match end_t with
    | none => .error .expect
    | some e => .ok ⟨(collectionExpr parts).getD e.loc, e.loc, b.loc⟩

/-! ### Verification -/

mutual
/-- src/builder.rs:3618-3708 `check_condition`. -/
def checkCondition : Node → Node
  | .Begin statements b e x => .Begin (checkConditionSingle statements) b e x
  | .And lhs rhs o x => .And (checkCondition lhs) (checkCondition rhs) o x
  | .Or lhs rhs o x => .Or (checkCondition lhs) (checkCondition rhs) o x
  | .Irange left right o x => .IFlipFlop (checkConditionOpt left) (checkConditionOpt right) o x
  | .Erange left right o x => .EFlipFlop (checkConditionOpt left) (checkConditionOpt right) o x
  | .Regexp parts options b e x => .MatchCurrentLine (.Regexp parts options b e x) x
  | other => other
/-- The statements of a parenthesized condition: rewritten when there is exactly one (src/builder.rs:3622-3645). -/
def checkConditionSingle : List Node → List Node
  | [] => []
  | stmt :: rest => match rest with
    | [] => [checkCondition stmt]
    | _ :: _ => stmt :: rest
/-- `Option::map(Self::check_condition)` (src/builder.rs:3680-3694). -/
def checkConditionOpt : Option Node → Option Node
  | none => none
  | some n => some (checkCondition n)
end

/-- `arg_name` on the argument nodes, `unreachable!` on others (src/builder.rs:3743-3758). -/
def argName : Node → Res (Option Text)
  | .Arg name _ => .ok (some name)
  | .Optarg name _ _ _ _ => .ok (some name)
  | .Kwarg name _ _ => .ok (some name)
  | .Kwoptarg name _ _ _ => .ok (some name)
  | .Shadowarg name _ => .ok (some name)
  | .Restarg name _ _ _ => .ok name
  | .Kwrestarg name _ _ _ => .ok name
  | .Blockarg name _ _ _ => .ok name
  | _ => .error .unreachable

/-- src/builder.rs:3760-3796 `arg_name_loc`. -/
def argNameLoc : Node → Res Loc
  | .Arg _ x => .ok x
  | .Optarg _ _ name_l _ _ => .ok name_l
  | .Kwarg _ name_l _ => .ok name_l
  | .Kwoptarg _ _ name_l _ => .ok name_l
  | .Shadowarg _ x => .ok x
  | .Blockarg _ _ name_l x => .ok (name_l.getD x)
  | .Restarg _ _ name_l x => .ok (name_l.getD x)
  | .Kwrestarg _ _ name_l x => .ok (name_l.getD x)
  | _ => .error .unreachable

/-- `&s[0..1]`: the first byte of the text as a `str`; panics when there is none or when it is not a whole character. -/
def firstByteStr : Text → Res Text
  | [] => .error .index
  | c :: _ => if c < 0x80 then .ok [c] else .error .index

/-- src/builder.rs:3887-3889 `arg_name_collides`. -/
def argNameCollides (thisName thatName : Text) : Res Bool := do
  let first ← firstByteStr thisName
  if first ≠ lit "_" then return thisName == thatName else return false

/-- `HashMap<String, &Node>` as an association list; keys are inserted only when absent. -/
abbrev ArgMap := List (Text × Node)

/-- src/builder.rs:3798-3827 `check_duplicate_arg`. -/
def checkDuplicateArg (thisArg : Node) (map : ArgMap) : BldM ArgMap := do
  match ← liftR (argName thisArg) with
  | none => return map
  | some thisName =>
    match map.lookup thisName with
    | none => return (thisName, thisArg) :: map
    | some thatArg =>
      match ← liftR (argName thatArg) with
      | none => return map
      | some thatName =>
        if ← liftR (argNameCollides thisName thatName) then
          error .DuplicatedArgumentName (← liftR (argNameLoc thisArg))
          return map
        else return map

mutual
/-- One iteration of the loop in `check_duplicate_args`, src/builder.rs:3715-3740. -/
def checkDuplicateArgsNode : Node → ArgMap → BldM ArgMap
  | .Mlhs items _ _ _, map => checkDuplicateArgs items map
  | .Procarg0 args _ _ _, map => checkDuplicateArgs args map
  | .ForwardArg _, map => Pure.pure map
  | .Kwnilarg _ _, map => Pure.pure map
  | .Arg a b, map => checkDuplicateArg (.Arg a b) map
  | .Optarg a b c d e, map => checkDuplicateArg (.Optarg a b c d e) map
  | .Restarg a b c d, map => checkDuplicateArg (.Restarg a b c d) map
  | .Kwarg a b c, map => checkDuplicateArg (.Kwarg a b c) map
  | .Kwoptarg a b c d, map => checkDuplicateArg (.Kwoptarg a b c d) map
  | .Kwrestarg a b c d, map => checkDuplicateArg (.Kwrestarg a b c d) map
  | .Shadowarg a b, map => checkDuplicateArg (.Shadowarg a b) map
  | .Blockarg a b c d, map => checkDuplicateArg (.Blockarg a b c d) map
  | _, _ => panic .unreachable
/-- src/builder.rs:3710-3741 `check_duplicate_args`; the map is returned. -/
def checkDuplicateArgs : List Node → ArgMap → BldM ArgMap
  | [], map => Pure.pure map
  | arg :: rest, map => Bind.bind (checkDuplicateArgsNode arg map) fun map => checkDuplicateArgs rest map
end

/-- The patterns `"_1" | ... | "_9"`. -/
def isNumparamName (name : Text) : Bool :=
  match name with
  | [u, n] => u == 95 && 49 ≤ n && n ≤ 57
  | _ => false

/-- src/builder.rs:3829-3847 `check_assignment_to_numparam`. -/
def checkAssignmentToNumparam (name : Text) (loc : Loc) : BldR Unit := do
  let s ← get
  if s.context.isInDynamicBlock && isNumparamName name && s.numparams.hasNumparams then
    error (.CantAssignToNumparam name) loc
    err

/-- The loop of src/builder.rs:3852-3858: the last rest argument and the last forwarding argument. -/
def lastRestForward : List Node → Option Node → Option Node → Option Node × Option Node
  | [], r, f => (r, f)
  | n :: rest, r, f => match n with
    | .Restarg .. => lastRestForward rest (some n) f
    | .ForwardArg .. => lastRestForward rest r (some n)
    | _ => lastRestForward rest r f

/-- src/builder.rs:3849-3870 `validate_no_forward_arg_after_restarg`. -/
def validateNoForwardArgAfterRestarg (args : List Node) : BldM Unit :=
  match lastRestForward args none none with
  | (none, _) => Pure.pure ()
  | (some _, some forwardArg) => error .ForwardArgAfterRestarg forwardArg.expression
  | (some _, none) => Pure.pure ()

/-- src/builder.rs:3872-3885 `check_reserved_for_numparam`. -/
def checkReservedForNumparam (name : Text) (loc : Loc) : BldR Unit :=
  if isNumparamName name then do
    error (.ReservedForNumparam name) loc
    err
  else Pure.pure ()

/-- src/builder.rs:3891-3904 `check_lvar_name`. -/
def checkLvarName (x : BldExt) (name : Text) (loc : Loc) : BldR Unit :=
  match name with
  | [] => (panic .expect : BldM Unit)
  | first :: rest =>
    if (x.isLowercase first || first == 95) && rest.all (fun c => x.isAlphanumeric c || c == 95) then Pure.pure ()
    else do
      error .KeyMustBeValidAsLocalVariable loc
      err

/-- src/builder.rs:3906-3918 `check_duplicate_pattern_variable`. -/
def checkDuplicatePatternVariable (name : Text) (loc : Loc) : BldR Unit := do
  if name.head? = some 95 then return ()
  let s ← get
  if ← (liftR (s.patternVariables.isDeclared name) : BldM Bool) then
    error .DuplicateVariableName loc
    err
  else
    let v ← (liftR (s.patternVariables.declare name) : BldM VarStack)
    set { s with patternVariables := v }

/-- src/builder.rs:3920-3928 `check_duplicate_pattern_key`. -/
def checkDuplicatePatternKey (name : Text) (loc : Loc) : BldR Unit := do
  let s ← get
  if ← (liftR (s.patternHashKeys.isDeclared name) : BldM Bool) then
    error .DuplicateKeyName loc
    err
  else
    let v ← (liftR (s.patternHashKeys.declare name) : BldM VarStack)
    set { s with patternHashKeys := v }

/-! ### Helpers -/

mutual
/-- One node of the loop in `static_string`. -/
def staticStringNode : Node → Option Text
  | .Str value _ _ _ => some (Utf8.lossy value)
  | .Begin statements _ _ _ => staticString statements
  | _ => none
/-- src/builder.rs:3934-3957 `static_string`. -/
def staticString : List Node → Option Text
  | [] => some []
  | n :: rest => match staticStringNode n with
    | none => none
    | some t => match staticString rest with
      | none => none
      | some r => some (t ++ r)
end

/-- src/builder.rs:3960-3989 `build_static_regexp` (feature `onig`): the names of the groups. -/
def buildStaticRegexp (rx : Text → Option Text → Except Text (List Text)) (parts : List Node) (options : Option Text) (loc : Loc) :
    BldM (Option (List Text)) :=
  match staticString parts with
  | none => Pure.pure none
  | some source => match rx source options with
    | .ok names => Pure.pure (some names)
    | .error e => do
      error (.RegexError e) loc
      return none

/-- src/builder.rs:3992-3999, 4002-4008 `validate_static_regexp`, with and without the feature. -/
def validateStaticRegexp (x : BldExt) (parts : List Node) (options : Option Text) (loc : Loc) : BldM Unit :=
  match x.regex with
  | none => Pure.pure ()
  | some rx => do let _ ← buildStaticRegexp rx parts options loc

/-- src/builder.rs:4011-4035, 4038-4040 `static_regexp_captures`, with and without the feature. -/
def staticRegexpCaptures (x : BldExt) (node : Node) : BldM (Option (List Text)) :=
  match x.regex with
  | none => Pure.pure none
  | some rx => match node with
    | .Regexp parts options _ _ expression_l =>
      let re_options := match options with
        | some (.RegOpt options _) => options
        | _ => none
      buildStaticRegexp rx parts re_options expression_l
    | _ => Pure.pure none

mutual
/-- src/builder.rs:4131-4184 `void_value`. -/
def voidValue : Node → Option Node
  | .Return a k x => some (.Return a k x)
  | .Break a k x => some (.Break a k x)
  | .Next a k x => some (.Next a k x)
  | .Redo x => some (.Redo x)
  | .Retry x => some (.Retry x)
  | .MatchPattern value _ _ _ => voidValue value
  | .MatchPatternP value _ _ _ => voidValue value
  | .Begin statements _ _ _ => voidValueLast statements
  | .KwBegin statements _ _ _ => voidValueLast statements
  | .IfTernary _ if_true if_false _ _ _ =>
    if (voidValue if_true).isSome && (voidValue if_false).isSome then some if_true else none
  | .If _ if_true if_false _ _ _ _ _ =>
    match if_true, if_false with
    | some if_true, some if_false =>
      if (voidValue if_true).isSome && (voidValue if_false).isSome then some if_true else none
    | _, _ => none
  | .IfMod _ if_true if_false _ _ =>
    match if_true, if_false with
    | some if_true, some if_false =>
      if (voidValue if_true).isSome && (voidValue if_false).isSome then some if_true else none
    | _, _ => none
  | .And lhs _ _ _ => voidValue lhs
  | .Or lhs _ _ _ => voidValue lhs
  | _ => none
/-- `check_stmts`, src/builder.rs:4132-4138: the last statement. -/
def voidValueLast : List Node → Option Node
  | [] => none
  | n :: rest => match rest with
    | [] => voidValue n
    | _ :: _ => voidValueLast rest
end

/-- src/builder.rs:4119-4129 `value_expr`. -/
def valueExpr (node : Node) : BldR Unit :=
  match voidValue node with
  | some void => do
    error .VoidValueExpression void.expression
    err
  | none => Pure.pure ()

/-- src/builder.rs:4227-4236 `is_kwargs`. -/
def isKwargs : Node → Bool
  | .Hash _ none none _ => true
  | _ => false

/-- The replacement made in both branches of `rewrite_hash_args_to_kwargs` (`unreachable!` for anything but a hash). -/
def hashToKwargs : Node → Res Node
  | .Hash pairs _ _ x => .ok (.Kwargs pairs x)
  | _ => .error .unreachable

/-- src/builder.rs:4186-4225 `rewrite_hash_args_to_kwargs`; `args` reversed is `last :: …`. -/
def rewriteHashArgsToKwargs (args : List Node) : Res (List Node) :=
  match args.reverse with
  | [] => .ok args
  | last :: rest =>
    if isKwargs last then do return (rest.reverse ++ [← hashToKwargs last])
    else match last, rest with
      | .BlockPass .., prev :: rest' =>
        if isKwargs prev then do return (rest'.reverse ++ [← hashToKwargs prev, last]) else .ok args
      | _, _ => .ok args

/-- The loop of src/builder.rs:4253-4272 over the enclosing scopes, innermost first: one error for each that uses numbered
parameters, up to the nearest static one. -/
def numparamErrors (loc : Loc) : List NumItem → BldM Unit
  | [] => Pure.pure ()
  | item :: rest =>
    if item.isStatic then Pure.pure ()
    else if item.value > 0 then do
      error .NumparamUsed loc
      numparamErrors loc rest
    else numparamErrors loc rest

/-- src/builder.rs:4238-4285 `try_declare_numparam`. -/
def tryDeclareNumparam (name : Text) (loc : Loc) : BldM Bool := do
  let s ← get
  match name with
  | [u, n] =>
    if u == 95 && (49 ≤ n && n ≤ 57) && !s.staticEnv.isDeclared name && s.context.isInDynamicBlock then
      if s.numparams.hasOrdinaryParams then error .OrdinaryParamDefined loc
      numparamErrors loc s.numparams.innerClone.tail
      modify fun s => { s with staticEnv := s.staticEnv.declare name }
      let st ← liftR (s.numparams.register ((n : Int) - 48))
      modify fun s => { s with numparams := st }
      return true
    else return false
  | _ => return false

/-- src/builder.rs:332-341 `validate_sym_value`. -/
def validateSymValue (v : Bytes) (loc : Loc) : BldM Unit :=
  if !Utf8.valid v then error (.InvalidSymbol (lit "UTF-8")) loc else Pure.pure ()

end Builder
end Verif
