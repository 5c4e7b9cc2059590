import Verif.Model.Builder.Core
/-!
Model of `src/builder.rs`, second part: the functions the grammar calls to build nodes.
`Box::new(Node::X(X { .. }))` is the constructor; `self.loc(&t)` is `t.loc`.
-/
namespace Verif
namespace Builder

/-- src/builder.rs:20-23 `LoopType`. -/
inductive LoopType where | While | Until
deriving DecidableEq, Repr
/-- src/builder.rs:26-36 `KeywordCmd`. -/
inductive KeywordCmd where
  | Break | Defined | Next | Redo | Retry | Return | Super | Yield | Zsuper
deriving DecidableEq, Repr
/-- src/builder.rs:38-41 `MethodCallType`. -/
inductive MethodCallType where | Send | CSend
deriving DecidableEq, Repr
/-- src/builder.rs:44-47 `LogicalOp`. -/
inductive LogicalOp where | And | Or
deriving DecidableEq, Repr
/-- src/builder.rs:50-53 `PKwLabel`. -/
inductive PKwLabel where
  | PlainLabel (t : Token)
  | QuotedLabel (begin_t : Token) (parts : List Node) (end_t : Token)
/-- src/builder.rs:56-59 `ArgsType`. -/
inductive ArgsType where
  | Args (args : Option Node)
  | Numargs (n : Nat)

/-! ### Literals -/

/-- src/builder.rs:102-106 `nil`. -/
def nil (t : Token) : Node := .Nil t.loc
/-- src/builder.rs:108-112 `true_`. -/
def true_ (t : Token) : Node := .True t.loc
/-- src/builder.rs:114-118 `false_`. -/
def false_ (t : Token) : Node := .False t.loc
/-- src/builder.rs:122-129 `integer`. -/
def integer (t : Token) : Res Node := do return .Int (← value t) none t.loc
/-- src/builder.rs:131-138 `float`. -/
def float (t : Token) : Res Node := do return .Float (← value t) none t.loc
/-- src/builder.rs:140-147 `rational`. -/
def rational (t : Token) : Res Node := do return .Rational (← value t) none t.loc
/-- src/builder.rs:149-156 `complex`. -/
def complex (t : Token) : Res Node := do return .Complex (← value t) none t.loc

/-- src/builder.rs:158-191 `unary_num`. -/
def unaryNum (unary_t : Token) (numeric : Node) : Res Node := do
  let l := unary_t.loc
  let sign ← value unary_t
  match numeric with
  | .Int v _ x => return .Int (sign ++ v) (some l) (l.join x)
  | .Float v _ x => return .Float (sign ++ v) (some l) (l.join x)
  | .Rational v _ x => return .Rational (sign ++ v) (some l) (l.join x)
  | .Complex v _ x => return .Complex (sign ++ v) (some l) (l.join x)
  | _ => .error .unreachable

/-- src/builder.rs:193-197 `__line__`. -/
def line (t : Token) : Node := .Line t.loc

/-- src/builder.rs:201-235 `str_node`. -/
def strNode (begin_t : Option Token) (value : Bytes) (parts : List Node) (end_t : Option Token) : Res Node :=
  if isHeredoc begin_t then do
    let m ← heredocMap begin_t parts end_t
    return .Heredoc parts m.heredocBodyL m.heredocEndL m.expressionL
  else do
    let m ← collectionMap begin_t parts end_t
    return .Str value m.beginL m.endL m.expressionL

/-- src/builder.rs:237-246 `string_internal`. -/
def stringInternal (t : Token) : Node := .Str t.tokenValue none none t.loc

/-- The end of `string_compose`: several parts. -/
def stringComposeMany (begin_t : Option Token) (parts : List Node) (end_t : Option Token) : Res Node :=
  if isHeredoc begin_t then do
    let m ← heredocMap begin_t parts end_t
    return .Heredoc parts m.heredocBodyL m.heredocEndL m.expressionL
  else do
    let m ← collectionMap begin_t parts end_t
    return .Dstr parts m.beginL m.endL m.expressionL

/-- src/builder.rs:248-306 `string_compose`. -/
def stringCompose (begin_t : Option Token) (parts : List Node) (end_t : Option Token) : Res Node :=
  match parts with
  | [] => strNode begin_t [] parts end_t
  | [.Str value b e x] =>
    if begin_t.isNone && end_t.isNone then .ok (.Str value b e x) else strNode begin_t value parts end_t
  | [.Dstr p b e x] =>
    if begin_t.isNone && end_t.isNone then .ok (.Dstr p b e x) else .error .unreachable
  | [.Heredoc p b e x] =>
    if begin_t.isNone && end_t.isNone then .ok (.Heredoc p b e x) else .error .unreachable
  | _ => stringComposeMany begin_t parts end_t

/-- src/builder.rs:308-322 `character`. -/
def character (t : Token) : Node := .Str t.tokenValue (some (t.loc.withEnd (t.loc.begin + 1))) none t.loc
/-- src/builder.rs:324-328 `__file__`. -/
def file (t : Token) : Node := .File t.loc

/-- src/builder.rs:343-358 `symbol`. -/
def symbol (start_t value_t : Token) : BldM Node := do
  let x := start_t.loc.join value_t.loc
  validateSymValue value_t.tokenValue x
  return .Sym value_t.tokenValue (some start_t.loc) none x
/-- src/builder.rs:360-370 `symbol_internal`. -/
def symbolInternal (t : Token) : BldM Node := do
  validateSymValue t.tokenValue t.loc
  return .Sym t.tokenValue none none t.loc
/-- src/builder.rs:372-411 `symbol_compose`. -/
def symbolCompose (begin_t : Token) (parts : List Node) (end_t : Token) : BldM Node :=
  match parts with
  | [.Str value _ _ _] => do
    let m ← liftR (collectionMap (some begin_t) [] (some end_t))
    validateSymValue value m.expressionL
    return .Sym value m.beginL m.endL m.expressionL
  | _ => do
    let m ← liftR (collectionMap (some begin_t) parts (some end_t))
    return .Dsym parts m.beginL m.endL m.expressionL

/-- src/builder.rs:415-446 `xstring_compose`. -/
def xstringCompose (begin_t : Token) (parts : List Node) (end_t : Token) : Node :=
  if startsHeredoc begin_t.tokenValue then
    .XHeredoc parts ((collectionExpr parts).getD end_t.loc) end_t.loc begin_t.loc
  else .Xstr parts begin_t.loc end_t.loc (begin_t.loc.join end_t.loc)

/-- src/builder.rs:529-529 `TAB_WIDTH`. -/
def TAB_WIDTH : Nat := 8
/-- The loop of `dedent_string` on the rest of the text from column `col` on; it returns what is left. -/
def dedentLoop (width : Nat) : Nat → Bytes → Bytes
  | _, [] => []
  | col, c :: rest =>
    if ¬ col < width then c :: rest
    else if c = asc ' ' then dedentLoop width (col + 1) rest
    else if c = asc '\t' then
      let n := TAB_WIDTH * (col / TAB_WIDTH + 1)
      if n > TAB_WIDTH then c :: rest else dedentLoop width n rest
    else c :: rest
/-- src/builder.rs:531-556 `dedent_string`. -/
def dedentString (s : Bytes) (width : Nat) : Bytes := dedentLoop width 0 s

/-- The closure `dedent_heredoc_parts` of `heredoc_dedent`. -/
def dedentHeredocParts (width : Nat) : List Node → Res (List Node)
  | [] => .ok []
  | part :: rest => match part with
    | .Str value b e x => do
      let value := dedentString value width
      let rest ← dedentHeredocParts width rest
      return if value.isEmpty then rest else .Str value b e x :: rest
    | .Begin .. | .Gvar .. | .BackRef .. | .NthRef .. | .Ivar .. | .Cvar .. => do
      return part :: (← dedentHeredocParts width rest)
    | _ => .error .unreachable
/-- src/builder.rs:450-527 `heredoc_dedent`. -/
def heredocDedent (node : Node) (level : Int) : Res Node :=
  if level = 0 then .ok node
  else if level < 0 then .error .expect
  else match node with
    | .Heredoc parts b e x => do return .Heredoc (← dedentHeredocParts level.toNat parts) b e x
    | .XHeredoc parts b e x => do return .XHeredoc (← dedentHeredocParts level.toNat parts) b e x
    | _ => .error .unreachable

/-- `sort_unstable` on characters: the increasing rearrangement (by insertion). -/
def insertChar (c : Nat) : Text → Text
  | [] => [c]
  | d :: rest => if c ≤ d then c :: d :: rest else d :: insertChar c rest
/-- `sort_unstable`. -/
def sortChars : Text → Text
  | [] => []
  | c :: rest => insertChar c (sortChars rest)
/-- `Vec::dedup`: drops equal neighbours. -/
def dedupChars : Text → Text
  | [] => []
  | c :: rest => match dedupChars rest with
    | [] => [c]
    | d :: rest' => if c = d then d :: rest' else c :: d :: rest'

/-- src/builder.rs:560-580 `regexp_options`. -/
def regexpOptions (t : Token) : Res (Option Node) := do
  if (← csub t.loc.stop t.loc.begin) = 1 then return none
  let x ← t.loc.adjustBegin 1
  let options ← value t
  let options := dedupChars (sortChars (options.drop 1))
  return some (.RegOpt (if options.isEmpty then none else some options) x)

/-- src/builder.rs:582-610 `regexp_compose`. -/
def regexpCompose (ext : BldExt) (begin_t : Token) (parts : List Node) (end_t : Token) (options : Option Node) : BldM Node := do
  let begin_l := begin_t.loc
  let end_l := end_t.loc.resize 1
  let x := begin_l.join ((maybeExpr options).getD end_t.loc)
  match options with
  | some (.RegOpt o l) => validateStaticRegexp ext parts o l
  | none => validateStaticRegexp ext parts none x
  | _ => panic .unreachable
  return .Regexp parts options begin_l end_l x

/-! ### Arrays and hashes -/

/-- src/builder.rs:614-632 `array`. -/
def array (begin_t : Option Token) (elements : List Node) (end_t : Option Token) : Res Node := do
  let m ← collectionMap begin_t elements end_t
  return .Array elements m.beginL m.endL m.expressionL
/-- src/builder.rs:634-643 `splat`. -/
def splat (star_t : Token) (value : Option Node) : Node :=
  .Splat value star_t.loc (star_t.loc.maybeJoin (maybeExpr value))
/-- src/builder.rs:645-666 `word`. -/
def word (parts : List Node) : Res Node :=
  match parts with
  | [.Str v b e x] => .ok (.Str v b e x)
  | [.Dstr p b e x] => .ok (.Dstr p b e x)
  | _ => do
    let m ← collectionMap none parts none
    return .Dstr parts m.beginL m.endL m.expressionL
/-- src/builder.rs:668-683 `words_compose`. -/
def wordsCompose (begin_t : Token) (elements : List Node) (end_t : Token) : Node :=
  .Array elements (some begin_t.loc) (some end_t.loc) (begin_t.loc.join end_t.loc)
/-- The closure of `symbols_compose` on one part. -/
def symbolPart : Node → BldM Node
  | .Str value b e x => do
    validateSymValue value x
    return .Sym value b e x
  | .Dstr parts b e x => Pure.pure (.Dsym parts b e x)
  | other => Pure.pure other
/-- src/builder.rs:685-732 `symbols_compose`. -/
def symbolsCompose (begin_t : Token) (parts : List Node) (end_t : Token) : BldM Node := do
  let parts ← parts.mapM symbolPart
  return .Array parts (some begin_t.loc) (some end_t.loc) (begin_t.loc.join end_t.loc)

/-- src/builder.rs:736-751 `pair`. -/
def pair (key : Node) (assoc_t : Token) (value : Node) : Node := .Pair key value assoc_t.loc (joinExprs key value)
/-- src/builder.rs:753-773 `pair_keyword`. -/
def pairKeyword (key_t : Token) (value : Node) : BldM Node := do
  let key_loc := key_t.loc
  let key_l ← liftR (key_loc.adjustEnd (-1))
  let colon_l := key_loc.withBegin (← liftR (csub key_loc.stop 1))
  let x := key_loc.join value.expression
  validateSymValue key_t.tokenValue key_l
  return .Pair (.Sym key_t.tokenValue none none key_l) value colon_l x
/-- src/builder.rs:775-805 `pair_quoted`. -/
def pairQuoted (begin_t : Token) (parts : List Node) (end_t : Token) (value : Node) : BldM Node := do
  let end_l := end_t.loc
  let quote_loc : Loc := ⟨← liftR (csub end_l.stop 2), ← liftR (csub end_l.stop 1)⟩
  let colon_l := end_l.withBegin (← liftR (csub end_l.stop 1))
  let end_t : Token := { end_t with loc := quote_loc }
  let x := begin_t.loc.join value.expression
  return .Pair (← symbolCompose begin_t parts end_t) value colon_l x

/-- src/builder.rs:1061-1114 `accessible`. -/
def accessible (node : Node) : BldM Node :=
  match node with
  | .Lvar name x => do
    if name.getLast? = some 63 ∨ name.getLast? = some 33 then error (.InvalidIdToGet name) x
    if ← tryDeclareNumparam name x then return .Lvar name x
    let s ← get
    if !s.staticEnv.isDeclared name then
      return .Send none name [] none (some x) none none none x
    if s.currentArg.top = some name then error (.CircularArgumentReference name) x
    return .Lvar name x
  | other => Pure.pure other

/-- src/builder.rs:807-833 `pair_label`. -/
def pairLabel (ext : BldExt) (key_t : Token) : BldM Node := do
  let value_l ← liftR (key_t.loc.adjustEnd (-1))
  let label ← liftR (value key_t)
  match label with
  | [] => panic .expect
  | first :: _ =>
    let value : Node := if ext.isLowercase first then .Lvar label value_l
      else .Const none label none value_l value_l
    let value ← accessible value
    pairKeyword key_t value
/-- src/builder.rs:835-844 `kwsplat`. -/
def kwsplat (dstar_t : Token) (value : Node) : Node := .Kwsplat value dstar_t.loc (value.expression.join dstar_t.loc)

mutual
/-- `keys_are_equal` in `associate`. The options of a regexp are compared with the derived `PartialEq`, locations included; they
are always a `RegOpt` (`regexp_compose` panics on anything else). -/
def keysAreEqual : Node → Node → Bool
  | .Sym a _ _ _, .Sym b _ _ _ => a == b
  | .Str a _ _ _, .Str b _ _ _ => a == b
  | .Int a _ _, .Int b _ _ => a == b
  | .Float a _ _, .Float b _ _ => a == b
  | .Rational a _ _, .Rational b _ _ => a == b
  | .Complex a _ _, .Complex b _ _ => a == b
  | .Regexp p o _ _ _, .Regexp p' o' _ _ _ =>
    (match o, o' with
      | none, none => true
      | some (.RegOpt a x), some (.RegOpt b y) => a == b && x == y
      | _, _ => false) && keysAreEqualAll p p'
  | _, _ => false
/-- `len() == len()` and `zip().all()`. -/
def keysAreEqualAll : List Node → List Node → Bool
  | [], [] => true
  | a :: as, b :: bs => keysAreEqual a b && keysAreEqualAll as bs
  | _, _ => false
end

/-- The key of a pair (`kwsplat`s have none). -/
def pairKey : Node → Option Node
  | .Pair key _ _ _ => some key
  | _ => none
/-- The inner loop of `associate`: later pairs with the same key. -/
def warnDuplicateKeys (first : Node) : List Node → BldM Unit
  | [] => Pure.pure ()
  | p :: rest => do
    match pairKey first, pairKey p with
    | some key1, some key2 => if keysAreEqual key1 key2 then warn .DuplicateHashKey key2.expression
    | _, _ => Pure.pure ()
    warnDuplicateKeys first rest
/-- The outer loop of `associate`. -/
def warnAllDuplicateKeys : List Node → BldM Unit
  | [] => Pure.pure ()
  | p :: rest => do
    warnDuplicateKeys p rest
    warnAllDuplicateKeys rest
/-- src/builder.rs:846-949 `associate`. -/
def associate (begin_t : Option Token) (pairs : List Node) (end_t : Option Token) : BldM Node := do
  warnAllDuplicateKeys pairs
  let m ← liftR (collectionMap begin_t pairs end_t)
  return .Hash pairs m.beginL m.endL m.expressionL

/-- src/builder.rs:953-970 `range_inclusive`. -/
def rangeInclusive (left : Option Node) (dot2_t : Token) (right : Option Node) : Node :=
  .Irange left right dot2_t.loc ((dot2_t.loc.maybeJoin (maybeExpr left)).maybeJoin (maybeExpr right))
/-- src/builder.rs:972-989 `range_exclusive`. -/
def rangeExclusive (left : Option Node) (dot3_t : Token) (right : Option Node) : Node :=
  .Erange left right dot3_t.loc ((dot3_t.loc.maybeJoin (maybeExpr left)).maybeJoin (maybeExpr right))

/-! ### Access -/

/-- src/builder.rs:995-999 `self_`. -/
def self_ (t : Token) : Node := .Self_ t.loc
/-- src/builder.rs:1001-1007 `lvar`. -/
def lvar (t : Token) : Res Node := do return .Lvar (← value t) t.loc
/-- src/builder.rs:1009-1015 `ivar`. -/
def ivar (t : Token) : Res Node := do return .Ivar (← value t) t.loc
/-- src/builder.rs:1017-1023 `gvar`. -/
def gvar (t : Token) : Res Node := do return .Gvar (← value t) t.loc
/-- src/builder.rs:1025-1031 `cvar`. -/
def cvar (t : Token) : Res Node := do return .Cvar (← value t) t.loc
/-- src/builder.rs:1033-1039 `back_ref`. -/
def backRef (t : Token) : Res Node := do return .BackRef (← value t) t.loc

/-- src/builder.rs:1041-1041 `MAX_NTH_REF`. -/
def MAX_NTH_REF : Nat := 0b111111111111111111111111111111
/-- `&s[1..]`: panics when the text is empty or its first character is longer than a byte. -/
def dropFirstByte : Text → Res Text
  | [] => .error .index
  | c :: rest => if c < 0x80 then .ok rest else .error .index
/-- `str::parse::<usize>()`: an optional plus sign and decimal digits, below 2^64. -/
def parseUsize (t : Text) : Option Nat :=
  let digits := if t.head? = some 43 then t.tail else t
  if digits = [] then none
  else if digits.all (fun c => 48 ≤ c && c ≤ 57) then
    let n := digits.foldl (fun n c => n * 10 + (c - 48)) 0
    if n < 2 ^ 64 then some n else none
  else none
/-- src/builder.rs:1043-1060 `nth_ref`. -/
def nthRef (t : Token) : BldM Node := do
  let name ← liftR (value t)
  let name ← liftR (dropFirstByte name)
  match parseUsize name with
  | none => warn (.NthRefIsTooBig name) t.loc
  | some n => if n > MAX_NTH_REF then warn (.NthRefIsTooBig name) t.loc
  return .NthRef name t.loc

/-- src/builder.rs:1116-1127 `const_`. -/
def const_ (t : Token) : Res Node := do return .Const none (← value t) none t.loc t.loc
/-- src/builder.rs:1129-1149 `const_global`. -/
def constGlobal (colon3_t name_t : Token) : Res Node := do
  let scope : Node := .Cbase colon3_t.loc
  return .Const (some scope) (← value name_t) (some colon3_t.loc) name_t.loc (scope.expression.join name_t.loc)
/-- src/builder.rs:1151-1169 `const_fetch`. -/
def constFetch (scope : Node) (colon2_t name_t : Token) : Res Node := do
  return .Const (some scope) (← value name_t) (some colon2_t.loc) name_t.loc (scope.expression.join name_t.loc)
/-- src/builder.rs:1171-1175 `__encoding__`. -/
def encoding (t : Token) : Node := .Encoding t.loc

/-! ### Assignments -/

/-- src/builder.rs:1181-1306 `assignable`. -/
def assignable (node : Node) : BldR Node :=
  match node with
  | .Cvar name x => Pure.pure (.Cvasgn name none x none x)
  | .Ivar name x => Pure.pure (.Ivasgn name none x none x)
  | .Gvar name x => Pure.pure (.Gvasgn name none x none x)
  | .Const scope name double_colon_l name_l x => do
    let s ← get
    if s.context.get .inDef then
      error .DynamicConstantAssignment x
      err
    else return .Casgn scope name none double_colon_l name_l none x
  | .Lvar name x => do
    checkAssignmentToNumparam name x
    checkReservedForNumparam name x
    modify fun s => { s with staticEnv := s.staticEnv.declare name }
    return .Lvasgn name none x none x
  | .MatchVar name name_l x => do
    checkAssignmentToNumparam name name_l
    checkReservedForNumparam name name_l
    return .MatchVar name name_l x
  | .Self_ x => do error .CantAssignToSelf x; err
  | .Nil x => do error .CantAssignToNil x; err
  | .True x => do error .CantAssignToTrue x; err
  | .False x => do error .CantAssignToFalse x; err
  | .File x => do error .CantAssignToFile x; err
  | .Line x => do error .CantAssignToLine x; err
  | .Encoding x => do error .CantAssignToEncoding x; err
  | .BackRef name x => do error (.CantSetVariable name) x; err
  | .NthRef name x => do error (.CantSetVariable (lit "$" ++ name)) x; err
  | _ => (panic .unreachable : BldM Node)

/-- src/builder.rs:1308-1329 `const_op_assignable`. -/
def constOpAssignable : Node → Res Node
  | .Const scope name double_colon_l name_l x => .ok (.Casgn scope name none double_colon_l name_l none x)
  | _ => .error .unreachable

/-- src/builder.rs:1331-1405 `assign`. -/
def assign (lhs : Node) (eql_t : Token) (rhs : Node) : Res Node :=
  let op_l := some eql_t.loc
  let x := joinExprs lhs rhs
  match lhs with
  | .Cvasgn name _ name_l _ _ => .ok (.Cvasgn name (some rhs) name_l op_l x)
  | .Ivasgn name _ name_l _ _ => .ok (.Ivasgn name (some rhs) name_l op_l x)
  | .Gvasgn name _ name_l _ _ => .ok (.Gvasgn name (some rhs) name_l op_l x)
  | .Lvasgn name _ name_l _ _ => .ok (.Lvasgn name (some rhs) name_l op_l x)
  | .Casgn scope name _ dc name_l _ _ => .ok (.Casgn scope name (some rhs) dc name_l op_l x)
  | .IndexAsgn recv indexes _ b e _ _ => .ok (.IndexAsgn recv indexes (some rhs) b e op_l x)
  | .Send recv name args d s b e _ _ =>
    if args.isEmpty then .ok (.Send recv name [rhs] d s b e op_l x) else .error .unreachable
  | .CSend recv name args d s b e _ _ =>
    if args.isEmpty then .ok (.CSend recv name [rhs] d s b e op_l x) else .error .unreachable
  | _ => .error .unreachable

/-- The left side of `op_assign` after its first `match`. -/
def opAssignLhs : Node → BldR Node
  | .Gvasgn a b c d e => Pure.pure (.Gvasgn a b c d e)
  | .Ivasgn a b c d e => Pure.pure (.Ivasgn a b c d e)
  | .Lvasgn a b c d e => Pure.pure (.Lvasgn a b c d e)
  | .Cvasgn a b c d e => Pure.pure (.Cvasgn a b c d e)
  | .Casgn a b c d e f g => Pure.pure (.Casgn a b c d e f g)
  | .Send a b c d e f g h i => Pure.pure (.Send a b c d e f g h i)
  | .CSend a b c d e f g h i => Pure.pure (.CSend a b c d e f g h i)
  | .Index recv indexes b e x => Pure.pure (.IndexAsgn recv indexes none b e none x)
  | .BackRef name x => do error (.CantSetVariable name) x; err
  | .NthRef name x => do error (.CantSetVariable (lit "$" ++ name)) x; err
  | _ => (panic .unreachable : BldM Node)

/-- src/builder.rs:1407-1495 `op_assign`. -/
def opAssign (lhs : Node) (op_t : Token) (rhs : Node) : BldR Node := do
  let operator ← (liftR (value op_t) : BldM Text)
  let operator := operator.dropLast
  let x := joinExprs lhs rhs
  let recv ← opAssignLhs lhs
  if operator = lit "&&" then return .AndAsgn recv rhs op_t.loc x
  else if operator = lit "||" then return .OrAsgn recv rhs op_t.loc x
  else return .OpAsgn recv operator rhs op_t.loc x

/-- src/builder.rs:1497-1515 `multi_lhs`. -/
def multiLhs (begin_t : Option Token) (items : List Node) (end_t : Option Token) : Res Node := do
  let m ← collectionMap begin_t items end_t
  return .Mlhs items m.beginL m.endL m.expressionL
/-- src/builder.rs:1517-1532 `multi_assign`. -/
def multiAssign (lhs : Node) (eql_t : Token) (rhs : Node) : Node := .Masgn lhs rhs eql_t.loc (joinExprs lhs rhs)

/-! ### Definitions -/

/-- src/builder.rs:1538-1561 `def_class`. -/
def defClass (class_t : Token) (name : Node) (lt_t : Option Token) (superclass body : Option Node) (end_t : Token) : Node :=
  .Class name superclass body class_t.loc (maybeLoc lt_t) end_t.loc (class_t.loc.join end_t.loc)
/-- src/builder.rs:1563-1584 `def_sclass`. -/
def defSclass (class_t lshift_t : Token) (expr : Node) (body : Option Node) (end_t : Token) : Node :=
  .SClass expr body class_t.loc lshift_t.loc end_t.loc (class_t.loc.join end_t.loc)
/-- src/builder.rs:1586-1604 `def_module`. -/
def defModule (module_t : Token) (name : Node) (body : Option Node) (end_t : Token) : Node :=
  .Module name body module_t.loc end_t.loc (module_t.loc.join end_t.loc)

/-- src/builder.rs:1610-1636 `def_method`. -/
def defMethod (def_t name_t : Token) (args body : Option Node) (end_t : Token) : BldR Node := do
  let name ← (liftR (value name_t) : BldM Text)
  checkReservedForNumparam name name_t.loc
  return .Def name args body def_t.loc name_t.loc (some end_t.loc) none (def_t.loc.join end_t.loc)
/-- src/builder.rs:1638-1667 `def_endless_method`. -/
def defEndlessMethod (def_t name_t : Token) (args : Option Node) (assignment_t : Token) (body : Option Node) : BldR Node :=
  match maybeExpr body with
  | none => (panic .unreachable : BldM Node)
  | some body_l => do
    let name ← (liftR (value name_t) : BldM Text)
    checkReservedForNumparam name name_t.loc
    return .Def name args body def_t.loc name_t.loc none (some assignment_t.loc) (def_t.loc.join body_l)
/-- src/builder.rs:1669-1700 `def_singleton`. -/
def defSingleton (def_t : Token) (definee : Node) (dot_t name_t : Token) (args body : Option Node) (end_t : Token) : BldR Node := do
  let name ← (liftR (value name_t) : BldM Text)
  checkReservedForNumparam name name_t.loc
  return .Defs definee name args body def_t.loc dot_t.loc name_t.loc none (some end_t.loc) (def_t.loc.join end_t.loc)
/-- src/builder.rs:1702-1736 `def_endless_singleton`. -/
def defEndlessSingleton (def_t : Token) (definee : Node) (dot_t name_t : Token) (args : Option Node) (assignment_t : Token)
    (body : Option Node) : BldR Node :=
  match maybeExpr body with
  | none => (panic .unreachable : BldM Node)
  | some body_l => do
    let name ← (liftR (value name_t) : BldM Text)
    checkReservedForNumparam name name_t.loc
    return .Defs definee name args body def_t.loc dot_t.loc name_t.loc (some assignment_t.loc) none (def_t.loc.join body_l)
/-- src/builder.rs:1738-1746 `undef_method`. -/
def undefMethod (undef_t : Token) (names : List Node) : Node :=
  .Undef names undef_t.loc (undef_t.loc.maybeJoin (collectionExpr names))
/-- src/builder.rs:1748-1762 `alias`. -/
def alias (alias_t : Token) (to from_ : Node) : Node := .Alias to from_ alias_t.loc (alias_t.loc.join from_.expression)

/-! ### Formal arguments -/

/-- src/builder.rs:1768-1793 `args`. -/
def args (begin_t : Option Token) (args : List Node) (end_t : Option Token) : BldM (Option Node) := do
  let _ ← checkDuplicateArgs args []
  validateNoForwardArgAfterRestarg args
  if begin_t.isNone && args.isEmpty && end_t.isNone then return none
  let m ← liftR (collectionMap begin_t args end_t)
  return some (.Args args m.beginL m.endL m.expressionL)
/-- src/builder.rs:1795-1799 `forward_arg`. -/
def forwardArg (t : Token) : Node := .ForwardArg t.loc
/-- src/builder.rs:1801-1811 `arg`. -/
def arg (name_t : Token) : BldR Node := do
  let name ← (liftR (value name_t) : BldM Text)
  checkReservedForNumparam name name_t.loc
  return .Arg name name_t.loc
/-- src/builder.rs:1813-1833 `optarg`. -/
def optarg (name_t eql_t : Token) (default : Node) : BldR Node := do
  let name ← (liftR (value name_t) : BldM Text)
  checkReservedForNumparam name name_t.loc
  return .Optarg name default name_t.loc eql_t.loc (name_t.loc.join default.expression)
/-- Name and location of an optional name token, checked (in `restarg` and `kwrestarg`). -/
def checkedName : Option Token → BldR (Option Text × Option Loc)
  | none => Pure.pure (none, none)
  | some name_t => do
    let name ← (liftR (value name_t) : BldM Text)
    checkReservedForNumparam name name_t.loc
    return (some name, some name_t.loc)
/-- src/builder.rs:1835-1858 `restarg`. -/
def restarg (star_t : Token) (name_t : Option Token) : BldR Node := do
  let (name, name_l) ← checkedName name_t
  return .Restarg name star_t.loc name_l (star_t.loc.maybeJoin name_l)
/-- src/builder.rs:1860-1873 `kwarg`. -/
def kwarg (name_t : Token) : BldR Node := do
  let name ← (liftR (value name_t) : BldM Text)
  checkReservedForNumparam name name_t.loc
  let name_l ← (liftR (name_t.loc.adjustEnd (-1)) : BldM Loc)
  return .Kwarg name name_l name_t.loc
/-- src/builder.rs:1875-1894 `kwoptarg`. -/
def kwoptarg (name_t : Token) (default : Node) : BldR Node := do
  let name ← (liftR (value name_t) : BldM Text)
  checkReservedForNumparam name name_t.loc
  let name_l ← (liftR (name_t.loc.adjustEnd (-1)) : BldM Loc)
  return .Kwoptarg name default name_l (default.expression.join name_t.loc)
/-- src/builder.rs:1896-1919 `kwrestarg`. -/
def kwrestarg (dstar_t : Token) (name_t : Option Token) : BldR Node := do
  let (name, name_l) ← checkedName name_t
  return .Kwrestarg name dstar_t.loc name_l (dstar_t.loc.maybeJoin name_l)
/-- src/builder.rs:1921-1929 `kwnilarg`. -/
def kwnilarg (dstar_t nil_t : Token) : Node := .Kwnilarg nil_t.loc (dstar_t.loc.join nil_t.loc)
/-- src/builder.rs:1931-1940 `shadowarg`. -/
def shadowarg (name_t : Token) : BldR Node := do
  let name ← (liftR (value name_t) : BldM Text)
  checkReservedForNumparam name name_t.loc
  return .Shadowarg name name_t.loc
/-- src/builder.rs:1942-1962 `blockarg`. -/
def blockarg (amper_t : Token) (name_t : Option Token) : BldR Node := do
  let name_l := maybeLoc name_t
  let name ← (liftR (maybeValue name_t) : BldM (Option Text))
  match name_l, name with
  | some l, some n => checkReservedForNumparam n l
  | _, _ => Pure.pure ()
  return .Blockarg name amper_t.loc name_l (amper_t.loc.maybeJoin name_l)
/-- src/builder.rs:1964-1987 `procarg0`. -/
def procarg0 : Node → Res Node
  | .Mlhs items b e x => .ok (.Procarg0 items b e x)
  | .Arg name x => .ok (.Procarg0 [.Arg name x] none none x)
  | _ => .error .unreachable

/-! ### Method calls -/

/-- src/builder.rs:1993-1998 `call_type_for_dot`. -/
def callTypeForDot (dot_t : Option Token) : MethodCallType :=
  match dot_t with
  | some t => if t.tokenType = .tANDDOT then .CSend else .Send
  | none => .Send
/-- src/builder.rs:2000-2004 `forwarded_args`. -/
def forwardedArgs (t : Token) : Node := .ForwardedArgs t.loc
/-- `unwrap_or_else(|| unreachable!())`. -/
def orUnreachable : Option α → Res α
  | some a => .ok a
  | none => .error .unreachable
/-- `expect`/`unwrap`. -/
def orExpect : Option α → Res α
  | some a => .ok a
  | none => .error .expect
/-- src/builder.rs:2006-2061 `call_method`. -/
def callMethod (receiver : Option Node) (dot_t selector_t lparen_t : Option Token) (args : List Node) (rparen_t : Option Token) :
    Res Node := do
  let begin_l ← orUnreachable ((maybeExpr receiver).or (maybeLoc selector_t))
  let end_l ← orUnreachable (((maybeLoc rparen_t).or (maybeExpr args.getLast?)).or (maybeLoc selector_t))
  let x := begin_l.join end_l
  let dot_l := maybeLoc dot_t
  let selector_l := maybeLoc selector_t
  let begin_l := maybeLoc lparen_t
  let end_l := maybeLoc rparen_t
  let method_name := (← maybeValue selector_t).getD (lit "call")
  let args ← rewriteHashArgsToKwargs args
  match callTypeForDot dot_t with
  | .Send => return .Send receiver method_name args dot_l selector_l begin_l end_l none x
  | .CSend => return .CSend (← orExpect receiver) method_name args (← orExpect dot_l) selector_l begin_l end_l none x
/-- src/builder.rs:2063-2067 `call_lambda`. -/
def callLambda (t : Token) : Node := .Lambda t.loc

/-- The closure `validate_block_and_block_arg` of `block`. -/
def validateBlockAndBlockArg (args : List Node) : BldR Unit :=
  match args.getLast? with
  | some (.BlockPass v o x) => do error .BlockAndBlockArgGiven (Node.BlockPass v o x).expression; err
  | some (.ForwardedArgs x) => do error .BlockAndBlockArgGiven (Node.ForwardedArgs x).expression; err
  | _ => Pure.pure ()
/-- The block node around a call (twice in `block`). -/
def blockNode (call : Node) (begin_t : Token) (block_args : ArgsType) (body : Option Node) (end_t : Token) : Node :=
  let x := call.expression.join end_t.loc
  match block_args with
  | .Args args => .Block call args body begin_t.loc end_t.loc x
  | .Numargs n => .Numblock call n (body.getD (.Nil ⟨0, 0⟩)) begin_t.loc end_t.loc x
/-- The closure `rewrite_args_and_loc` of `block`. -/
def rewriteArgsAndLoc (method_args : List Node) (keyword_x : Loc) (begin_t : Token) (block_args : ArgsType) (body : Option Node)
    (end_t : Token) : Res (List Node × Loc) := do
  let actual_send ← orExpect method_args.head?
  let block := blockNode actual_send begin_t block_args body end_t
  return ([block], keyword_x.join block.expression)
/-- The checks at the start of `block`. -/
def blockChecks : Node → BldR Unit
  | .Yield _ keyword_l _ _ _ => do error .BlockGivenToYield keyword_l; err
  | .Send _ _ args _ _ _ _ _ _ => validateBlockAndBlockArg args
  | .CSend _ _ args _ _ _ _ _ _ => validateBlockAndBlockArg args
  | _ => Pure.pure ()
/-- src/builder.rs:2069-2236 `block`. -/
def block (method_call : Node) (begin_t : Token) (block_args : ArgsType) (body : Option Node) (end_t : Token) : BldR Node := do
  blockChecks method_call
  match method_call with
  | .Send .. | .CSend .. | .Index .. | .Super .. | .ZSuper .. | .Lambda .. =>
    return blockNode method_call begin_t block_args body end_t
  | .Return args keyword_l x => do
    let (args, x) ← (liftR (rewriteArgsAndLoc args x begin_t block_args body end_t) : BldM (List Node × Loc))
    return .Return args keyword_l x
  | .Next args keyword_l x => do
    let (args, x) ← (liftR (rewriteArgsAndLoc args x begin_t block_args body end_t) : BldM (List Node × Loc))
    return .Next args keyword_l x
  | .Break args keyword_l x => do
    let (args, x) ← (liftR (rewriteArgsAndLoc args x begin_t block_args body end_t) : BldM (List Node × Loc))
    return .Break args keyword_l x
  | _ => (panic .unreachable : BldM Node)

/-- src/builder.rs:2237-2250 `block_pass`. -/
def blockPass (amper_t : Token) (value : Option Node) : Node :=
  .BlockPass value amper_t.loc (amper_t.loc.maybeJoin (maybeExpr value))
/-- src/builder.rs:2252-2290 `attr_asgn`. -/
def attrAsgn (receiver : Node) (dot_t selector_t : Token) : Res Node := do
  let x := receiver.expression.join selector_t.loc
  let method_name := (← value selector_t) ++ lit "="
  match callTypeForDot (some dot_t) with
  | .Send => return .Send (some receiver) method_name [] (some dot_t.loc) (some selector_t.loc) none none none x
  | .CSend => return .CSend receiver method_name [] dot_t.loc (some selector_t.loc) none none none x
/-- src/builder.rs:2292-2312 `index`. -/
def index (recv : Node) (lbrack_t : Token) (indexes : List Node) (rbrack_t : Token) : Res Node := do
  return .Index recv (← rewriteHashArgsToKwargs indexes) lbrack_t.loc rbrack_t.loc (recv.expression.join rbrack_t.loc)
/-- src/builder.rs:2314-2334 `index_asgn`. -/
def indexAsgn (recv : Node) (lbrack_t : Token) (indexes : List Node) (rbrack_t : Token) : Node :=
  .IndexAsgn recv indexes none lbrack_t.loc rbrack_t.loc none (recv.expression.join rbrack_t.loc)
/-- src/builder.rs:2336-2359 `binary_op`. -/
def binaryOp (receiver : Node) (operator_t : Token) (arg : Node) : BldR Node := do
  valueExpr receiver
  valueExpr arg
  let name ← (liftR (value operator_t) : BldM Text)
  return .Send (some receiver) name [arg] none (some operator_t.loc) none none none (joinExprs receiver arg)
/-- src/builder.rs:2361-2400 `match_op`. -/
def matchOp (ext : BldExt) (receiver : Node) (match_t : Token) (arg : Node) : BldR Node := do
  valueExpr receiver
  valueExpr arg
  let x := joinExprs receiver arg
  match ← (staticRegexpCaptures ext receiver : BldM _) with
  | some captures =>
    modify fun s => { s with staticEnv := captures.foldl StaticEnv.declare s.staticEnv }
    return .MatchWithLvasgn receiver arg match_t.loc x
  | none => return .Send (some receiver) (lit "=~") [arg] none (some match_t.loc) none none none x
/-- src/builder.rs:2402-2425 `unary_op`. -/
def unaryOp (op_t : Token) (receiver : Node) : BldR Node := do
  valueExpr receiver
  let op ← (liftR (value op_t) : BldM Text)
  let name := if op = lit "+" ∨ op = lit "-" then op ++ lit "@" else op
  return .Send (some receiver) name [] none (some op_t.loc) none none none (receiver.expression.join op_t.loc)
/-- src/builder.rs:2427-2488 `not_op`. -/
def notOp (not_t : Token) (begin_t : Option Token) (receiver : Option Node) (end_t : Option Token) : BldR Node :=
  match receiver with
  | some receiver => do
    valueExpr receiver
    let x := not_t.loc.join ((maybeLoc end_t).getD receiver.expression)
    return .Send (some (checkCondition receiver)) (lit "!") [] none (some not_t.loc) (maybeLoc begin_t) (maybeLoc end_t) none x
  | none => do
    let m ← (liftR (collectionMap begin_t [] end_t) : BldM CollectionMap)
    let nil_node : Node := .Begin [] m.beginL m.endL m.expressionL
    return .Send (some nil_node) (lit "!") [] none (some not_t.loc) none none none (nil_node.expression.join not_t.loc)

/-! ### Control flow -/

/-- src/builder.rs:2496-2525 `logical_op`. -/
def logicalOp (type : LogicalOp) (lhs : Node) (op_t : Token) (rhs : Node) : BldR Node := do
  valueExpr lhs
  let x := joinExprs lhs rhs
  match type with
  | .And => return .And lhs rhs op_t.loc x
  | .Or => return .Or lhs rhs op_t.loc x
/-- src/builder.rs:2529-2562 `condition`. -/
def condition (cond_t : Token) (cond : Node) (then_t : Token) (if_true : Option Node) (else_t : Option Token)
    (if_false : Option Node) (end_t : Option Token) : Node :=
  let end_l := ((((maybeLoc end_t).or (maybeExpr if_false)).or (maybeLoc else_t)).or (maybeExpr if_true)).getD then_t.loc
  .If (checkCondition cond) if_true if_false cond_t.loc then_t.loc (maybeLoc else_t) (maybeLoc end_t) (cond_t.loc.join end_l)
/-- src/builder.rs:2564-2588 `condition_mod`. -/
def conditionMod (if_true if_false : Option Node) (cond_t : Token) (cond : Node) : Res Node :=
  match if_true, if_false with
  | none, some pre => .ok (.IfMod (checkCondition cond) if_true if_false cond_t.loc (pre.expression.join cond.expression))
  | some pre, none => .ok (.IfMod (checkCondition cond) if_true if_false cond_t.loc (pre.expression.join cond.expression))
  | _, _ => .error .unreachable
/-- src/builder.rs:2590-2610 `ternary`. -/
def ternary (cond : Node) (question_t : Token) (if_true : Node) (colon_t : Token) (if_false : Node) : Node :=
  .IfTernary cond if_true if_false question_t.loc colon_t.loc (joinExprs cond if_false)
/-- src/builder.rs:2614-2636 `when`. -/
def when (when_t : Token) (patterns : List Node) (then_t : Token) (body : Option Node) : Node :=
  let end_l := ((maybeExpr body).or (maybeExpr patterns.getLast?)).getD when_t.loc
  .When patterns body when_t.loc then_t.loc (when_t.loc.join end_l)
/-- src/builder.rs:2638-2661 `case`. -/
def case (case_t : Token) (expr : Option Node) (when_bodies : List Node) (else_t : Option Token) (else_body : Option Node)
    (end_t : Token) : Node :=
  .Case expr when_bodies else_body case_t.loc (maybeLoc else_t) end_t.loc (case_t.loc.join end_t.loc)
/-- src/builder.rs:2665-2699 `loop_`. -/
def loop_ (type : LoopType) (keyword_t : Token) (cond : Node) (do_t : Token) (body : Option Node) (end_t : Token) : Node :=
  let x := keyword_t.loc.join end_t.loc
  let cond := checkCondition cond
  match type with
  | .While => .While cond body keyword_t.loc (some do_t.loc) (some end_t.loc) x
  | .Until => .Until cond body keyword_t.loc (some do_t.loc) (some end_t.loc) x
/-- src/builder.rs:2701-2743 `loop_mod`. -/
def loopMod (type : LoopType) (body : Node) (keyword_t : Token) (cond : Node) : Node :=
  let x := body.expression.join cond.expression
  let cond := checkCondition cond
  match type, body with
  | .While, .KwBegin .. => .WhilePost cond body keyword_t.loc x
  | .While, _ => .While cond (some body) keyword_t.loc none none x
  | .Until, .KwBegin .. => .UntilPost cond body keyword_t.loc x
  | .Until, _ => .Until cond (some body) keyword_t.loc none none x
/-- src/builder.rs:2745-2771 `for_`. -/
def for_ (for_t : Token) (iterator : Node) (in_t : Token) (iteratee : Node) (do_t : Token) (body : Option Node) (end_t : Token) :
    Node :=
  .For iterator iteratee body for_t.loc in_t.loc do_t.loc end_t.loc (for_t.loc.join end_t.loc)
/-- src/builder.rs:2775-2851 `keyword_cmd`. -/
def keywordCmd (type : KeywordCmd) (keyword_t : Token) (lparen_t : Option Token) (args : List Node) (rparen_t : Option Token) :
    BldR Node := do
  let keyword_l := keyword_t.loc
  match type, args.getLast? with
  | .Yield, some (.BlockPass ..) => do error .BlockGivenToYield keyword_l; err
  | _, _ => Pure.pure ()
  let args ← (liftR (if type = .Yield ∨ type = .Super then rewriteHashArgsToKwargs args else .ok args) : BldM (List Node))
  let begin_l := maybeLoc lparen_t
  let end_l := maybeLoc rparen_t
  let x := keyword_l.join ((end_l.or (maybeExpr args.getLast?)).getD keyword_l)
  match type with
  | .Break => return .Break args keyword_l x
  | .Defined => do
    let v ← (liftR (orExpect args.head?) : BldM Node)
    return .Defined v keyword_l begin_l end_l x
  | .Next => return .Next args keyword_l x
  | .Redo => return .Redo x
  | .Retry => return .Retry x
  | .Return => return .Return args keyword_l x
  | .Super => return .Super args keyword_l begin_l end_l x
  | .Yield => return .Yield args keyword_l begin_l end_l x
  | .Zsuper => return .ZSuper x
/-- src/builder.rs:2855-2874 `preexe`. -/
def preexe (preexe_t lbrace_t : Token) (body : Option Node) (rbrace_t : Token) : Node :=
  .Preexe body preexe_t.loc lbrace_t.loc rbrace_t.loc (preexe_t.loc.join rbrace_t.loc)
/-- src/builder.rs:2875-2894 `postexe`. -/
def postexe (postexe_t lbrace_t : Token) (body : Option Node) (rbrace_t : Token) : Node :=
  .Postexe body postexe_t.loc lbrace_t.loc rbrace_t.loc (postexe_t.loc.join rbrace_t.loc)

/-- src/builder.rs:2898-2927 `rescue_body`. -/
def rescueBody (rescue_t : Token) (exc_list : Option Node) (assoc_t : Option Token) (exc_var : Option Node) (then_t : Option Token)
    (body : Option Node) : Node :=
  let end_l := ((((maybeExpr body).or (maybeLoc then_t)).or (maybeExpr exc_var)).or (maybeExpr exc_list)).getD rescue_t.loc
  .RescueBody exc_list exc_var body rescue_t.loc (maybeLoc assoc_t) (maybeLoc then_t) (rescue_t.loc.join end_l)

/-- The first half of `begin_body`: body, rescues and `else`. -/
def beginBodyRescue (compound_stmt : Option Node) (rescue_bodies : List Node) (else_ : Option (Token × Option Node)) :
    Res (Option Node) :=
  if !rescue_bodies.isEmpty then
    match else_ with
    | some (else_t, else_) => do
      let begin_l ← orUnreachable ((maybeExpr compound_stmt).or (maybeExpr rescue_bodies.head?))
      let end_l := (maybeExpr else_).getD else_t.loc
      return some (.Rescue compound_stmt rescue_bodies else_ (some else_t.loc) (begin_l.join end_l))
    | none => do
      let begin_l ← orUnreachable ((maybeExpr compound_stmt).or (maybeExpr rescue_bodies.head?))
      let end_l ← orUnreachable (maybeExpr rescue_bodies.getLast?)
      return some (.Rescue compound_stmt rescue_bodies none none (begin_l.join end_l))
  else match else_ with
    | some (else_t, else_) => do
      let statements := match compound_stmt with
        | some (.Begin stmts _ _ _) => stmts
        | some other => [other]
        | none => []
      let parts := else_.toList
      let m ← collectionMap (some else_t) parts none
      let statements := statements ++ [.Begin parts m.beginL m.endL m.expressionL]
      let m ← collectionMap none statements none
      return some (.Begin statements m.beginL m.endL m.expressionL)
    | none => .ok compound_stmt
/-- src/builder.rs:2929-3041 `begin_body`. -/
def beginBody (compound_stmt : Option Node) (rescue_bodies : List Node) (else_ : Option (Token × Option Node))
    (ensure : Option (Token × Option Node)) : Res (Option Node) := do
  let result ← beginBodyRescue compound_stmt rescue_bodies else_
  match ensure with
  | some (ensure_t, body) =>
    let begin_l := (maybeExpr result).getD ensure_t.loc
    let end_l := (maybeExpr body).getD ensure_t.loc
    return some (.Ensure result body ensure_t.loc (begin_l.join end_l))
  | none => return result

/-- src/builder.rs:3047-3066 `compstmt`. -/
def compstmt (statements : List Node) : Res (Option Node) :=
  match statements with
  | [] => .ok none
  | [n] => .ok (some n)
  | _ => do
    let m ← collectionMap none statements none
    return some (.Begin statements m.beginL m.endL m.expressionL)
/-- src/builder.rs:3068-3124 `begin`. -/
def begin (begin_t : Token) (body : Option Node) (end_t : Token) : Node :=
  let b := some begin_t.loc
  let e := some end_t.loc
  let x := begin_t.loc.join end_t.loc
  match body with
  | some body => match body with
    | .Mlhs items _ _ _ => .Mlhs items b e x
    | .Begin statements begin_l end_l _ =>
      if begin_l.isNone && end_l.isNone then .Begin statements b e x else .Begin [body] b e x
    | _ => .Begin [body] b e x
  | none => .Begin [] b e x
/-- src/builder.rs:3126-3167 `begin_keyword`. -/
def beginKeyword (begin_t : Token) (body : Option Node) (end_t : Token) : Node :=
  let b := some begin_t.loc
  let e := some end_t.loc
  let x := begin_t.loc.join end_t.loc
  match body with
  | some (.Begin statements _ _ _) => .KwBegin statements b e x
  | some other => .KwBegin [other] b e x
  | none => .KwBegin [] b e x

/-! ### Pattern matching -/

/-- src/builder.rs:3173-3203 `case_match`. -/
def caseMatch (case_t : Token) (expr : Node) (in_bodies : List Node) (else_t : Option Token) (else_body : Option Node)
    (end_t : Token) : Node :=
  let else_body := match else_t, else_body with
    | some else_t, none => some (.EmptyElse else_t.loc)
    | _, _ => else_body
  .CaseMatch expr in_bodies else_body case_t.loc (maybeLoc else_t) end_t.loc (case_t.loc.join end_t.loc)
/-- src/builder.rs:3205-3220 `match_pattern`. -/
def matchPattern (value : Node) (assoc_t : Token) (pattern : Node) : Node :=
  .MatchPattern value pattern assoc_t.loc (joinExprs value pattern)
/-- src/builder.rs:3222-3237 `match_pattern_p`. -/
def matchPatternP (value : Node) (in_t : Token) (pattern : Node) : Node :=
  .MatchPatternP value pattern in_t.loc (joinExprs value pattern)
/-- src/builder.rs:3239-3263 `in_pattern`. -/
def inPattern (in_t : Token) (pattern : Node) (guard : Option Node) (then_t : Token) (body : Option Node) : Node :=
  let x := (((maybeExpr body).or (maybeExpr guard)).getD pattern.expression).join in_t.loc
  .InPattern pattern guard body in_t.loc then_t.loc x
/-- src/builder.rs:3265-3274 `if_guard`. -/
def ifGuard (if_t : Token) (cond : Node) : Node := .IfGuard cond if_t.loc (if_t.loc.join cond.expression)
/-- src/builder.rs:3275-3284 `unless_guard`. -/
def unlessGuard (unless_t : Token) (cond : Node) : Node := .UnlessGuard cond unless_t.loc (unless_t.loc.join cond.expression)

/-- What the pattern variables have in common: the two checks and the declaration. -/
def declarePatternVar (ext : BldExt) (name : Text) (name_l : Loc) : BldR Unit := do
  checkLvarName ext name name_l
  checkDuplicatePatternVariable name name_l
  modify fun s => { s with staticEnv := s.staticEnv.declare name }
/-- src/builder.rs:3286-3300 `match_var`. -/
def matchVar (ext : BldExt) (name_t : Token) : BldR Node := do
  let name ← (liftR (value name_t) : BldM Text)
  declarePatternVar ext name name_t.loc
  return .MatchVar name name_t.loc name_t.loc
/-- src/builder.rs:3302-3317 `match_hash_var`. -/
def matchHashVar (ext : BldExt) (name_t : Token) : BldR Node := do
  let name_l ← (liftR (name_t.loc.adjustEnd (-1)) : BldM Loc)
  let name ← (liftR (value name_t) : BldM Text)
  declarePatternVar ext name name_l
  return .MatchVar name name_l name_t.loc
/-- Narrowing of the name's location by the quotes (`usize -> i32` fails from 2^31 on). -/
def narrowName (name_l : Loc) (begin_l end_l : Option Loc) : Res Loc := do
  let name_l ← match begin_l with
    | some b => do
      let d ← b.size
      if d < 2 ^ 31 then name_l.adjustBegin d else .error .expect
    | none => .ok name_l
  match end_l with
  | some e => do
    let d ← e.size
    if d < 2 ^ 31 then name_l.adjustEnd (-(d : Int)) else .error .expect
  | none => .ok name_l
mutual
/-- src/builder.rs:3318-3387 `match_hash_var_from_str`. -/
def matchHashVarFromStr (ext : BldExt) (begin_t end_t : Token) : List Node → BldR Node
  | [] => do error .SymbolLiteralWithInterpolation (begin_t.loc.join end_t.loc); err
  | string :: rest => match rest with
    | [] => matchHashVarFromNode ext begin_t end_t string
    | _ :: _ => do error .SymbolLiteralWithInterpolation (begin_t.loc.join end_t.loc); err
/-- The `match string` of `match_hash_var_from_str`. -/
def matchHashVarFromNode (ext : BldExt) (begin_t end_t : Token) : Node → BldR Node
  | .Str value begin_l end_l x => do
    let name := Utf8.lossy value
    declarePatternVar ext name x
    let name_l ← (liftR (narrowName x begin_l end_l) : BldM Loc)
    return .MatchVar name name_l ((begin_t.loc.join x).join end_t.loc)
  | .Begin statements _ _ _ => matchHashVarFromStr ext begin_t end_t statements
  | _ => do error .SymbolLiteralWithInterpolation (begin_t.loc.join end_t.loc); err
end
/-- src/builder.rs:3389-3408 `match_rest`. -/
def matchRest (ext : BldExt) (star_t : Token) (name_t : Option Token) : BldR Node := do
  let name : Option Node ← match name_t with
    | some name_t => some <$> matchVar ext name_t
    | none => Pure.pure none
  return .MatchRest name star_t.loc (star_t.loc.maybeJoin (maybeExpr name))
/-- src/builder.rs:3410-3428 `hash_pattern`. -/
def hashPattern (lbrace_t : Option Token) (kwargs : List Node) (rbrace_t : Option Token) : Res Node := do
  let m ← collectionMap lbrace_t kwargs rbrace_t
  return .HashPattern kwargs m.beginL m.endL m.expressionL
/-- src/builder.rs:3430-3469 `array_pattern`. -/
def arrayPattern (lbrack_t : Option Token) (elements : List Node) (trailing_comma rbrack_t : Option Token) : Res Node := do
  let m ← collectionMap lbrack_t elements rbrack_t
  let x := m.expressionL.maybeJoin (maybeLoc trailing_comma)
  if elements.isEmpty then return .ArrayPattern [] m.beginL m.endL x
  else if trailing_comma.isSome then return .ArrayPatternWithTail elements m.beginL m.endL x
  else return .ArrayPattern elements m.beginL m.endL x
/-- src/builder.rs:3471-3489 `find_pattern`. -/
def findPattern (lbrack_t : Option Token) (elements : List Node) (rbrack_t : Option Token) : Res Node := do
  let m ← collectionMap lbrack_t elements rbrack_t
  return .FindPattern elements m.beginL m.endL m.expressionL
/-- src/builder.rs:3491-3509 `const_pattern`. -/
def constPattern (const_ : Node) (ldelim_t : Token) (pattern : Node) (rdelim_t : Token) : Node :=
  .ConstPattern const_ pattern ldelim_t.loc rdelim_t.loc (const_.expression.join rdelim_t.loc)
/-- src/builder.rs:3511-3520 `pin`. -/
def pin (pin_t : Token) (var : Node) : Node := .Pin var pin_t.loc (var.expression.join pin_t.loc)
/-- src/builder.rs:3522-3537 `match_alt`. -/
def matchAlt (lhs : Node) (pipe_t : Token) (rhs : Node) : Node := .MatchAlt lhs rhs pipe_t.loc (joinExprs lhs rhs)
/-- src/builder.rs:3539-3554 `match_as`. -/
def matchAs (value : Node) (assoc_t : Token) (as_ : Node) : Node := .MatchAs value as_ assoc_t.loc (joinExprs value as_)
/-- src/builder.rs:3556-3570 `match_nil_pattern`. -/
def matchNilPattern (dstar_t nil_t : Token) : Node :=
  .MatchNilPattern dstar_t.loc nil_t.loc (dstar_t.loc.join nil_t.loc)
/-- src/builder.rs:3572-3603 `match_pair`. -/
def matchPair (label : PKwLabel) (value : Node) : BldR Node :=
  match label with
  | .PlainLabel label_t => do
    checkDuplicatePatternKey (cloneValue label_t) label_t.loc
    (pairKeyword label_t value : BldM Node)
  | .QuotedLabel begin_t parts end_t => do
    let label_loc := begin_t.loc.join end_t.loc
    match staticString parts with
    | some var_name => checkDuplicatePatternKey var_name label_loc
    | none => do error .SymbolLiteralWithInterpolation label_loc; err
    (pairQuoted begin_t parts end_t value : BldM Node)
/-- src/builder.rs:3605-3612 `match_label`. -/
def matchLabel (ext : BldExt) (label : PKwLabel) : BldR Node :=
  match label with
  | .PlainLabel label_t => matchHashVar ext label_t
  | .QuotedLabel begin_t parts end_t => matchHashVarFromStr ext begin_t end_t parts

end Builder
end Verif
