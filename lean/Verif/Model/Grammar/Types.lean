import Verif.Model.Context
import Verif.Model.Stacks
import Verif.Model.Tokens
/-!
The shape of the grammar table (`src/parser/parse.y`, section between the two `%%`): what one production and one
semantic action is, seen through its effect on the parser's bookkeeping and on the kinds of the semantic values.

The table itself (`Verif.Model.Grammar.Table`) has one entry for every production.  An action keeps
* the casts `$<K>N` / `$N` in it, in textual order;
* the operations on the bookkeeping stacks and on the context, in textual order;
* the values that may be assigned to `$$`;
* whether it always returns `Err(())`.
Everything else in an action (the node it builds, the lexer state it sets) is not part of this table.
-/
namespace Verif.Grammar

/-- src/parse_value.rs:513-603 `ParseValue`, without the payloads. -/
inductive Kind where
  | Stolen | Uninitialized | None | Token | TokenWithContext | Context | Node | NodeList | Bool | MaybeStrTerm | Num
  | Superclass | OptEnsure | OptElse | ExcVar | IfTail | ExprValueDo | PKwLabel | BraceBody | CmdBraceBlock
  | ParenArgs | OptParenArgs | LambdaBody | DoBlock | BraceBlock | DefsHead | DefnHead | BeginBlock | Cases
  | CaseBody | PCases | PCaseBody | MaybeNode | DoBody | PTopExpr | MatchPatternWithTrailingComma | NoKwRest
deriving DecidableEq, Repr

/-- The casts of src/parse_value.rs:8-508 (`$<K>N` is `K::from(owned value N)`), the plain move `$N` (`raw`), and the
borrow at src/parser/parse.y:1021-1024 and 1051-1054 (`peekNode`). -/
inductive Cast where
  | raw | peekNode
  | Token | TokenWithContext | Context | Node | BoxedNode | NodeList | BoxedNodeList | Bool | MaybeStrTerm | Num
  | Superclass | OptEnsure | OptElse | ExcVar | IfTail | ExprValueDo | PKwLabel | BraceBody | CmdBraceBlock
  | ParenArgs | OptParenArgs | LambdaBody | DoBlock | BraceBlock | DefsHead | DefnHead | BeginBlock | Cases
  | CaseBody | PCases | PCaseBody | MaybeNode | MaybeBoxedNode | DoBody | PTopExpr
  | MatchPatternWithTrailingComma | NoKwRest
deriving DecidableEq, Repr

/-- src/parse_value.rs:8-508: the variant each cast accepts; any other one is `unreachable!`. -/
def Cast.wants : Cast → Option Kind
  | .raw => none
  | .peekNode => some .Node
  | .Token => some .Token
  | .TokenWithContext => some .TokenWithContext
  | .Context => some .Context
  | .Node => some .Node
  | .BoxedNode => some .Node
  | .NodeList => some .NodeList
  | .BoxedNodeList => some .NodeList
  | .Bool => some .Bool
  | .MaybeStrTerm => some .MaybeStrTerm
  | .Num => some .Num
  | .Superclass => some .Superclass
  | .OptEnsure => some .OptEnsure
  | .OptElse => some .OptElse
  | .ExcVar => some .ExcVar
  | .IfTail => some .IfTail
  | .ExprValueDo => some .ExprValueDo
  | .PKwLabel => some .PKwLabel
  | .BraceBody => some .BraceBody
  | .CmdBraceBlock => some .CmdBraceBlock
  | .ParenArgs => some .ParenArgs
  | .OptParenArgs => some .OptParenArgs
  | .LambdaBody => some .LambdaBody
  | .DoBlock => some .DoBlock
  | .BraceBlock => some .BraceBlock
  | .DefsHead => some .DefsHead
  | .DefnHead => some .DefnHead
  | .BeginBlock => some .BeginBlock
  | .Cases => some .Cases
  | .CaseBody => some .CaseBody
  | .PCases => some .PCases
  | .PCaseBody => some .PCaseBody
  | .MaybeNode => some .MaybeNode
  | .MaybeBoxedNode => some .MaybeNode
  | .DoBody => some .DoBody
  | .PTopExpr => some .PTopExpr
  | .MatchPatternWithTrailingComma => some .MatchPatternWithTrailingComma
  | .NoKwRest => some .NoKwRest

/-- Whether a cast succeeds on a value of the given kind. -/
def Cast.accepts (c : Cast) (k : Kind) : _root_.Bool :=
  match c.wants with
  | none => true
  | some k' => k = k'

/-- The five stacks the parser shares with the builder: `static_env`, `current_arg_stack`, `max_numparam_stack`,
`pattern_variables`, `pattern_hash_keys` (src/parser/parse.y:10-53, fields of the parser). -/
inductive Dim where
  | env | arg | num | pv | pk
deriving DecidableEq, Repr

/-- One bookkeeping operation of an action. -/
inductive Op where
  /-- `static_env.extend_static()` -/
  | envStatic
  /-- `static_env.extend_dynamic()` -/
  | envDynamic
  /-- `static_env.unextend()` -/
  | envPop
  /-- `current_arg_stack.push(None)` -/
  | argPush
  /-- `current_arg_stack.pop()` -/
  | argPop
  /-- `max_numparam_stack.push(is_static)` -/
  | numPush (isStatic : Bool)
  /-- `max_numparam_stack.pop()` -/
  | numPop
  /-- `pattern_variables.push()` -/
  | pvPush
  /-- `pattern_variables.pop()` -/
  | pvPop
  /-- `pattern_hash_keys.push()` -/
  | pkPush
  /-- `pattern_hash_keys.pop()` -/
  | pkPop
  /-- `yylexer.cond.push(bit)` -/
  | condPush (bit : Bool)
  /-- `yylexer.cond.pop()` -/
  | condPop
  /-- `yylexer.cmdarg.push(bit)` -/
  | cmdPush (bit : Bool)
  /-- `yylexer.cmdarg.pop()` -/
  | cmdPop
  /-- src/parser/parse.y:2737-2749: `cmdarg.push(true)`, below the bit of an opening token that is already read. -/
  | cmdPushLA
  /-- src/parser/parse.y:2754-2758: `cmdarg.pop()`, below the bit of a `tLBRACE_ARG` that is already read. -/
  | cmdPopLA
  /-- A call that may declare names in / set the top of the given stacks: `static_env.declare*`,
  `current_arg_stack.set`, `max_numparam_stack.set_has_ordinary_params`, or a builder function that does one of these or
  `max_numparam_stack.register`, `pattern_variables.declare`, `pattern_hash_keys.declare`. -/
  | touch (ds : List Dim)
  /-- `context.set_f(v)` -/
  | flag (f : CtxFlag) (v : Bool)
  /-- `context.set_f(<value N>.f())` or `context.set_f($<Bool>N)` -/
  | restore (f : CtxFlag) (n : Nat)
  /-- `context.dump()` stored in `$$` -/
  | dump
  /-- `$<Bool>$ = Value::Bool(context.f())` -/
  | saveBool (f : CtxFlag)
  /-- the context inside value `N` is moved into `$$` -/
  | carry (n : Nat)
deriving DecidableEq, Repr

/-- What `$$` is set to: a new value of a kind, or the value `$N`. -/
inductive Out where
  | new (k : Kind)
  | copy (n : Nat)
deriving DecidableEq, Repr

/-- A semantic action. `line` is the line of its opening brace in src/parser/parse.y. -/
structure Act where
  line : Nat
  /-- the action always returns `self.yyerror(…)`, which is `Err(())` (src/parser/parse.y:7054-7065) -/
  fails : Bool
  uses : List (Cast × Nat)
  ops : List Op
  outs : List Out
deriving DecidableEq, Repr

/-- Nonterminals are numbered in the order of their first production. -/
abbrev NT := Nat

/-- One item of the right-hand side of a production. -/
inductive Item where
  | t (tok : Tok)
  | n (nt : NT)
  | a (act : Act)
  /-- bison's `error` symbol -/
  | err
deriving DecidableEq, Repr

/-- A production: left-hand side, line of its first symbol in src/parser/parse.y, right-hand side with the actions. -/
structure Rule where
  lhs : NT
  line : Nat
  rhs : List Item
deriving DecidableEq, Repr

end Verif.Grammar
