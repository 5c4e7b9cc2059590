import Verif.Model.Grammar.Run
import Verif.Model.Builder.Build
/-!
The values the semantic actions of `src/parser/parse.y` compute: which builder functions are called, on which parts of which `$n`,
and in what arrangement their results become `$$`.

A semantic value is a list of atoms: the fields of its `Value` variant that are tokens, nodes or lists of nodes
(src/parse_value.rs); contexts, flags, numbers and saved lexer modes are not among them.  What an action does to the tables of
the parser is in `Run.lean`; here each call of a builder function starts from tables that are left open, and each `?` or
`return self.yyerror(..)` is the absence of a value.
-/
namespace Verif.Grammar
open Builder

/-- A component of a semantic value. -/
inductive Atom where
  | tok (t : Token)
  | otok (t : Option Token)
  | node (n : Node)
  | onode (n : Option Node)
  | nodes (ns : List Node)
  | args (a : ArgsType)
  | label (k : PKwLabel)
  /-- `IfTail`, src/parse_value.rs -/
  | tail (t : Option Token × Option Node)
  /-- `OptParenArgs` -/
  | parens (g : Option Token × List Node × Option Token)
  /-- `ExcVar` -/
  | exc (e : Option Token × Option Node)

/-! ### Parts of actions that are not in `src/builder.rs` -/

/-- src/parser/parse.y:7043-7052 `validate_endless_method_name` (the report is left out). -/
def endlessName (t : Token) : BldR Token :=
  let name := cloneValue t
  if name ∈ [lit "==", lit "===", lit ">=", lit "<=", lit "!="] then pure t
  else if name.getLast? = some (asc '=').toNat then err else pure t

/-- src/parser/parse.y:7025-7041 `check_kwarg_name` (the report is left out). -/
def kwargName (ext : BldExt) (t : Token) : BldR Token :=
  match cloneValue t with
  | [] => (Builder.panic .expect : BldM Token)
  | c :: _ => if ext.isLowercase c || c == (asc '_').toNat then pure t else err

/-- src/parser/parse.y:6651-6679: a literal cannot get a singleton method. -/
def singletonExpr (n : Node) : BldR Node :=
  match n with
  | .Int .. | .Float .. | .Rational .. | .Complex .. | .Str .. | .Dstr .. | .Sym .. | .Dsym .. | .Heredoc .. | .XHeredoc ..
  | .Regexp .. | .Array .. | .Hash .. => err
  | n => do valueExpr n; pure n

/-- src/parser/parse.y:4463-4467: the parameters of a block. -/
def argsType (args : Option Node) : BldR ArgsType := do
  let s ← (get : BldM BState)
  if s.numparams.hasNumparams then pure (.Numargs (s.numparams.top % 256).toNat) else pure (.Args args)

/-- src/parser/parse.y:5433-5459: a `rescue` clause. -/
def rescueClause (rescue_t : Token) (list : List Node) (exc : Option Token × Option Node) (then_t : Token) (body : Option Node) :
    Res Node :=
  match list with
  | [] => .ok (rescueBody rescue_t none exc.1 exc.2 (some then_t) body)
  | list => do
    let l ← array none list none
    return rescueBody rescue_t (some l) exc.1 exc.2 (some then_t) body

/-- src/parser/parse.y:829-849: `x rescue y`. -/
def rescueMod (x : Node) (rescue_t : Token) (y : Node) : Res (Option Node) :=
  beginBody (some x) [rescueBody rescue_t none none none none (some y)] none none

/-- src/parser/parse.y:592-611: the same, with `.expect(..)`. -/
def rescueMod! (x : Node) (rescue_t : Token) (y : Node) : Res Node := do
  match ← rescueMod x rescue_t y with
  | some n => return n
  | none => .error .expect

/-- src/parser/parse.y:422-443. -/
def bodystmtElse (body : Option Node) (rescues : List Node) (else_t : Token) (else_ : Option Node) (ensure_t : Option Token)
    (ensure : Option Node) : BldR (Option Node) :=
  if rescues.isEmpty then err
  else (liftR (beginBody body rescues (some (else_t, else_)) (ensure_t.map fun t => (t, ensure))) : BldM (Option Node))

/-- src/parser/parse.y:3917-3937: a lone parameter of a block. -/
def procargs (xs tail : List Node) : Res (List Node) :=
  match xs, tail with
  | [x], [] => do return [← procarg0 x]
  | xs, tail => .ok (xs ++ tail)

/-- src/parser/parse.y:1599-1613. -/
def attrAsgnMasgn (receiver : Node) (dot_t selector_t : Token) : BldR Node :=
  if dot_t.tokenType = .tANDDOT then err else (liftR (attrAsgn receiver dot_t selector_t) : BldM Node)

/-- src/parser/parse.y:1416-1434. -/
def mlhsInner (begin_t : Token) (inner : Node) (end_t : Token) : Res Node :=
  match inner with
  | .Mlhs items _ _ _ => multiLhs (some begin_t) items (some end_t)
  | _ => .error .unreachable

/-- src/parser/parse.y:5547-5558, with the indentation the lexer recorded. -/
def string1 (indent : Int) (begin_t : Token) (parts : List Node) (end_t : Token) : Res Node := do
  heredocDedent (← stringCompose (some begin_t) parts (some end_t)) indent

/-- src/parser/parse.y:4777-4793. -/
def constPatternEmpty (const : Node) (lparen rparen : Token) : Res Node := do
  let pattern ← arrayPattern (some lparen) [] none (some rparen)
  return constPattern const lparen pattern rparen

/-- What an action calls: a function of `src/builder.rs` in one of the ways it is used, one of the above, or plumbing. -/
inductive BFn where
  /-- `Some(token)` -/
  | someT
  /-- `Some(node)` -/
  | someN
  /-- `None` in place of a token -/
  | noneT
  /-- `None` in place of a node -/
  | noneN
  /-- `vec![]`, `Box::default()` -/
  | nilL
  /-- `vec![node]` -/
  | single
  /-- `push` and `append` -/
  | append
  /-- `self.value_expr(&node)?` -/
  | checked
  /-- `validate_endless_method_name` -/
  | endlessName
  /-- `check_kwarg_name` -/
  | kwargName
  /-- src/parser/parse.y:6651-6679 -/
  | singletonExpr
  /-- `ArgsType::Numargs` or `ArgsType::Args`, src/parser/parse.y:4107-4111, 4463-4467, 4489-4493 -/
  | argsType
  /-- src/parser/parse.y:2637-2646 -/
  | noParens
  /-- src/parser/parse.y:2647-2660 -/
  | someParens
  /-- src/parser/parse.y:5485-5488 -/
  | noExc
  /-- src/parser/parse.y:5479-5484 -/
  | someExc
  /-- src/parser/parse.y:3625-3631 -/
  | elseTail
  /-- src/parser/parse.y:3632-3655 -/
  | elsifTail
  /-- `PKwLabel::PlainLabel` -/
  | plainLabel
  /-- `PKwLabel::QuotedLabel` -/
  | quotedLabel
  /-- `nil` -/
  | nil
  /-- `true_` -/
  | true_
  /-- `false_` -/
  | false_
  /-- `line` -/
  | line
  /-- `file` -/
  | file
  /-- `self_` -/
  | self_
  /-- `encoding` -/
  | encoding
  /-- `forwardArg` -/
  | forwardArg
  /-- `forwardedArgs` -/
  | forwardedArgs
  /-- `stringInternal` -/
  | stringInternal
  /-- `integer` -/
  | integer
  /-- `float` -/
  | float
  /-- `rational` -/
  | rational
  /-- `complex` -/
  | complex
  /-- `lvar` -/
  | lvar
  /-- `ivar` -/
  | ivar
  /-- `gvar` -/
  | gvar
  /-- `cvar` -/
  | cvar
  /-- `backRef` -/
  | backRef
  /-- `const_` -/
  | const_
  /-- `const_fetch` -/
  | constFetch
  /-- `const_global` -/
  | constGlobal
  /-- `arg` -/
  | arg
  /-- `shadowarg` -/
  | shadowarg
  /-- `optarg` -/
  | optarg
  /-- `kwnilarg` -/
  | kwnilarg
  /-- `alias` -/
  | alias
  /-- `pair` -/
  | pair
  /-- `kwsplat` -/
  | kwsplat
  /-- `multi_assign` -/
  | multiAssign
  /-- `def_class` -/
  | defClass
  /-- `def_sclass` -/
  | defSclass
  /-- `def_module` -/
  | defModule
  /-- `def_method` -/
  | defMethod
  /-- `def_singleton` -/
  | defSingleton
  /-- `index_asgn` -/
  | indexAsgn
  /-- `ternary` -/
  | ternary
  /-- `case` -/
  | case
  /-- `for_` -/
  | for_
  /-- `preexe` -/
  | preexe
  /-- `postexe` -/
  | postexe
  /-- `match_pattern` -/
  | matchPattern
  /-- `match_pattern_p` -/
  | matchPatternP
  /-- `if_guard` -/
  | ifGuard
  /-- `unless_guard` -/
  | unlessGuard
  /-- `const_pattern` -/
  | constPattern
  /-- `pin` -/
  | pin
  /-- `match_alt` -/
  | matchAlt
  /-- `match_as` -/
  | matchAs
  /-- `match_nil_pattern` -/
  | matchNilPattern
  /-- `words_compose` -/
  | wordsCompose
  /-- `character` -/
  | character
  /-- `splat` -/
  | splat
  /-- `block_pass` -/
  | blockPass
  /-- `range_inclusive` -/
  | rangeInclusive
  /-- `range_exclusive` -/
  | rangeExclusive
  /-- `restarg` -/
  | restarg
  /-- `kwrestarg` -/
  | kwrestarg
  /-- `blockarg` -/
  | blockarg
  /-- `unary_num` -/
  | unaryNum
  /-- `symbol` -/
  | symbol
  /-- `symbol_internal` -/
  | symbolInternal
  /-- `nth_ref` -/
  | nthRef
  /-- `match_var` -/
  | matchVar
  /-- `array` -/
  | array
  /-- `multi_lhs` -/
  | multiLhs
  /-- `hash_pattern` -/
  | hashPattern
  /-- `find_pattern` -/
  | findPattern
  /-- `associate` -/
  | associate
  /-- `args` -/
  | args
  /-- `array_pattern` -/
  | arrayPattern
  /-- `logical_op` -/
  | logical (p : LogicalOp)
  /-- `binary_op` -/
  | binaryOp
  /-- `unary_op` -/
  | unaryOp
  /-- `match_op` -/
  | matchOp
  /-- `not_op` -/
  | notOp
  /-- `not_op` with parentheses -/
  | notParen
  /-- `not_op` of `not ()` -/
  | notEmpty
  /-- `condition_mod` of `if` -/
  | ifMod
  /-- `condition_mod` of `unless` -/
  | unlessMod
  /-- `loop_mod` -/
  | loopMod (p : LoopType)
  /-- `loop_` -/
  | loop_ (p : LoopType)
  /-- `condition` of `if` -/
  | condition
  /-- `condition` of `unless` -/
  | unless_
  /-- `when` -/
  | when
  /-- `in_pattern` -/
  | inPattern
  /-- `case_match` -/
  | caseMatch
  /-- src/parser/parse.y:5433-5459 -/
  | rescueClause
  /-- `rescue_body`, `begin_body` of `x rescue y`, src/parser/parse.y:829-849 -/
  | rescueModOpt
  /-- the same with `expect`, src/parser/parse.y:592-611 -/
  | rescueMod
  /-- `compstmt` -/
  | compstmt
  /-- `begin` -/
  | begin
  /-- `begin_keyword` -/
  | beginKeyword
  /-- `begin_body`, src/parser/parse.y:422-443 -/
  | bodystmtElse
  /-- `begin_body`, src/parser/parse.y:444-460 -/
  | bodystmt
  /-- `accessible` -/
  | accessible
  /-- `assignable` -/
  | assignable
  /-- `const_op_assignable` -/
  | constOpAssignable
  /-- `assign` -/
  | assign
  /-- `op_assign` -/
  | opAssign
  /-- `def_endless_method` -/
  | defEndless
  /-- `def_endless_singleton` -/
  | defEndlessSingleton
  /-- `undef_method` -/
  | undefMethod
  /-- `kwarg` -/
  | kwarg
  /-- `kwoptarg` -/
  | kwoptarg
  /-- src/parser/parse.y:3917-3937 -/
  | procargs
  /-- `call_method` of `x.m args` -/
  | callDot
  /-- `call_method` of `m args` -/
  | callFn
  /-- `call_method` of `m(args)` -/
  | callFnParen
  /-- `call_method` of `x.m(args)` -/
  | callDotParen
  /-- `call_method` with `opt_paren_args` -/
  | callDotOpt
  /-- `call_method` of `x.(args)` -/
  | callParen
  /-- `block` -/
  | block
  /-- `call_lambda` and `block`, src/parser/parse.y:4104-4131 -/
  | lambda
  /-- `attr_asgn` -/
  | attrAsgn
  /-- `attr_asgn` on a left-hand side of a multiple assignment, src/parser/parse.y:1599-1613 -/
  | attrAsgnMasgn
  /-- `index` -/
  | index
  /-- `keyword_cmd` -/
  | keyword (p : KeywordCmd)
  /-- `keyword_cmd` with parentheses -/
  | keywordParen (p : KeywordCmd)
  /-- src/parser/parse.y:1416-1434 -/
  | mlhsInner
  /-- `string_compose` of adjacent literals -/
  | strings
  /-- `string_compose` and `heredoc_dedent`, src/parser/parse.y:5547-5558 -/
  | string1
  /-- `xstring_compose` and `heredoc_dedent`, src/parser/parse.y:5561-5572 -/
  | xstring
  /-- `regexp_options` and `regexp_compose`, src/parser/parse.y:5575-5586 -/
  | regexp
  /-- `word` -/
  | word
  /-- `symbols_compose` -/
  | symbolsCompose
  /-- `symbol_compose` -/
  | symbolCompose
  /-- `pair_keyword` -/
  | pairKeyword
  /-- `pair_label` -/
  | pairLabel
  /-- `pair_quoted` -/
  | pairQuoted
  /-- `match_rest` -/
  | matchRest
  /-- `match_pair` -/
  | matchPair
  /-- `match_label` -/
  | matchLabel
  /-- src/parser/parse.y:4777-4793, 4830-4846 -/
  | constPatternEmpty
deriving DecidableEq, Repr

/-- Embedding a value. -/
def outp (c : α → Atom) (a : α) : BldR Atom := pure (c a)
/-- Embedding what can only panic. -/
def outR (c : α → Atom) (r : Res α) : BldR Atom := do return c (← (liftR r : BldM α))
/-- Embedding what uses the tables. -/
def outM (c : α → Atom) (r : BldM α) : BldR Atom := do return c (← r)
/-- Embedding what can fail. -/
def outB (c : α → Atom) (r : BldR α) : BldR Atom := do return c (← r)
/-- A call that does not occur. -/
def illTyped : BldR Atom := (Builder.panic .unreachable : BldM Atom)

/-- Arguments of the kinds tok. -/
def withT (k : Token → BldR Atom) : List Atom → BldR Atom
  | [.tok x0] => k x0
  | _ => illTyped
/-- Arguments of the kinds node. -/
def withN (k : Node → BldR Atom) : List Atom → BldR Atom
  | [.node x0] => k x0
  | _ => illTyped
/-- Arguments of the kinds none. -/
def withNone (k : BldR Atom) : List Atom → BldR Atom
  | [] => k 
  | _ => illTyped
/-- Arguments of the kinds nodes, nodes. -/
def withLL (k : List Node → List Node → BldR Atom) : List Atom → BldR Atom
  | [.nodes x0, .nodes x1] => k x0 x1
  | _ => illTyped
/-- Arguments of the kinds onode. -/
def withP (k : Option Node → BldR Atom) : List Atom → BldR Atom
  | [.onode x0] => k x0
  | _ => illTyped
/-- Arguments of the kinds tok, nodes, tok. -/
def withTLT (k : Token → List Node → Token → BldR Atom) : List Atom → BldR Atom
  | [.tok x0, .nodes x1, .tok x2] => k x0 x1 x2
  | _ => illTyped
/-- Arguments of the kinds tok, node. -/
def withTN (k : Token → Node → BldR Atom) : List Atom → BldR Atom
  | [.tok x0, .node x1] => k x0 x1
  | _ => illTyped
/-- Arguments of the kinds otok, onode. -/
def withOP (k : Option Token → Option Node → BldR Atom) : List Atom → BldR Atom
  | [.otok x0, .onode x1] => k x0 x1
  | _ => illTyped
/-- Arguments of the kinds tok, node, tok, onode, tail. -/
def withTNTPI (k : Token → Node → Token → Option Node → (Option Token × Option Node) → BldR Atom) : List Atom → BldR Atom
  | [.tok x0, .node x1, .tok x2, .onode x3, .tail x4] => k x0 x1 x2 x3 x4
  | _ => illTyped
/-- Arguments of the kinds node, tok, tok. -/
def withNTT (k : Node → Token → Token → BldR Atom) : List Atom → BldR Atom
  | [.node x0, .tok x1, .tok x2] => k x0 x1 x2
  | _ => illTyped
/-- Arguments of the kinds tok, tok. -/
def withTT (k : Token → Token → BldR Atom) : List Atom → BldR Atom
  | [.tok x0, .tok x1] => k x0 x1
  | _ => illTyped
/-- Arguments of the kinds tok, tok, node. -/
def withTTN (k : Token → Token → Node → BldR Atom) : List Atom → BldR Atom
  | [.tok x0, .tok x1, .node x2] => k x0 x1 x2
  | _ => illTyped
/-- Arguments of the kinds tok, node, node. -/
def withTNN (k : Token → Node → Node → BldR Atom) : List Atom → BldR Atom
  | [.tok x0, .node x1, .node x2] => k x0 x1 x2
  | _ => illTyped
/-- Arguments of the kinds node, tok, node. -/
def withNTN (k : Node → Token → Node → BldR Atom) : List Atom → BldR Atom
  | [.node x0, .tok x1, .node x2] => k x0 x1 x2
  | _ => illTyped
/-- Arguments of the kinds tok, node, otok, onode, onode, tok. -/
def withTNOPPT (k : Token → Node → Option Token → Option Node → Option Node → Token → BldR Atom) : List Atom → BldR Atom
  | [.tok x0, .node x1, .otok x2, .onode x3, .onode x4, .tok x5] => k x0 x1 x2 x3 x4 x5
  | _ => illTyped
/-- Arguments of the kinds tok, tok, node, onode, tok. -/
def withTTNPT (k : Token → Token → Node → Option Node → Token → BldR Atom) : List Atom → BldR Atom
  | [.tok x0, .tok x1, .node x2, .onode x3, .tok x4] => k x0 x1 x2 x3 x4
  | _ => illTyped
/-- Arguments of the kinds tok, node, onode, tok. -/
def withTNPT (k : Token → Node → Option Node → Token → BldR Atom) : List Atom → BldR Atom
  | [.tok x0, .node x1, .onode x2, .tok x3] => k x0 x1 x2 x3
  | _ => illTyped
/-- Arguments of the kinds tok, tok, onode, onode, tok. -/
def withTTPPT (k : Token → Token → Option Node → Option Node → Token → BldR Atom) : List Atom → BldR Atom
  | [.tok x0, .tok x1, .onode x2, .onode x3, .tok x4] => k x0 x1 x2 x3 x4
  | _ => illTyped
/-- Arguments of the kinds tok, node, tok, tok, onode, onode, tok. -/
def withTNTTPPT (k : Token → Node → Token → Token → Option Node → Option Node → Token → BldR Atom) : List Atom → BldR Atom
  | [.tok x0, .node x1, .tok x2, .tok x3, .onode x4, .onode x5, .tok x6] => k x0 x1 x2 x3 x4 x5 x6
  | _ => illTyped
/-- Arguments of the kinds node, tok, nodes, tok. -/
def withNTLT (k : Node → Token → List Node → Token → BldR Atom) : List Atom → BldR Atom
  | [.node x0, .tok x1, .nodes x2, .tok x3] => k x0 x1 x2 x3
  | _ => illTyped
/-- Arguments of the kinds node, tok, node, tok, node. -/
def withNTNTN (k : Node → Token → Node → Token → Node → BldR Atom) : List Atom → BldR Atom
  | [.node x0, .tok x1, .node x2, .tok x3, .node x4] => k x0 x1 x2 x3 x4
  | _ => illTyped
/-- Arguments of the kinds tok, onode, nodes, otok, onode, tok. -/
def withTPLOPT (k : Token → Option Node → List Node → Option Token → Option Node → Token → BldR Atom) : List Atom → BldR Atom
  | [.tok x0, .onode x1, .nodes x2, .otok x3, .onode x4, .tok x5] => k x0 x1 x2 x3 x4 x5
  | _ => illTyped
/-- Arguments of the kinds tok, node, tok, node, tok, onode, tok. -/
def withTNTNTPT (k : Token → Node → Token → Node → Token → Option Node → Token → BldR Atom) : List Atom → BldR Atom
  | [.tok x0, .node x1, .tok x2, .node x3, .tok x4, .onode x5, .tok x6] => k x0 x1 x2 x3 x4 x5 x6
  | _ => illTyped
/-- Arguments of the kinds tok, tok, onode, tok. -/
def withTTPT (k : Token → Token → Option Node → Token → BldR Atom) : List Atom → BldR Atom
  | [.tok x0, .tok x1, .onode x2, .tok x3] => k x0 x1 x2 x3
  | _ => illTyped
/-- Arguments of the kinds node, tok, node, tok. -/
def withNTNT (k : Node → Token → Node → Token → BldR Atom) : List Atom → BldR Atom
  | [.node x0, .tok x1, .node x2, .tok x3] => k x0 x1 x2 x3
  | _ => illTyped
/-- Arguments of the kinds tok, onode. -/
def withTP (k : Token → Option Node → BldR Atom) : List Atom → BldR Atom
  | [.tok x0, .onode x1] => k x0 x1
  | _ => illTyped
/-- Arguments of the kinds onode, tok, onode. -/
def withPTP (k : Option Node → Token → Option Node → BldR Atom) : List Atom → BldR Atom
  | [.onode x0, .tok x1, .onode x2] => k x0 x1 x2
  | _ => illTyped
/-- Arguments of the kinds tok, otok. -/
def withTO (k : Token → Option Token → BldR Atom) : List Atom → BldR Atom
  | [.tok x0, .otok x1] => k x0 x1
  | _ => illTyped
/-- Arguments of the kinds otok, nodes, otok. -/
def withOLO (k : Option Token → List Node → Option Token → BldR Atom) : List Atom → BldR Atom
  | [.otok x0, .nodes x1, .otok x2] => k x0 x1 x2
  | _ => illTyped
/-- Arguments of the kinds otok, nodes, otok, otok. -/
def withOLOO (k : Option Token → List Node → Option Token → Option Token → BldR Atom) : List Atom → BldR Atom
  | [.otok x0, .nodes x1, .otok x2, .otok x3] => k x0 x1 x2 x3
  | _ => illTyped
/-- Arguments of the kinds tok, tok, node, tok. -/
def withTTNT (k : Token → Token → Node → Token → BldR Atom) : List Atom → BldR Atom
  | [.tok x0, .tok x1, .node x2, .tok x3] => k x0 x1 x2 x3
  | _ => illTyped
/-- Arguments of the kinds tok, tok, tok. -/
def withTTT (k : Token → Token → Token → BldR Atom) : List Atom → BldR Atom
  | [.tok x0, .tok x1, .tok x2] => k x0 x1 x2
  | _ => illTyped
/-- Arguments of the kinds tok, node, tok, onode, tok. -/
def withTNTPT (k : Token → Node → Token → Option Node → Token → BldR Atom) : List Atom → BldR Atom
  | [.tok x0, .node x1, .tok x2, .onode x3, .tok x4] => k x0 x1 x2 x3 x4
  | _ => illTyped
/-- Arguments of the kinds tok, node, tok, onode, tail, tok. -/
def withTNTPIT (k : Token → Node → Token → Option Node → (Option Token × Option Node) → Token → BldR Atom) : List Atom → BldR Atom
  | [.tok x0, .node x1, .tok x2, .onode x3, .tail x4, .tok x5] => k x0 x1 x2 x3 x4 x5
  | _ => illTyped
/-- Arguments of the kinds tok, node, tok, onode, otok, onode, tok. -/
def withTNTPOPT (k : Token → Node → Token → Option Node → Option Token → Option Node → Token → BldR Atom) : List Atom → BldR Atom
  | [.tok x0, .node x1, .tok x2, .onode x3, .otok x4, .onode x5, .tok x6] => k x0 x1 x2 x3 x4 x5 x6
  | _ => illTyped
/-- Arguments of the kinds tok, nodes, tok, onode. -/
def withTLTP (k : Token → List Node → Token → Option Node → BldR Atom) : List Atom → BldR Atom
  | [.tok x0, .nodes x1, .tok x2, .onode x3] => k x0 x1 x2 x3
  | _ => illTyped
/-- Arguments of the kinds tok, node, onode, tok, onode. -/
def withTNPTP (k : Token → Node → Option Node → Token → Option Node → BldR Atom) : List Atom → BldR Atom
  | [.tok x0, .node x1, .onode x2, .tok x3, .onode x4] => k x0 x1 x2 x3 x4
  | _ => illTyped
/-- Arguments of the kinds tok, node, nodes, otok, onode, tok. -/
def withTNLOPT (k : Token → Node → List Node → Option Token → Option Node → Token → BldR Atom) : List Atom → BldR Atom
  | [.tok x0, .node x1, .nodes x2, .otok x3, .onode x4, .tok x5] => k x0 x1 x2 x3 x4 x5
  | _ => illTyped
/-- Arguments of the kinds tok, nodes, exc, tok, onode. -/
def withTLETP (k : Token → List Node → (Option Token × Option Node) → Token → Option Node → BldR Atom) : List Atom → BldR Atom
  | [.tok x0, .nodes x1, .exc x2, .tok x3, .onode x4] => k x0 x1 x2 x3 x4
  | _ => illTyped
/-- Arguments of the kinds nodes. -/
def withL (k : List Node → BldR Atom) : List Atom → BldR Atom
  | [.nodes x0] => k x0
  | _ => illTyped
/-- Arguments of the kinds tok, onode, tok. -/
def withTPT (k : Token → Option Node → Token → BldR Atom) : List Atom → BldR Atom
  | [.tok x0, .onode x1, .tok x2] => k x0 x1 x2
  | _ => illTyped
/-- Arguments of the kinds onode, nodes, tok, onode, otok, onode. -/
def withPLTPOP (k : Option Node → List Node → Token → Option Node → Option Token → Option Node → BldR Atom) : List Atom → BldR Atom
  | [.onode x0, .nodes x1, .tok x2, .onode x3, .otok x4, .onode x5] => k x0 x1 x2 x3 x4 x5
  | _ => illTyped
/-- Arguments of the kinds onode, nodes, otok, onode. -/
def withPLOP (k : Option Node → List Node → Option Token → Option Node → BldR Atom) : List Atom → BldR Atom
  | [.onode x0, .nodes x1, .otok x2, .onode x3] => k x0 x1 x2 x3
  | _ => illTyped
/-- Arguments of the kinds tok, tok, onode, tok, onode. -/
def withTTPTP (k : Token → Token → Option Node → Token → Option Node → BldR Atom) : List Atom → BldR Atom
  | [.tok x0, .tok x1, .onode x2, .tok x3, .onode x4] => k x0 x1 x2 x3 x4
  | _ => illTyped
/-- Arguments of the kinds tok, node, tok, tok, onode, tok, onode. -/
def withTNTTPTP (k : Token → Node → Token → Token → Option Node → Token → Option Node → BldR Atom) : List Atom → BldR Atom
  | [.tok x0, .node x1, .tok x2, .tok x3, .onode x4, .tok x5, .onode x6] => k x0 x1 x2 x3 x4 x5 x6
  | _ => illTyped
/-- Arguments of the kinds tok, nodes. -/
def withTL (k : Token → List Node → BldR Atom) : List Atom → BldR Atom
  | [.tok x0, .nodes x1] => k x0 x1
  | _ => illTyped
/-- Arguments of the kinds node, tok, tok, nodes. -/
def withNTTL (k : Node → Token → Token → List Node → BldR Atom) : List Atom → BldR Atom
  | [.node x0, .tok x1, .tok x2, .nodes x3] => k x0 x1 x2 x3
  | _ => illTyped
/-- Arguments of the kinds tok, tok, nodes, tok. -/
def withTTLT (k : Token → Token → List Node → Token → BldR Atom) : List Atom → BldR Atom
  | [.tok x0, .tok x1, .nodes x2, .tok x3] => k x0 x1 x2 x3
  | _ => illTyped
/-- Arguments of the kinds node, tok, tok, tok, nodes, tok. -/
def withNTTTLT (k : Node → Token → Token → Token → List Node → Token → BldR Atom) : List Atom → BldR Atom
  | [.node x0, .tok x1, .tok x2, .tok x3, .nodes x4, .tok x5] => k x0 x1 x2 x3 x4 x5
  | _ => illTyped
/-- Arguments of the kinds node, tok, tok, parens. -/
def withNTTG (k : Node → Token → Token → (Option Token × List Node × Option Token) → BldR Atom) : List Atom → BldR Atom
  | [.node x0, .tok x1, .tok x2, .parens x3] => k x0 x1 x2 x3
  | _ => illTyped
/-- Arguments of the kinds node, tok, tok, nodes, tok. -/
def withNTTLT (k : Node → Token → Token → List Node → Token → BldR Atom) : List Atom → BldR Atom
  | [.node x0, .tok x1, .tok x2, .nodes x3, .tok x4] => k x0 x1 x2 x3 x4
  | _ => illTyped
/-- Arguments of the kinds node, tok, args, onode, tok. -/
def withNTAPT (k : Node → Token → ArgsType → Option Node → Token → BldR Atom) : List Atom → BldR Atom
  | [.node x0, .tok x1, .args x2, .onode x3, .tok x4] => k x0 x1 x2 x3 x4
  | _ => illTyped
/-- Arguments of the kinds tok, args, tok, onode, tok. -/
def withTATPT (k : Token → ArgsType → Token → Option Node → Token → BldR Atom) : List Atom → BldR Atom
  | [.tok x0, .args x1, .tok x2, .onode x3, .tok x4] => k x0 x1 x2 x3 x4
  | _ => illTyped
/-- Arguments of the kinds tok, node, tok. -/
def withTNT (k : Token → Node → Token → BldR Atom) : List Atom → BldR Atom
  | [.tok x0, .node x1, .tok x2] => k x0 x1 x2
  | _ => illTyped
/-- Arguments of the kinds tok, nodes, tok, node. -/
def withTLTN (k : Token → List Node → Token → Node → BldR Atom) : List Atom → BldR Atom
  | [.tok x0, .nodes x1, .tok x2, .node x3] => k x0 x1 x2 x3
  | _ => illTyped
/-- Arguments of the kinds label, node. -/
def withKN (k : PKwLabel → Node → BldR Atom) : List Atom → BldR Atom
  | [.label x0, .node x1] => k x0 x1
  | _ => illTyped
/-- Arguments of the kinds label. -/
def withK (k : PKwLabel → BldR Atom) : List Atom → BldR Atom
  | [.label x0] => k x0
  | _ => illTyped

/-- Calling it. `indent` is `heredoc_indent` of the lexer when the action runs. -/
def applyFn (ext : BldExt) (indent : Int) (f : BFn) : List Atom → BldR Atom :=
  match f with
  | .someT => withT (fun x0 => outp .otok (some x0))
  | .someN => withN (fun x0 => outp .onode (some x0))
  | .noneT => withNone (outp .otok (none))
  | .noneN => withNone (outp .onode (none))
  | .nilL => withNone (outp .nodes ([]))
  | .single => withN (fun x0 => outp .nodes ([x0]))
  | .append => withLL (fun x0 x1 => outp .nodes (x0 ++ x1))
  | .checked => withN (fun x0 => outB .node (valueExpr x0 *> pure x0))
  | .endlessName => withT (fun x0 => outB .tok (endlessName x0))
  | .kwargName => withT (fun x0 => outB .tok (kwargName ext x0))
  | .singletonExpr => withN (fun x0 => outB .node (singletonExpr x0))
  | .argsType => withP (fun x0 => outB .args (argsType x0))
  | .noParens => withNone (outp .parens ((none, [], none)))
  | .someParens => withTLT (fun x0 x1 x2 => outp .parens ((some x0, x1, some x2)))
  | .noExc => withNone (outp .exc ((none, none)))
  | .someExc => withTN (fun x0 x1 => outp .exc ((some x0, some x1)))
  | .elseTail => withOP (fun x0 x1 => outp .tail ((x0, x1)))
  | .elsifTail => withTNTPI (fun x0 x1 x2 x3 x4 => outp .tail ((some x0, some (condition x0 x1 x2 x3 x4.1 x4.2 none))))
  | .plainLabel => withT (fun x0 => outp .label (.PlainLabel x0))
  | .quotedLabel => withTLT (fun x0 x1 x2 => outp .label (.QuotedLabel x0 x1 x2))
  | .nil => withT (fun x0 => outp .node (nil x0))
  | .true_ => withT (fun x0 => outp .node (true_ x0))
  | .false_ => withT (fun x0 => outp .node (false_ x0))
  | .line => withT (fun x0 => outp .node (line x0))
  | .file => withT (fun x0 => outp .node (file x0))
  | .self_ => withT (fun x0 => outp .node (self_ x0))
  | .encoding => withT (fun x0 => outp .node (encoding x0))
  | .forwardArg => withT (fun x0 => outp .node (forwardArg x0))
  | .forwardedArgs => withT (fun x0 => outp .node (forwardedArgs x0))
  | .stringInternal => withT (fun x0 => outp .node (stringInternal x0))
  | .integer => withT (fun x0 => outR .node (integer x0))
  | .float => withT (fun x0 => outR .node (float x0))
  | .rational => withT (fun x0 => outR .node (rational x0))
  | .complex => withT (fun x0 => outR .node (complex x0))
  | .lvar => withT (fun x0 => outR .node (lvar x0))
  | .ivar => withT (fun x0 => outR .node (ivar x0))
  | .gvar => withT (fun x0 => outR .node (gvar x0))
  | .cvar => withT (fun x0 => outR .node (cvar x0))
  | .backRef => withT (fun x0 => outR .node (backRef x0))
  | .const_ => withT (fun x0 => outR .node (const_ x0))
  | .constFetch => withNTT (fun x0 x1 x2 => outR .node (constFetch x0 x1 x2))
  | .constGlobal => withTT (fun x0 x1 => outR .node (constGlobal x0 x1))
  | .arg => withT (fun x0 => outB .node (arg x0))
  | .shadowarg => withT (fun x0 => outB .node (shadowarg x0))
  | .optarg => withTTN (fun x0 x1 x2 => outB .node (optarg x0 x1 x2))
  | .kwnilarg => withTT (fun x0 x1 => outp .node (kwnilarg x0 x1))
  | .alias => withTNN (fun x0 x1 x2 => outp .node (Builder.alias x0 x1 x2))
  | .pair => withNTN (fun x0 x1 x2 => outp .node (pair x0 x1 x2))
  | .kwsplat => withTN (fun x0 x1 => outp .node (kwsplat x0 x1))
  | .multiAssign => withNTN (fun x0 x1 x2 => outp .node (multiAssign x0 x1 x2))
  | .defClass => withTNOPPT (fun x0 x1 x2 x3 x4 x5 => outp .node (defClass x0 x1 x2 x3 x4 x5))
  | .defSclass => withTTNPT (fun x0 x1 x2 x3 x4 => outp .node (defSclass x0 x1 x2 x3 x4))
  | .defModule => withTNPT (fun x0 x1 x2 x3 => outp .node (defModule x0 x1 x2 x3))
  | .defMethod => withTTPPT (fun x0 x1 x2 x3 x4 => outB .node (defMethod x0 x1 x2 x3 x4))
  | .defSingleton => withTNTTPPT (fun x0 x1 x2 x3 x4 x5 x6 => outB .node (defSingleton x0 x1 x2 x3 x4 x5 x6))
  | .indexAsgn => withNTLT (fun x0 x1 x2 x3 => outp .node (indexAsgn x0 x1 x2 x3))
  | .ternary => withNTNTN (fun x0 x1 x2 x3 x4 => outp .node (ternary x0 x1 x2 x3 x4))
  | .case => withTPLOPT (fun x0 x1 x2 x3 x4 x5 => outp .node (Builder.case x0 x1 x2 x3 x4 x5))
  | .for_ => withTNTNTPT (fun x0 x1 x2 x3 x4 x5 x6 => outp .node (for_ x0 x1 x2 x3 x4 x5 x6))
  | .preexe => withTTPT (fun x0 x1 x2 x3 => outp .node (preexe x0 x1 x2 x3))
  | .postexe => withTTPT (fun x0 x1 x2 x3 => outp .node (postexe x0 x1 x2 x3))
  | .matchPattern => withNTN (fun x0 x1 x2 => outp .node (matchPattern x0 x1 x2))
  | .matchPatternP => withNTN (fun x0 x1 x2 => outp .node (matchPatternP x0 x1 x2))
  | .ifGuard => withTN (fun x0 x1 => outp .node (ifGuard x0 x1))
  | .unlessGuard => withTN (fun x0 x1 => outp .node (unlessGuard x0 x1))
  | .constPattern => withNTNT (fun x0 x1 x2 x3 => outp .node (constPattern x0 x1 x2 x3))
  | .pin => withTN (fun x0 x1 => outp .node (pin x0 x1))
  | .matchAlt => withNTN (fun x0 x1 x2 => outp .node (matchAlt x0 x1 x2))
  | .matchAs => withNTN (fun x0 x1 x2 => outp .node (matchAs x0 x1 x2))
  | .matchNilPattern => withTT (fun x0 x1 => outp .node (matchNilPattern x0 x1))
  | .wordsCompose => withTLT (fun x0 x1 x2 => outp .node (wordsCompose x0 x1 x2))
  | .character => withT (fun x0 => outp .node (character x0))
  | .splat => withTP (fun x0 x1 => outp .node (splat x0 x1))
  | .blockPass => withTP (fun x0 x1 => outp .node (blockPass x0 x1))
  | .rangeInclusive => withPTP (fun x0 x1 x2 => outp .node (rangeInclusive x0 x1 x2))
  | .rangeExclusive => withPTP (fun x0 x1 x2 => outp .node (rangeExclusive x0 x1 x2))
  | .restarg => withTO (fun x0 x1 => outB .node (restarg x0 x1))
  | .kwrestarg => withTO (fun x0 x1 => outB .node (kwrestarg x0 x1))
  | .blockarg => withTO (fun x0 x1 => outB .node (blockarg x0 x1))
  | .unaryNum => withTN (fun x0 x1 => outR .node (unaryNum x0 x1))
  | .symbol => withTT (fun x0 x1 => outM .node (symbol x0 x1))
  | .symbolInternal => withT (fun x0 => outM .node (symbolInternal x0))
  | .nthRef => withT (fun x0 => outM .node (nthRef x0))
  | .matchVar => withT (fun x0 => outB .node (matchVar ext x0))
  | .array => withOLO (fun x0 x1 x2 => outR .node (array x0 x1 x2))
  | .multiLhs => withOLO (fun x0 x1 x2 => outR .node (multiLhs x0 x1 x2))
  | .hashPattern => withOLO (fun x0 x1 x2 => outR .node (hashPattern x0 x1 x2))
  | .findPattern => withOLO (fun x0 x1 x2 => outR .node (findPattern x0 x1 x2))
  | .associate => withOLO (fun x0 x1 x2 => outM .node (associate x0 x1 x2))
  | .args => withOLO (fun x0 x1 x2 => outM .onode (Builder.args x0 x1 x2))
  | .arrayPattern => withOLOO (fun x0 x1 x2 x3 => outR .node (arrayPattern x0 x1 x2 x3))
  | .logical p => withNTN (fun x0 x1 x2 => outB .node (logicalOp p x0 x1 x2))
  | .binaryOp => withNTN (fun x0 x1 x2 => outB .node (binaryOp x0 x1 x2))
  | .unaryOp => withTN (fun x0 x1 => outB .node (unaryOp x0 x1))
  | .matchOp => withNTN (fun x0 x1 x2 => outB .node (matchOp ext x0 x1 x2))
  | .notOp => withTN (fun x0 x1 => outB .node (notOp x0 none (some x1) none))
  | .notParen => withTTNT (fun x0 x1 x2 x3 => outB .node (notOp x0 (some x1) (some x2) (some x3)))
  | .notEmpty => withTTT (fun x0 x1 x2 => outB .node (notOp x0 (some x1) none (some x2)))
  | .ifMod => withNTN (fun x0 x1 x2 => outR .node (conditionMod (some x0) none x1 x2))
  | .unlessMod => withNTN (fun x0 x1 x2 => outR .node (conditionMod none (some x0) x1 x2))
  | .loopMod p => withNTN (fun x0 x1 x2 => outp .node (loopMod p x0 x1 x2))
  | .loop_ p => withTNTPT (fun x0 x1 x2 x3 x4 => outp .node (loop_ p x0 x1 x2 x3 x4))
  | .condition => withTNTPIT (fun x0 x1 x2 x3 x4 x5 => outp .node (Builder.condition x0 x1 x2 x3 x4.1 x4.2 (some x5)))
  | .unless_ => withTNTPOPT (fun x0 x1 x2 x3 x4 x5 x6 => outp .node (Builder.condition x0 x1 x2 x5 x4 x3 (some x6)))
  | .when => withTLTP (fun x0 x1 x2 x3 => outp .node (when x0 x1 x2 x3))
  | .inPattern => withTNPTP (fun x0 x1 x2 x3 x4 => outp .node (inPattern x0 x1 x2 x3 x4))
  | .caseMatch => withTNLOPT (fun x0 x1 x2 x3 x4 x5 => outp .node (caseMatch x0 x1 x2 x3 x4 x5))
  | .rescueClause => withTLETP (fun x0 x1 x2 x3 x4 => outR .node (rescueClause x0 x1 x2 x3 x4))
  | .rescueModOpt => withNTN (fun x0 x1 x2 => outR .onode (rescueMod x0 x1 x2))
  | .rescueMod => withNTN (fun x0 x1 x2 => outR .node (rescueMod! x0 x1 x2))
  | .compstmt => withL (fun x0 => outR .onode (compstmt x0))
  | .begin => withTPT (fun x0 x1 x2 => outp .node (Builder.begin x0 x1 x2))
  | .beginKeyword => withTPT (fun x0 x1 x2 => outp .node (beginKeyword x0 x1 x2))
  | .bodystmtElse => withPLTPOP (fun x0 x1 x2 x3 x4 x5 => outB .onode (bodystmtElse x0 x1 x2 x3 x4 x5))
  | .bodystmt => withPLOP (fun x0 x1 x2 x3 => outR .onode (beginBody x0 x1 none (x2.map fun t => (t, x3))))
  | .accessible => withN (fun x0 => outM .node (accessible x0))
  | .assignable => withN (fun x0 => outB .node (assignable x0))
  | .constOpAssignable => withN (fun x0 => outR .node (constOpAssignable x0))
  | .assign => withNTN (fun x0 x1 x2 => outR .node (assign x0 x1 x2))
  | .opAssign => withNTN (fun x0 x1 x2 => outB .node (opAssign x0 x1 x2))
  | .defEndless => withTTPTP (fun x0 x1 x2 x3 x4 => outB .node (defEndlessMethod x0 x1 x2 x3 x4))
  | .defEndlessSingleton => withTNTTPTP (fun x0 x1 x2 x3 x4 x5 x6 => outB .node (defEndlessSingleton x0 x1 x2 x3 x4 x5 x6))
  | .undefMethod => withTL (fun x0 x1 => outp .node (undefMethod x0 x1))
  | .kwarg => withT (fun x0 => outB .node (kwarg x0))
  | .kwoptarg => withTN (fun x0 x1 => outB .node (kwoptarg x0 x1))
  | .procargs => withLL (fun x0 x1 => outR .nodes (procargs x0 x1))
  | .callDot => withNTTL (fun x0 x1 x2 x3 => outR .node (callMethod (some x0) (some x1) (some x2) none x3 none))
  | .callFn => withTL (fun x0 x1 => outR .node (callMethod none none (some x0) none x1 none))
  | .callFnParen => withTTLT (fun x0 x1 x2 x3 => outR .node (callMethod none none (some x0) (some x1) x2 (some x3)))
  | .callDotParen => withNTTTLT (fun x0 x1 x2 x3 x4 x5 => outR .node (callMethod (some x0) (some x1) (some x2) (some x3) x4 (some x5)))
  | .callDotOpt => withNTTG (fun x0 x1 x2 x3 => outR .node (callMethod (some x0) (some x1) (some x2) x3.1 x3.2.1 x3.2.2))
  | .callParen => withNTTLT (fun x0 x1 x2 x3 x4 => outR .node (callMethod (some x0) (some x1) none (some x2) x3 (some x4)))
  | .block => withNTAPT (fun x0 x1 x2 x3 x4 => outB .node (block x0 x1 x2 x3 x4))
  | .lambda => withTATPT (fun x0 x1 x2 x3 x4 => outB .node (block (callLambda x0) x2 x1 x3 x4))
  | .attrAsgn => withNTT (fun x0 x1 x2 => outR .node (attrAsgn x0 x1 x2))
  | .attrAsgnMasgn => withNTT (fun x0 x1 x2 => outB .node (attrAsgnMasgn x0 x1 x2))
  | .index => withNTLT (fun x0 x1 x2 x3 => outR .node (index x0 x1 x2 x3))
  | .keyword p => withTL (fun x0 x1 => outB .node (keywordCmd p x0 none x1 none))
  | .keywordParen p => withTTLT (fun x0 x1 x2 x3 => outB .node (keywordCmd p x0 (some x1) x2 (some x3)))
  | .mlhsInner => withTNT (fun x0 x1 x2 => outR .node (mlhsInner x0 x1 x2))
  | .strings => withL (fun x0 => outR .node (stringCompose none x0 none))
  | .string1 => withTLT (fun x0 x1 x2 => outR .node (string1 indent x0 x1 x2))
  | .xstring => withTLT (fun x0 x1 x2 => outR .node (heredocDedent (xstringCompose x0 x1 x2) indent))
  | .regexp => withTLT (fun x0 x1 x2 => outM .node (do { let o ← liftR (regexpOptions x2); regexpCompose ext x0 x1 x2 o }))
  | .word => withL (fun x0 => outR .node (word x0))
  | .symbolsCompose => withTLT (fun x0 x1 x2 => outM .node (symbolsCompose x0 x1 x2))
  | .symbolCompose => withTLT (fun x0 x1 x2 => outM .node (symbolCompose x0 x1 x2))
  | .pairKeyword => withTN (fun x0 x1 => outM .node (pairKeyword x0 x1))
  | .pairLabel => withT (fun x0 => outM .node (pairLabel ext x0))
  | .pairQuoted => withTLTN (fun x0 x1 x2 x3 => outM .node (pairQuoted x0 x1 x2 x3))
  | .matchRest => withTO (fun x0 x1 => outB .node (matchRest ext x0 x1))
  | .matchPair => withKN (fun x0 x1 => outB .node (matchPair x0 x1))
  | .matchLabel => withK (fun x0 => outB .node (matchLabel ext x0))
  | .constPatternEmpty => withNTT (fun x0 x1 x2 => outR .node (constPatternEmpty x0 x1 x2))

/-- How a value is put together from the `$n`. -/
inductive Ex where
  /-- component `i` of `$n` -/
  | fld (n i : Nat)
  | call (f : BFn) (es : List Ex)

/-- The value an action gives to `$$`. -/
inductive ValOut where
  /-- `$$ = $n` -/
  | copy (n : Nat)
  /-- a new value with these components -/
  | mk (es : List Ex)

mutual
/-- `x` is a possible value of the expression, `vals` being the values of `$1, $2, …`. -/
def Ex.Gives (ext : BldExt) (vals : List (List Atom)) : Ex → Atom → Prop
  | .fld n i, x => (vals[n - 1]?).bind (·[i]?) = some x
  | .call f es, x => ∃ xs, exGives ext vals es xs ∧ ∃ indent s s', (applyFn ext indent f xs).run s = .ok (.ok x, s')
/-- The same for a list. -/
def exGives (ext : BldExt) (vals : List (List Atom)) : List Ex → List Atom → Prop
  | [], xs => xs = []
  | e :: es, xs => ∃ y ys, xs = y :: ys ∧ e.Gives ext vals y ∧ exGives ext vals es ys
end

/-- The same for `$$`. -/
def ValOut.Gives (ext : BldExt) (vals : List (List Atom)) : ValOut → List Atom → Prop
  | .copy n, xs => vals[n - 1]? = some xs
  | .mk es, xs => exGives ext vals es xs

/-- The values `$1, $2, …` at the end of a right-hand side: an action in the middle has one as well (without components). -/
def slots : List Item → List (List Atom) → List (List Atom)
  | [], _ => []
  | .a _ :: is, vs => [] :: slots is vs
  | _ :: is, v :: vs => v :: slots is vs
  | _ :: _, [] => []

/-- A right-hand side with an action that always returns `Err(())`. -/
def Item.refuses : Item → Bool
  | .a act => act.fails
  | _ => false

/-- A derivation tree over tokens. -/
inductive TTree where
  | leaf (t : Token)
  | node (rule : Nat) (kids : List TTree)

mutual
/-- The same over token types. -/
def TTree.shape : TTree → Tree
  | .leaf t => .leaf t.tokenType
  | .node r kids => .node r (shapeL kids)
/-- The same for a list. -/
def shapeL : List TTree → List Tree
  | [] => []
  | t :: ts => t.shape :: shapeL ts
end

end Verif.Grammar
