import Verif.Model.Ast
/-!
What a syntax tree looks like: for every field of every kind of node, the kinds of nodes that can stand there, and which lists are
never empty.  Independent of the builder; a consumer that matches on nodes relies on it (and has to invent an answer for everything
else).
-/
namespace Verif

/-- The kinds of nodes: the constructors, with those that come in two forms split up. -/
inductive NKind where
  | Alias | And | AndAsgn | Arg | Args | Array | ArrayPattern | ArrayPatternWithTail | BackRef | Begin | Block | Blockarg
  | BlockPass | Break | Case | CaseMatch | Casgn | Cbase | Class | Complex | Const | ConstPattern | CSend | Cvar | Cvasgn
  | Def | Defined | Defs | Dstr | Dsym | EFlipFlop | EmptyElse | Encoding | Ensure | Erange | False | File | FindPattern
  | Float | For | ForwardArg | ForwardedArgs | Gvar | Gvasgn | Hash | HashPattern | Heredoc | If | IfGuard | IfMod
  | IfTernary | IFlipFlop | Index | IndexAsgn | InPattern | Int | Irange | Ivar | Ivasgn | Kwarg | Kwargs | KwBegin
  | Kwnilarg | Kwoptarg | Kwrestarg | Kwsplat | Lambda | Line | Lvar | Lvasgn | Masgn | MatchAlt | MatchAs
  | MatchCurrentLine | MatchNilPattern | MatchPattern | MatchPatternP | MatchRest | MatchVar | MatchWithLvasgn | Mlhs
  | Module | Next | Nil | NthRef | Numblock | OpAsgn | Optarg | Or | OrAsgn | Pair | Pin | Postexe | Preexe | Procarg0
  | Rational | Redo | RegOpt | Regexp | Rescue | RescueBody | Restarg | Retry | Return | SClass | Self_ | Send | Shadowarg
  | Splat | Str | Super | Sym | True | Undef | UnlessGuard | Until | UntilPost | When | While | WhilePost | XHeredoc | Xstr
  | Yield | ZSuper
  /-- a destructured parameter: an `Mlhs` of parameters -/
  | MlhsP
  /-- a `Send` without arguments -/
  | Send0
  /-- a `CSend` without arguments -/
  | CSend0
  /-- an `Lvasgn` without a value -/
  | LvasgnT
  /-- an `Ivasgn` without a value -/
  | IvasgnT
  /-- a `Gvasgn` without a value -/
  | GvasgnT
  /-- a `Cvasgn` without a value -/
  | CvasgnT
  /-- a `Casgn` without a value -/
  | CasgnT
  /-- an `IndexAsgn` without a value -/
  | IndexAsgnT
  /-- a `return` whose first argument is a call -/
  | ReturnC
  /-- the same for `break` -/
  | BreakC
  /-- the same for `next` -/
  | NextC
deriving DecidableEq, Repr

/-- A set of kinds, as the bits of a number. -/
abbrev Kinds := Nat
/-- A set given by its elements. -/
def ks : List NKind → Kinds
  | [] => 0
  | k :: l => (1 <<< k.ctorIdx) ||| ks l
/-- Difference of sets. -/
def without (a b : Kinds) : Kinds := a ^^^ (a &&& b)

namespace Node

/-- What `return`, `break` and `next` pass a block on to. -/
def takesBlock : Node → Bool
  | .Send .. | .CSend .. | .Index .. | .Super .. | .ZSuper .. | .Yield .. => true
  | _ => false
/-- The first argument is one of those. -/
def headTakesBlock : List Node → Bool
  | n :: _ => n.takesBlock
  | [] => false

mutual
/-- A parameter that can stand inside of a destructured parameter. -/
def isDestr : Node → Bool
  | .Arg .. => true
  | .Restarg .. => true
  | .Mlhs items _ _ _ => allDestr items
  | _ => false
/-- The same for a list. -/
def allDestr : List Node → Bool
  | [] => true
  | n :: ns => n.isDestr && allDestr ns
end

/-- The kind of a node. -/
def kind : Node → NKind
  | .Alias .. => .Alias
  | .And .. => .And
  | .AndAsgn .. => .AndAsgn
  | .Arg .. => .Arg
  | .Args .. => .Args
  | .Array .. => .Array
  | .ArrayPattern .. => .ArrayPattern
  | .ArrayPatternWithTail .. => .ArrayPatternWithTail
  | .BackRef .. => .BackRef
  | .Begin .. => .Begin
  | .Block .. => .Block
  | .Blockarg .. => .Blockarg
  | .BlockPass .. => .BlockPass
  | .Break args _ _ => if headTakesBlock args then .BreakC else .Break
  | .Case .. => .Case
  | .CaseMatch .. => .CaseMatch
  | .Casgn _ _ value _ _ _ _ => if value.isSome then .Casgn else .CasgnT
  | .Cbase .. => .Cbase
  | .Class .. => .Class
  | .Complex .. => .Complex
  | .Const .. => .Const
  | .ConstPattern .. => .ConstPattern
  | .CSend _ _ args _ _ _ _ _ _ => if args.isEmpty then .CSend0 else .CSend
  | .Cvar .. => .Cvar
  | .Cvasgn _ value _ _ _ => if value.isSome then .Cvasgn else .CvasgnT
  | .Def .. => .Def
  | .Defined .. => .Defined
  | .Defs .. => .Defs
  | .Dstr .. => .Dstr
  | .Dsym .. => .Dsym
  | .EFlipFlop .. => .EFlipFlop
  | .EmptyElse .. => .EmptyElse
  | .Encoding .. => .Encoding
  | .Ensure .. => .Ensure
  | .Erange .. => .Erange
  | .False .. => .False
  | .File .. => .File
  | .FindPattern .. => .FindPattern
  | .Float .. => .Float
  | .For .. => .For
  | .ForwardArg .. => .ForwardArg
  | .ForwardedArgs .. => .ForwardedArgs
  | .Gvar .. => .Gvar
  | .Gvasgn _ value _ _ _ => if value.isSome then .Gvasgn else .GvasgnT
  | .Hash .. => .Hash
  | .HashPattern .. => .HashPattern
  | .Heredoc .. => .Heredoc
  | .If .. => .If
  | .IfGuard .. => .IfGuard
  | .IfMod .. => .IfMod
  | .IfTernary .. => .IfTernary
  | .IFlipFlop .. => .IFlipFlop
  | .Index .. => .Index
  | .IndexAsgn _ _ value _ _ _ _ => if value.isSome then .IndexAsgn else .IndexAsgnT
  | .InPattern .. => .InPattern
  | .Int .. => .Int
  | .Irange .. => .Irange
  | .Ivar .. => .Ivar
  | .Ivasgn _ value _ _ _ => if value.isSome then .Ivasgn else .IvasgnT
  | .Kwarg .. => .Kwarg
  | .Kwargs .. => .Kwargs
  | .KwBegin .. => .KwBegin
  | .Kwnilarg .. => .Kwnilarg
  | .Kwoptarg .. => .Kwoptarg
  | .Kwrestarg .. => .Kwrestarg
  | .Kwsplat .. => .Kwsplat
  | .Lambda .. => .Lambda
  | .Line .. => .Line
  | .Lvar .. => .Lvar
  | .Lvasgn _ value _ _ _ => if value.isSome then .Lvasgn else .LvasgnT
  | .Masgn .. => .Masgn
  | .MatchAlt .. => .MatchAlt
  | .MatchAs .. => .MatchAs
  | .MatchCurrentLine .. => .MatchCurrentLine
  | .MatchNilPattern .. => .MatchNilPattern
  | .MatchPattern .. => .MatchPattern
  | .MatchPatternP .. => .MatchPatternP
  | .MatchRest .. => .MatchRest
  | .MatchVar .. => .MatchVar
  | .MatchWithLvasgn .. => .MatchWithLvasgn
  | .Mlhs items _ _ _ => if allDestr items then .MlhsP else .Mlhs
  | .Module .. => .Module
  | .Next args _ _ => if headTakesBlock args then .NextC else .Next
  | .Nil .. => .Nil
  | .NthRef .. => .NthRef
  | .Numblock .. => .Numblock
  | .OpAsgn .. => .OpAsgn
  | .Optarg .. => .Optarg
  | .Or .. => .Or
  | .OrAsgn .. => .OrAsgn
  | .Pair .. => .Pair
  | .Pin .. => .Pin
  | .Postexe .. => .Postexe
  | .Preexe .. => .Preexe
  | .Procarg0 .. => .Procarg0
  | .Rational .. => .Rational
  | .Redo .. => .Redo
  | .RegOpt .. => .RegOpt
  | .Regexp .. => .Regexp
  | .Rescue .. => .Rescue
  | .RescueBody .. => .RescueBody
  | .Restarg .. => .Restarg
  | .Retry .. => .Retry
  | .Return args _ _ => if headTakesBlock args then .ReturnC else .Return
  | .SClass .. => .SClass
  | .Self_ .. => .Self_
  | .Send _ _ args _ _ _ _ _ _ => if args.isEmpty then .Send0 else .Send
  | .Shadowarg .. => .Shadowarg
  | .Splat .. => .Splat
  | .Str .. => .Str
  | .Super .. => .Super
  | .Sym .. => .Sym
  | .True .. => .True
  | .Undef .. => .Undef
  | .UnlessGuard .. => .UnlessGuard
  | .Until .. => .Until
  | .UntilPost .. => .UntilPost
  | .When .. => .When
  | .While .. => .While
  | .WhilePost .. => .WhilePost
  | .XHeredoc .. => .XHeredoc
  | .Xstr .. => .Xstr
  | .Yield .. => .Yield
  | .ZSuper .. => .ZSuper

end Node

/-- The node is of one of these kinds. -/
def Has (m : Kinds) (n : Node) : Prop := m.testBit n.kind.ctorIdx = true

namespace Shape

/-- What leaves the expression it is in and so has no value. -/
def voidK : Kinds := ks [.Return, .ReturnC, .Break, .BreakC, .Next, .NextC, .Redo, .Retry]
/-- What a string with interpolation consists of: text, `#{..}` and `#@x`. -/
def strPartK : Kinds := ks [.Str, .Begin, .Gvar, .BackRef, .NthRef, .Ivar, .Cvar]
/-- Strings. -/
def stringsK : Kinds := ks [.Str, .Dstr, .Heredoc]
/-- Numbers. -/
def numericK : Kinds := ks [.Int, .Float, .Rational, .Complex]
/-- Symbols. -/
def symK : Kinds := ks [.Sym, .Dsym]
/-- Keywords with a value. -/
def keywordVarK : Kinds := ks [.Nil, .True, .False, .Self_, .File, .Line, .Encoding]
/-- Variables and constants. -/
def userVarK : Kinds := ks [.Lvar, .Ivar, .Gvar, .Cvar, .Const]
/-- Calls of methods by name. -/
def sendsK : Kinds := ks [.Send, .Send0, .CSend, .CSend0]
/-- What takes a block. -/
def calleeK : Kinds := ks [.Send, .Send0, .CSend, .CSend0, .Index, .Super, .ZSuper, .Lambda]
/-- What takes the block after `return`, `break` and `next`. -/
def jumpCalleeK : Kinds := ks [.Send, .Send0, .CSend, .CSend0, .Index, .Super, .ZSuper, .Yield]
/-- Blocks with their calls. -/
def blocksK : Kinds := ks [.Block, .Numblock]
/-- Left-hand sides of assignments (assignments without a value). -/
def targetK : Kinds := ks [.LvasgnT, .IvasgnT, .GvasgnT, .CvasgnT, .CasgnT, .IndexAsgnT, .Send0, .CSend0]
/-- Assignments with a value. -/
def assignedK : Kinds := ks [.Lvasgn, .Ivasgn, .Gvasgn, .Cvasgn, .Casgn, .IndexAsgn]
/-- Assignments with an operator. -/
def opAsgnK : Kinds := ks [.AndAsgn, .OrAsgn, .OpAsgn]
/-- Expressions that need no parentheses anywhere (with a value). -/
def primaryK : Kinds := blocksK ||| sendsK ||| userVarK ||| keywordVarK ||| symK ||| numericK ||| stringsK ||| ks [.Array, .Begin,
    .BackRef, .NthRef, .Case, .CaseMatch, .Class, .Def, .Defined, .Defs, .For, .Hash, .If, .Index, .KwBegin, .Module, .Regexp,
    .SClass, .Super, .Until, .While, .XHeredoc, .Xstr, .Yield, .ZSuper]
/-- Arguments (with a value). -/
def valueK : Kinds := opAsgnK ||| assignedK ||| primaryK ||| ks [.And, .Or, .Erange, .Irange, .IfTernary, .MatchWithLvasgn]
/-- Expressions (with a value). -/
def exprK : Kinds := valueK ||| ks [.MatchPattern, .MatchPatternP]
/-- Statements. -/
def stmtK : Kinds := voidK ||| exprK ||| ks [.Alias, .IfMod, .Masgn, .Postexe, .Rescue, .Undef, .UntilPost, .WhilePost]
/-- Bodies of methods, classes and the like. -/
def bodyK : Kinds := stmtK ||| ks [.Ensure]
/-- Statements outside of everything. -/
def topK : Kinds := stmtK ||| ks [.Preexe]
/-- Conditions: ranges and regular expressions have become flip-flops and matches of the current line. -/
def condK : Kinds := without exprK (ks [.Irange, .Erange, .Regexp]) ||| ks [.IFlipFlop, .EFlipFlop, .MatchCurrentLine]
/-- Operands of `and`, `or` and `not`: expressions, or conditions inside of a condition. -/
def operandK : Kinds := exprK ||| condK
/-- Elements of arrays. -/
def valueSplatK : Kinds := valueK ||| ks [.Splat]
/-- Arguments of calls (`Rescue`: the value of an assignment to an attribute). -/
def callArgK : Kinds := valueSplatK ||| ks [.BlockPass, .Kwargs, .ForwardedArgs, .Rescue]
/-- Arguments of `return`, `break` and `next`. -/
def jumpArgK : Kinds := valueSplatK ||| ks [.BlockPass]
/-- Values of assignments. -/
def rhsK : Kinds := valueK ||| ks [.Rescue]
/-- Elements of hashes. -/
def pairsK : Kinds := ks [.Pair, .Kwsplat]
/-- Parameters inside of a destructured parameter. -/
def destrK : Kinds := ks [.Arg, .MlhsP, .Restarg]
/-- Parameters. -/
def paramK : Kinds := ks [.Arg, .Optarg, .Restarg, .Kwarg, .Kwoptarg, .Kwrestarg, .Kwnilarg, .Blockarg, .Shadowarg, .ForwardArg,
    .MlhsP, .Procarg0]
/-- Left-hand sides of multiple assignments. -/
def mlhsItemK : Kinds := targetK ||| ks [.Mlhs, .Splat]
/-- What occurs only in patterns. -/
def patternPartK : Kinds := ks [.ArrayPattern, .ArrayPatternWithTail, .FindPattern, .HashPattern, .MatchAlt, .MatchAs, .MatchVar,
    .Pin, .ConstPattern]
/-- Patterns. -/
def patternK : Kinds := patternPartK ||| blocksK ||| keywordVarK ||| symK ||| numericK ||| stringsK ||| ks [.Array, .Begin, .Const,
    .Erange, .Irange, .Regexp, .XHeredoc, .Xstr]
/-- Elements of array patterns. -/
def patternItemK : Kinds := patternK ||| ks [.MatchRest]
/-- What stands in parentheses. -/
def beginsK : Kinds := topK ||| patternPartK ||| condK
/-- What stands between `begin` and `end`. -/
def kwBeginsK : Kinds := beginsK ||| bodyK
/-- Values in hashes and in hash patterns. -/
def pairValueK : Kinds := valueK ||| patternPartK
/-- What `::` is applied to. -/
def scopeK : Kinds := primaryK ||| ks [.Cbase]
/-- What a singleton method is defined on. -/
def defineeK : Kinds := without exprK (stringsK ||| numericK ||| symK ||| ks [.XHeredoc, .Regexp, .Array, .Hash])
/-- What `*` is applied to, in an array or on the left of an assignment. -/
def splattedK : Kinds := valueK ||| targetK
/-- Expressions that are not required to have a value. -/
def exprOrVoidK : Kinds := exprK ||| voidK
/-- Arguments that are not required to have a value. -/
def valueOrVoidK : Kinds := valueK ||| voidK
/-- Receivers of calls (also of `!`). -/
def receiverK : Kinds := operandK ||| voidK
/-- Right operands of `and` and `or`. -/
def operandOrVoidK : Kinds := operandK ||| voidK
/-- `else` of `case` with patterns. -/
def caseElseK : Kinds := stmtK ||| ks [.EmptyElse]
/-- Parts of strings: as above, or adjacent strings. -/
def dstrPartK : Kinds := strPartK ||| ks [.Dstr, .Heredoc]
/-- What `^` is applied to. -/
def pinnedK : Kinds := ks [.Begin, .Cvar, .Gvar, .Ivar, .Lvar, .Send0]

/-- A child and what it may be. -/
def one (m : Kinds) (n : Node) : List (Kinds × Node) := [(m, n)]
/-- A child that may be absent. -/
def opt (m : Kinds) (n : Option Node) : List (Kinds × Node) := n.toList.map fun n => (m, n)
/-- The children in a list. -/
def each (m : Kinds) (l : List Node) : List (Kinds × Node) := l.map fun n => (m, n)

end Shape

namespace Node
open Shape

/-- The children of a node, each with the kinds it may be of. -/
def fields : Node → List (Kinds × Node)
  | .Alias to from_ _ _ => one (ks [.Sym, .Dsym, .Gvar]) to ++ one (ks [.Sym, .Dsym, .Gvar, .BackRef]) from_
  | .And lhs rhs _ _ => one operandK lhs ++ one operandOrVoidK rhs
  | .AndAsgn recv value _ _ => one targetK recv ++ one rhsK value
  | .Args args _ _ _ => each paramK args
  | .Array elements _ _ _ => each valueSplatK elements
  | .ArrayPattern elements _ _ _ => each patternItemK elements
  | .ArrayPatternWithTail elements _ _ _ => each patternItemK elements
  | .Begin statements _ _ _ => each beginsK statements
  | .Block call args body _ _ _ => one (ks [.Send, .Send0, .CSend, .CSend0, .Index, .Super, .ZSuper, .Lambda, .Yield]) call ++
      opt (ks [.Args]) args ++ opt bodyK body
  | .BlockPass value _ _ => opt valueK value
  | .Break args _ _ => each jumpArgK args
  | .Case expr when_bodies else_body _ _ _ _ => opt exprK expr ++ each (ks [.When]) when_bodies ++ opt stmtK else_body
  | .CaseMatch expr in_bodies else_body _ _ _ _ => one exprK expr ++ each (ks [.InPattern]) in_bodies ++ opt caseElseK else_body
  | .Casgn scope _ value _ _ _ _ => opt scopeK scope ++ opt rhsK value
  | .Class name superclass body _ _ _ _ => one (ks [.Const]) name ++ opt exprK superclass ++ opt bodyK body
  | .Const scope _ _ _ _ => opt scopeK scope
  | .ConstPattern const_ pattern _ _ _ => one (ks [.Const]) const_ ++ one (ks [.ArrayPattern, .FindPattern, .HashPattern,
      .ArrayPatternWithTail]) pattern
  | .CSend recv _ args _ _ _ _ _ _ => one receiverK recv ++ each callArgK args
  | .Cvasgn _ value _ _ _ => opt rhsK value
  | .Def _ args body _ _ _ _ _ => opt (ks [.Args]) args ++ opt bodyK body
  | .Defined value _ _ _ _ => one exprOrVoidK value
  | .Defs definee _ args body _ _ _ _ _ _ => one defineeK definee ++ opt (ks [.Args]) args ++ opt bodyK body
  | .Dstr parts _ _ _ => each dstrPartK parts
  | .Dsym parts _ _ _ => each dstrPartK parts
  | .EFlipFlop left right _ _ => opt condK left ++ opt condK right
  | .Ensure body ensure _ _ => opt stmtK body ++ opt stmtK ensure
  | .Erange left right _ _ => opt valueK left ++ opt valueK right
  | .FindPattern elements _ _ _ => each patternItemK elements
  | .For iterator iteratee body _ _ _ _ _ => one (targetK ||| ks [.Mlhs]) iterator ++ one exprK iteratee ++ opt stmtK body
  | .Gvasgn _ value _ _ _ => opt rhsK value
  | .Hash pairs _ _ _ => each pairsK pairs
  | .HashPattern elements _ _ _ => each (ks [.Pair, .MatchVar, .MatchRest, .MatchNilPattern]) elements
  | .Heredoc parts _ _ _ => each strPartK parts
  | .If cond if_true if_false _ _ _ _ _ => one condK cond ++ opt stmtK if_true ++ opt stmtK if_false
  | .IfGuard cond _ _ => one exprK cond
  | .IfMod cond if_true if_false _ _ => one condK cond ++ opt stmtK if_true ++ opt stmtK if_false
  | .IfTernary cond if_true if_false _ _ _ => one valueK cond ++ one valueOrVoidK if_true ++ one valueOrVoidK if_false
  | .IFlipFlop left right _ _ => opt condK left ++ opt condK right
  | .Index recv indexes _ _ _ => one primaryK recv ++ each callArgK indexes
  | .IndexAsgn recv indexes value _ _ _ _ => one primaryK recv ++ each callArgK indexes ++ opt rhsK value
  | .InPattern pattern guard body _ _ _ => one patternK pattern ++ opt (ks [.IfGuard, .UnlessGuard]) guard ++ opt stmtK body
  | .Irange left right _ _ => opt valueK left ++ opt valueK right
  | .Ivasgn _ value _ _ _ => opt rhsK value
  | .Kwargs pairs _ => each pairsK pairs
  | .KwBegin statements _ _ _ => each kwBeginsK statements
  | .Kwoptarg _ default _ _ => one valueK default
  | .Kwsplat value _ _ => one valueK value
  | .Lvasgn _ value _ _ _ => opt rhsK value
  | .Masgn lhs rhs _ _ => one (ks [.Mlhs]) lhs ++ one rhsK rhs
  | .MatchAlt lhs rhs _ _ => one patternK lhs ++ one patternK rhs
  | .MatchAs value as_ _ _ => one patternK value ++ one (ks [.MatchVar]) as_
  | .MatchCurrentLine re _ => one (ks [.Regexp]) re
  | .MatchPattern value pattern _ _ => one valueOrVoidK value ++ one patternK pattern
  | .MatchPatternP value pattern _ _ => one valueOrVoidK value ++ one patternK pattern
  | .MatchRest name _ _ => opt (ks [.MatchVar]) name
  | .MatchWithLvasgn re value _ _ => one (ks [.Regexp]) re ++ one valueK value
  | .Mlhs items _ _ _ => each (if allDestr items then destrK else mlhsItemK) items
  | .Module name body _ _ _ => one (ks [.Const]) name ++ opt bodyK body
  | .Next args _ _ => each jumpArgK args
  | .Numblock call _ body _ _ _ => one (ks [.Send, .Send0, .CSend, .CSend0, .Index, .Super, .ZSuper, .Lambda, .Yield]) call ++
      one bodyK body
  | .OpAsgn recv _ value _ _ => one targetK recv ++ one rhsK value
  | .Optarg _ default _ _ _ => one valueK default
  | .Or lhs rhs _ _ => one operandK lhs ++ one operandOrVoidK rhs
  | .OrAsgn recv value _ _ => one targetK recv ++ one rhsK value
  | .Pair key value _ _ => one valueK key ++ one pairValueK value
  | .Pin var _ _ => one pinnedK var
  | .Postexe body _ _ _ _ => opt stmtK body
  | .Preexe body _ _ _ _ => opt topK body
  | .Procarg0 args _ _ _ => each destrK args
  | .Regexp parts options _ _ _ => each strPartK parts ++ opt (ks [.RegOpt]) options
  | .Rescue body rescue_bodies else_ _ _ => opt stmtK body ++ each (ks [.RescueBody]) rescue_bodies ++ opt stmtK else_
  | .RescueBody exc_list exc_var body _ _ _ _ => opt (ks [.Array]) exc_list ++ opt targetK exc_var ++ opt stmtK body
  | .Return args _ _ => each jumpArgK args
  | .SClass expr body _ _ _ _ => one exprOrVoidK expr ++ opt bodyK body
  | .Send recv _ args _ _ _ _ _ _ => opt receiverK recv ++ each callArgK args
  | .Splat value _ _ => opt splattedK value
  | .Super args _ _ _ _ => each callArgK args
  | .Undef names _ _ => each symK names
  | .UnlessGuard cond _ _ => one exprK cond
  | .Until cond body _ _ _ _ => one condK cond ++ opt stmtK body
  | .UntilPost cond body _ _ => one condK cond ++ one (ks [.KwBegin]) body
  | .When patterns body _ _ _ => each valueSplatK patterns ++ opt stmtK body
  | .While cond body _ _ _ _ => one condK cond ++ opt stmtK body
  | .WhilePost cond body _ _ => one condK cond ++ one (ks [.KwBegin]) body
  | .XHeredoc parts _ _ _ => each strPartK parts
  | .Xstr parts _ _ _ => each strPartK parts
  | .Yield args _ _ _ _ => each callArgK args
  | _ => []

/-- Without an opening delimiter there is at least one element. -/
def held (b : Option Loc) (l : List Node) : Bool := b.isSome || !l.isEmpty

/-- Lists that are not empty. -/
def sized : Node → Bool
  | .Args args begin_l _ _ => held begin_l args
  | .Array elements begin_l _ _ => held begin_l elements
  | .ArrayPattern elements begin_l _ _ => held begin_l elements
  | .ArrayPatternWithTail elements _ _ _ => !elements.isEmpty
  | .Begin statements begin_l _ _ => begin_l.isSome || 2 ≤ statements.length
  | .Case _ when_bodies _ _ _ _ _ => !when_bodies.isEmpty
  | .CaseMatch _ in_bodies _ _ _ _ _ => !in_bodies.isEmpty
  | .FindPattern elements _ _ _ => !elements.isEmpty
  | .Hash pairs begin_l _ _ => held begin_l pairs
  | .HashPattern elements begin_l _ _ => held begin_l elements
  | .Kwargs pairs _ => !pairs.isEmpty
  | .Mlhs items _ _ _ => !items.isEmpty
  | .Procarg0 args _ _ _ => !args.isEmpty
  | .Rescue _ rescue_bodies _ _ _ => !rescue_bodies.isEmpty
  | .Undef names _ _ => !names.isEmpty
  | .When patterns _ _ _ _ => !patterns.isEmpty
  | _ => true

end Node

/-- A tree in which every child of every node is of a kind that may stand there. -/
inductive Shaped : Node → Prop where
  | mk (n : Node) (kinds : ∀ p ∈ n.fields, Has p.1 p.2) (kids : ∀ p ∈ n.fields, Shaped p.2) (sized : n.sized = true) : Shaped n

/-- Such a tree with a root of one of the given kinds. -/
def Ok (m : Kinds) (n : Node) : Prop := Has m n ∧ Shaped n

end Verif
