import Verif.Model.Source
/-!
The syntax tree. `Node` and the structs in it belong to the external crate `lib_ruby_parser_ast`, whose source is not
part of the repository; constructors and fields are those src/builder.rs builds and destructures (every `Node::X(X { .. })`
there lists all fields), with the types forced by that use. `Box` and `&` are transparent. A `String` is a `Text`.
A field called `from`/`else`/`const`/`as` has a trailing underscore, and so has `self`.
-/
namespace Verif

/-- The node kinds built by src/builder.rs. -/
inductive Node where
  | Alias (to : Node) (from_ : Node) (keyword_l : Loc) (expression_l : Loc)
  | And (lhs : Node) (rhs : Node) (operator_l : Loc) (expression_l : Loc)
  | AndAsgn (recv : Node) (value : Node) (operator_l : Loc) (expression_l : Loc)
  | Arg (name : Text) (expression_l : Loc)
  | Args (args : List Node) (begin_l : Option Loc) (end_l : Option Loc) (expression_l : Loc)
  | Array (elements : List Node) (begin_l : Option Loc) (end_l : Option Loc) (expression_l : Loc)
  | ArrayPattern (elements : List Node) (begin_l : Option Loc) (end_l : Option Loc) (expression_l : Loc)
  | ArrayPatternWithTail (elements : List Node) (begin_l : Option Loc) (end_l : Option Loc) (expression_l : Loc)
  | BackRef (name : Text) (expression_l : Loc)
  | Begin (statements : List Node) (begin_l : Option Loc) (end_l : Option Loc) (expression_l : Loc)
  | Block (call : Node) (args : Option Node) (body : Option Node) (begin_l : Loc) (end_l : Loc) (expression_l : Loc)
  | Blockarg (name : Option Text) (operator_l : Loc) (name_l : Option Loc) (expression_l : Loc)
  | BlockPass (value : Option Node) (operator_l : Loc) (expression_l : Loc)
  | Break (args : List Node) (keyword_l : Loc) (expression_l : Loc)
  | Case (expr : Option Node) (when_bodies : List Node) (else_body : Option Node) (keyword_l : Loc) (else_l : Option Loc) (end_l : Loc) (expression_l : Loc)
  | CaseMatch (expr : Node) (in_bodies : List Node) (else_body : Option Node) (keyword_l : Loc) (else_l : Option Loc) (end_l : Loc) (expression_l : Loc)
  | Casgn (scope : Option Node) (name : Text) (value : Option Node) (double_colon_l : Option Loc) (name_l : Loc) (operator_l : Option Loc) (expression_l : Loc)
  | Cbase (expression_l : Loc)
  | Class (name : Node) (superclass : Option Node) (body : Option Node) (keyword_l : Loc) (operator_l : Option Loc) (end_l : Loc) (expression_l : Loc)
  | Complex (value : Text) (operator_l : Option Loc) (expression_l : Loc)
  | Const (scope : Option Node) (name : Text) (double_colon_l : Option Loc) (name_l : Loc) (expression_l : Loc)
  | ConstPattern (const_ : Node) (pattern : Node) (begin_l : Loc) (end_l : Loc) (expression_l : Loc)
  | CSend (recv : Node) (method_name : Text) (args : List Node) (dot_l : Loc) (selector_l : Option Loc) (begin_l : Option Loc) (end_l : Option Loc) (operator_l : Option Loc) (expression_l : Loc)
  | Cvar (name : Text) (expression_l : Loc)
  | Cvasgn (name : Text) (value : Option Node) (name_l : Loc) (operator_l : Option Loc) (expression_l : Loc)
  | Def (name : Text) (args : Option Node) (body : Option Node) (keyword_l : Loc) (name_l : Loc) (end_l : Option Loc) (assignment_l : Option Loc) (expression_l : Loc)
  | Defined (value : Node) (keyword_l : Loc) (begin_l : Option Loc) (end_l : Option Loc) (expression_l : Loc)
  | Defs (definee : Node) (name : Text) (args : Option Node) (body : Option Node) (keyword_l : Loc) (operator_l : Loc) (name_l : Loc) (assignment_l : Option Loc) (end_l : Option Loc) (expression_l : Loc)
  | Dstr (parts : List Node) (begin_l : Option Loc) (end_l : Option Loc) (expression_l : Loc)
  | Dsym (parts : List Node) (begin_l : Option Loc) (end_l : Option Loc) (expression_l : Loc)
  | EFlipFlop (left : Option Node) (right : Option Node) (operator_l : Loc) (expression_l : Loc)
  | EmptyElse (expression_l : Loc)
  | Encoding (expression_l : Loc)
  | Ensure (body : Option Node) (ensure : Option Node) (keyword_l : Loc) (expression_l : Loc)
  | Erange (left : Option Node) (right : Option Node) (operator_l : Loc) (expression_l : Loc)
  | False (expression_l : Loc)
  | File (expression_l : Loc)
  | FindPattern (elements : List Node) (begin_l : Option Loc) (end_l : Option Loc) (expression_l : Loc)
  | Float (value : Text) (operator_l : Option Loc) (expression_l : Loc)
  | For (iterator : Node) (iteratee : Node) (body : Option Node) (keyword_l : Loc) (operator_l : Loc) (begin_l : Loc) (end_l : Loc) (expression_l : Loc)
  | ForwardArg (expression_l : Loc)
  | ForwardedArgs (expression_l : Loc)
  | Gvar (name : Text) (expression_l : Loc)
  | Gvasgn (name : Text) (value : Option Node) (name_l : Loc) (operator_l : Option Loc) (expression_l : Loc)
  | Hash (pairs : List Node) (begin_l : Option Loc) (end_l : Option Loc) (expression_l : Loc)
  | HashPattern (elements : List Node) (begin_l : Option Loc) (end_l : Option Loc) (expression_l : Loc)
  | Heredoc (parts : List Node) (heredoc_body_l : Loc) (heredoc_end_l : Loc) (expression_l : Loc)
  | If (cond : Node) (if_true : Option Node) (if_false : Option Node) (keyword_l : Loc) (begin_l : Loc) (else_l : Option Loc) (end_l : Option Loc) (expression_l : Loc)
  | IfGuard (cond : Node) (keyword_l : Loc) (expression_l : Loc)
  | IfMod (cond : Node) (if_true : Option Node) (if_false : Option Node) (keyword_l : Loc) (expression_l : Loc)
  | IfTernary (cond : Node) (if_true : Node) (if_false : Node) (question_l : Loc) (colon_l : Loc) (expression_l : Loc)
  | IFlipFlop (left : Option Node) (right : Option Node) (operator_l : Loc) (expression_l : Loc)
  | Index (recv : Node) (indexes : List Node) (begin_l : Loc) (end_l : Loc) (expression_l : Loc)
  | IndexAsgn (recv : Node) (indexes : List Node) (value : Option Node) (begin_l : Loc) (end_l : Loc) (operator_l : Option Loc) (expression_l : Loc)
  | InPattern (pattern : Node) (guard : Option Node) (body : Option Node) (keyword_l : Loc) (begin_l : Loc) (expression_l : Loc)
  | Int (value : Text) (operator_l : Option Loc) (expression_l : Loc)
  | Irange (left : Option Node) (right : Option Node) (operator_l : Loc) (expression_l : Loc)
  | Ivar (name : Text) (expression_l : Loc)
  | Ivasgn (name : Text) (value : Option Node) (name_l : Loc) (operator_l : Option Loc) (expression_l : Loc)
  | Kwarg (name : Text) (name_l : Loc) (expression_l : Loc)
  | Kwargs (pairs : List Node) (expression_l : Loc)
  | KwBegin (statements : List Node) (begin_l : Option Loc) (end_l : Option Loc) (expression_l : Loc)
  | Kwnilarg (name_l : Loc) (expression_l : Loc)
  | Kwoptarg (name : Text) (default : Node) (name_l : Loc) (expression_l : Loc)
  | Kwrestarg (name : Option Text) (operator_l : Loc) (name_l : Option Loc) (expression_l : Loc)
  | Kwsplat (value : Node) (operator_l : Loc) (expression_l : Loc)
  | Lambda (expression_l : Loc)
  | Line (expression_l : Loc)
  | Lvar (name : Text) (expression_l : Loc)
  | Lvasgn (name : Text) (value : Option Node) (name_l : Loc) (operator_l : Option Loc) (expression_l : Loc)
  | Masgn (lhs : Node) (rhs : Node) (operator_l : Loc) (expression_l : Loc)
  | MatchAlt (lhs : Node) (rhs : Node) (operator_l : Loc) (expression_l : Loc)
  | MatchAs (value : Node) (as_ : Node) (operator_l : Loc) (expression_l : Loc)
  | MatchCurrentLine (re : Node) (expression_l : Loc)
  | MatchNilPattern (operator_l : Loc) (name_l : Loc) (expression_l : Loc)
  | MatchPattern (value : Node) (pattern : Node) (operator_l : Loc) (expression_l : Loc)
  | MatchPatternP (value : Node) (pattern : Node) (operator_l : Loc) (expression_l : Loc)
  | MatchRest (name : Option Node) (operator_l : Loc) (expression_l : Loc)
  | MatchVar (name : Text) (name_l : Loc) (expression_l : Loc)
  | MatchWithLvasgn (re : Node) (value : Node) (operator_l : Loc) (expression_l : Loc)
  | Mlhs (items : List Node) (begin_l : Option Loc) (end_l : Option Loc) (expression_l : Loc)
  | Module (name : Node) (body : Option Node) (keyword_l : Loc) (end_l : Loc) (expression_l : Loc)
  | Next (args : List Node) (keyword_l : Loc) (expression_l : Loc)
  | Nil (expression_l : Loc)
  | NthRef (name : Text) (expression_l : Loc)
  | Numblock (call : Node) (numargs : Nat) (body : Node) (begin_l : Loc) (end_l : Loc) (expression_l : Loc)
  | OpAsgn (recv : Node) (operator : Text) (value : Node) (operator_l : Loc) (expression_l : Loc)
  | Optarg (name : Text) (default : Node) (name_l : Loc) (operator_l : Loc) (expression_l : Loc)
  | Or (lhs : Node) (rhs : Node) (operator_l : Loc) (expression_l : Loc)
  | OrAsgn (recv : Node) (value : Node) (operator_l : Loc) (expression_l : Loc)
  | Pair (key : Node) (value : Node) (operator_l : Loc) (expression_l : Loc)
  | Pin (var : Node) (selector_l : Loc) (expression_l : Loc)
  | Postexe (body : Option Node) (keyword_l : Loc) (begin_l : Loc) (end_l : Loc) (expression_l : Loc)
  | Preexe (body : Option Node) (keyword_l : Loc) (begin_l : Loc) (end_l : Loc) (expression_l : Loc)
  | Procarg0 (args : List Node) (begin_l : Option Loc) (end_l : Option Loc) (expression_l : Loc)
  | Rational (value : Text) (operator_l : Option Loc) (expression_l : Loc)
  | Redo (expression_l : Loc)
  | RegOpt (options : Option Text) (expression_l : Loc)
  | Regexp (parts : List Node) (options : Option Node) (begin_l : Loc) (end_l : Loc) (expression_l : Loc)
  | Rescue (body : Option Node) (rescue_bodies : List Node) (else_ : Option Node) (else_l : Option Loc) (expression_l : Loc)
  | RescueBody (exc_list : Option Node) (exc_var : Option Node) (body : Option Node) (keyword_l : Loc) (assoc_l : Option Loc) (begin_l : Option Loc) (expression_l : Loc)
  | Restarg (name : Option Text) (operator_l : Loc) (name_l : Option Loc) (expression_l : Loc)
  | Retry (expression_l : Loc)
  | Return (args : List Node) (keyword_l : Loc) (expression_l : Loc)
  | SClass (expr : Node) (body : Option Node) (keyword_l : Loc) (operator_l : Loc) (end_l : Loc) (expression_l : Loc)
  | Self_ (expression_l : Loc)
  | Send (recv : Option Node) (method_name : Text) (args : List Node) (dot_l : Option Loc) (selector_l : Option Loc) (begin_l : Option Loc) (end_l : Option Loc) (operator_l : Option Loc) (expression_l : Loc)
  | Shadowarg (name : Text) (expression_l : Loc)
  | Splat (value : Option Node) (operator_l : Loc) (expression_l : Loc)
  | Str (value : Bytes) (begin_l : Option Loc) (end_l : Option Loc) (expression_l : Loc)
  | Super (args : List Node) (keyword_l : Loc) (begin_l : Option Loc) (end_l : Option Loc) (expression_l : Loc)
  | Sym (name : Bytes) (begin_l : Option Loc) (end_l : Option Loc) (expression_l : Loc)
  | True (expression_l : Loc)
  | Undef (names : List Node) (keyword_l : Loc) (expression_l : Loc)
  | UnlessGuard (cond : Node) (keyword_l : Loc) (expression_l : Loc)
  | Until (cond : Node) (body : Option Node) (keyword_l : Loc) (begin_l : Option Loc) (end_l : Option Loc) (expression_l : Loc)
  | UntilPost (cond : Node) (body : Node) (keyword_l : Loc) (expression_l : Loc)
  | When (patterns : List Node) (body : Option Node) (keyword_l : Loc) (begin_l : Loc) (expression_l : Loc)
  | While (cond : Node) (body : Option Node) (keyword_l : Loc) (begin_l : Option Loc) (end_l : Option Loc) (expression_l : Loc)
  | WhilePost (cond : Node) (body : Node) (keyword_l : Loc) (expression_l : Loc)
  | XHeredoc (parts : List Node) (heredoc_body_l : Loc) (heredoc_end_l : Loc) (expression_l : Loc)
  | Xstr (parts : List Node) (begin_l : Loc) (end_l : Loc) (expression_l : Loc)
  | Yield (args : List Node) (keyword_l : Loc) (begin_l : Option Loc) (end_l : Option Loc) (expression_l : Loc)
  | ZSuper (expression_l : Loc)
deriving Repr

namespace Node

/-- `Node::expression`: the `expression_l` of the struct inside (the method is generated in the external crate). -/
def expression : Node → Loc
  | .Alias _ _ _ l => l
  | .And _ _ _ l => l
  | .AndAsgn _ _ _ l => l
  | .Arg _ l => l
  | .Args _ _ _ l => l
  | .Array _ _ _ l => l
  | .ArrayPattern _ _ _ l => l
  | .ArrayPatternWithTail _ _ _ l => l
  | .BackRef _ l => l
  | .Begin _ _ _ l => l
  | .Block _ _ _ _ _ l => l
  | .Blockarg _ _ _ l => l
  | .BlockPass _ _ l => l
  | .Break _ _ l => l
  | .Case _ _ _ _ _ _ l => l
  | .CaseMatch _ _ _ _ _ _ l => l
  | .Casgn _ _ _ _ _ _ l => l
  | .Cbase l => l
  | .Class _ _ _ _ _ _ l => l
  | .Complex _ _ l => l
  | .Const _ _ _ _ l => l
  | .ConstPattern _ _ _ _ l => l
  | .CSend _ _ _ _ _ _ _ _ l => l
  | .Cvar _ l => l
  | .Cvasgn _ _ _ _ l => l
  | .Def _ _ _ _ _ _ _ l => l
  | .Defined _ _ _ _ l => l
  | .Defs _ _ _ _ _ _ _ _ _ l => l
  | .Dstr _ _ _ l => l
  | .Dsym _ _ _ l => l
  | .EFlipFlop _ _ _ l => l
  | .EmptyElse l => l
  | .Encoding l => l
  | .Ensure _ _ _ l => l
  | .Erange _ _ _ l => l
  | .False l => l
  | .File l => l
  | .FindPattern _ _ _ l => l
  | .Float _ _ l => l
  | .For _ _ _ _ _ _ _ l => l
  | .ForwardArg l => l
  | .ForwardedArgs l => l
  | .Gvar _ l => l
  | .Gvasgn _ _ _ _ l => l
  | .Hash _ _ _ l => l
  | .HashPattern _ _ _ l => l
  | .Heredoc _ _ _ l => l
  | .If _ _ _ _ _ _ _ l => l
  | .IfGuard _ _ l => l
  | .IfMod _ _ _ _ l => l
  | .IfTernary _ _ _ _ _ l => l
  | .IFlipFlop _ _ _ l => l
  | .Index _ _ _ _ l => l
  | .IndexAsgn _ _ _ _ _ _ l => l
  | .InPattern _ _ _ _ _ l => l
  | .Int _ _ l => l
  | .Irange _ _ _ l => l
  | .Ivar _ l => l
  | .Ivasgn _ _ _ _ l => l
  | .Kwarg _ _ l => l
  | .Kwargs _ l => l
  | .KwBegin _ _ _ l => l
  | .Kwnilarg _ l => l
  | .Kwoptarg _ _ _ l => l
  | .Kwrestarg _ _ _ l => l
  | .Kwsplat _ _ l => l
  | .Lambda l => l
  | .Line l => l
  | .Lvar _ l => l
  | .Lvasgn _ _ _ _ l => l
  | .Masgn _ _ _ l => l
  | .MatchAlt _ _ _ l => l
  | .MatchAs _ _ _ l => l
  | .MatchCurrentLine _ l => l
  | .MatchNilPattern _ _ l => l
  | .MatchPattern _ _ _ l => l
  | .MatchPatternP _ _ _ l => l
  | .MatchRest _ _ l => l
  | .MatchVar _ _ l => l
  | .MatchWithLvasgn _ _ _ l => l
  | .Mlhs _ _ _ l => l
  | .Module _ _ _ _ l => l
  | .Next _ _ l => l
  | .Nil l => l
  | .NthRef _ l => l
  | .Numblock _ _ _ _ _ l => l
  | .OpAsgn _ _ _ _ l => l
  | .Optarg _ _ _ _ l => l
  | .Or _ _ _ l => l
  | .OrAsgn _ _ _ l => l
  | .Pair _ _ _ l => l
  | .Pin _ _ l => l
  | .Postexe _ _ _ _ l => l
  | .Preexe _ _ _ _ l => l
  | .Procarg0 _ _ _ l => l
  | .Rational _ _ l => l
  | .Redo l => l
  | .RegOpt _ l => l
  | .Regexp _ _ _ _ l => l
  | .Rescue _ _ _ _ l => l
  | .RescueBody _ _ _ _ _ _ l => l
  | .Restarg _ _ _ l => l
  | .Retry l => l
  | .Return _ _ l => l
  | .SClass _ _ _ _ _ l => l
  | .Self_ l => l
  | .Send _ _ _ _ _ _ _ _ l => l
  | .Shadowarg _ l => l
  | .Splat _ _ l => l
  | .Str _ _ _ l => l
  | .Super _ _ _ _ l => l
  | .Sym _ _ _ l => l
  | .True l => l
  | .Undef _ _ l => l
  | .UnlessGuard _ _ l => l
  | .Until _ _ _ _ _ l => l
  | .UntilPost _ _ _ l => l
  | .When _ _ _ _ l => l
  | .While _ _ _ _ _ l => l
  | .WhilePost _ _ _ l => l
  | .XHeredoc _ _ _ l => l
  | .Xstr _ _ _ l => l
  | .Yield _ _ _ _ l => l
  | .ZSuper l => l

/-- All direct sub-nodes, in field order. -/
def children : Node → List Node
  | .Alias x0 x1 _ _ => [x0] ++ [x1]
  | .And x0 x1 _ _ => [x0] ++ [x1]
  | .AndAsgn x0 x1 _ _ => [x0] ++ [x1]
  | .Arg _ _ => []
  | .Args x0 _ _ _ => x0
  | .Array x0 _ _ _ => x0
  | .ArrayPattern x0 _ _ _ => x0
  | .ArrayPatternWithTail x0 _ _ _ => x0
  | .BackRef _ _ => []
  | .Begin x0 _ _ _ => x0
  | .Block x0 x1 x2 _ _ _ => [x0] ++ x1.toList ++ x2.toList
  | .Blockarg _ _ _ _ => []
  | .BlockPass x0 _ _ => x0.toList
  | .Break x0 _ _ => x0
  | .Case x0 x1 x2 _ _ _ _ => x0.toList ++ x1 ++ x2.toList
  | .CaseMatch x0 x1 x2 _ _ _ _ => [x0] ++ x1 ++ x2.toList
  | .Casgn x0 _ x2 _ _ _ _ => x0.toList ++ x2.toList
  | .Cbase _ => []
  | .Class x0 x1 x2 _ _ _ _ => [x0] ++ x1.toList ++ x2.toList
  | .Complex _ _ _ => []
  | .Const x0 _ _ _ _ => x0.toList
  | .ConstPattern x0 x1 _ _ _ => [x0] ++ [x1]
  | .CSend x0 _ x2 _ _ _ _ _ _ => [x0] ++ x2
  | .Cvar _ _ => []
  | .Cvasgn _ x1 _ _ _ => x1.toList
  | .Def _ x1 x2 _ _ _ _ _ => x1.toList ++ x2.toList
  | .Defined x0 _ _ _ _ => [x0]
  | .Defs x0 _ x2 x3 _ _ _ _ _ _ => [x0] ++ x2.toList ++ x3.toList
  | .Dstr x0 _ _ _ => x0
  | .Dsym x0 _ _ _ => x0
  | .EFlipFlop x0 x1 _ _ => x0.toList ++ x1.toList
  | .EmptyElse _ => []
  | .Encoding _ => []
  | .Ensure x0 x1 _ _ => x0.toList ++ x1.toList
  | .Erange x0 x1 _ _ => x0.toList ++ x1.toList
  | .False _ => []
  | .File _ => []
  | .FindPattern x0 _ _ _ => x0
  | .Float _ _ _ => []
  | .For x0 x1 x2 _ _ _ _ _ => [x0] ++ [x1] ++ x2.toList
  | .ForwardArg _ => []
  | .ForwardedArgs _ => []
  | .Gvar _ _ => []
  | .Gvasgn _ x1 _ _ _ => x1.toList
  | .Hash x0 _ _ _ => x0
  | .HashPattern x0 _ _ _ => x0
  | .Heredoc x0 _ _ _ => x0
  | .If x0 x1 x2 _ _ _ _ _ => [x0] ++ x1.toList ++ x2.toList
  | .IfGuard x0 _ _ => [x0]
  | .IfMod x0 x1 x2 _ _ => [x0] ++ x1.toList ++ x2.toList
  | .IfTernary x0 x1 x2 _ _ _ => [x0] ++ [x1] ++ [x2]
  | .IFlipFlop x0 x1 _ _ => x0.toList ++ x1.toList
  | .Index x0 x1 _ _ _ => [x0] ++ x1
  | .IndexAsgn x0 x1 x2 _ _ _ _ => [x0] ++ x1 ++ x2.toList
  | .InPattern x0 x1 x2 _ _ _ => [x0] ++ x1.toList ++ x2.toList
  | .Int _ _ _ => []
  | .Irange x0 x1 _ _ => x0.toList ++ x1.toList
  | .Ivar _ _ => []
  | .Ivasgn _ x1 _ _ _ => x1.toList
  | .Kwarg _ _ _ => []
  | .Kwargs x0 _ => x0
  | .KwBegin x0 _ _ _ => x0
  | .Kwnilarg _ _ => []
  | .Kwoptarg _ x1 _ _ => [x1]
  | .Kwrestarg _ _ _ _ => []
  | .Kwsplat x0 _ _ => [x0]
  | .Lambda _ => []
  | .Line _ => []
  | .Lvar _ _ => []
  | .Lvasgn _ x1 _ _ _ => x1.toList
  | .Masgn x0 x1 _ _ => [x0] ++ [x1]
  | .MatchAlt x0 x1 _ _ => [x0] ++ [x1]
  | .MatchAs x0 x1 _ _ => [x0] ++ [x1]
  | .MatchCurrentLine x0 _ => [x0]
  | .MatchNilPattern _ _ _ => []
  | .MatchPattern x0 x1 _ _ => [x0] ++ [x1]
  | .MatchPatternP x0 x1 _ _ => [x0] ++ [x1]
  | .MatchRest x0 _ _ => x0.toList
  | .MatchVar _ _ _ => []
  | .MatchWithLvasgn x0 x1 _ _ => [x0] ++ [x1]
  | .Mlhs x0 _ _ _ => x0
  | .Module x0 x1 _ _ _ => [x0] ++ x1.toList
  | .Next x0 _ _ => x0
  | .Nil _ => []
  | .NthRef _ _ => []
  | .Numblock x0 _ x2 _ _ _ => [x0] ++ [x2]
  | .OpAsgn x0 _ x2 _ _ => [x0] ++ [x2]
  | .Optarg _ x1 _ _ _ => [x1]
  | .Or x0 x1 _ _ => [x0] ++ [x1]
  | .OrAsgn x0 x1 _ _ => [x0] ++ [x1]
  | .Pair x0 x1 _ _ => [x0] ++ [x1]
  | .Pin x0 _ _ => [x0]
  | .Postexe x0 _ _ _ _ => x0.toList
  | .Preexe x0 _ _ _ _ => x0.toList
  | .Procarg0 x0 _ _ _ => x0
  | .Rational _ _ _ => []
  | .Redo _ => []
  | .RegOpt _ _ => []
  | .Regexp x0 x1 _ _ _ => x0 ++ x1.toList
  | .Rescue x0 x1 x2 _ _ => x0.toList ++ x1 ++ x2.toList
  | .RescueBody x0 x1 x2 _ _ _ _ => x0.toList ++ x1.toList ++ x2.toList
  | .Restarg _ _ _ _ => []
  | .Retry _ => []
  | .Return x0 _ _ => x0
  | .SClass x0 x1 _ _ _ _ => [x0] ++ x1.toList
  | .Self_ _ => []
  | .Send x0 _ x2 _ _ _ _ _ _ => x0.toList ++ x2
  | .Shadowarg _ _ => []
  | .Splat x0 _ _ => x0.toList
  | .Str _ _ _ _ => []
  | .Super x0 _ _ _ _ => x0
  | .Sym _ _ _ _ => []
  | .True _ => []
  | .Undef x0 _ _ => x0
  | .UnlessGuard x0 _ _ => [x0]
  | .Until x0 x1 _ _ _ _ => [x0] ++ x1.toList
  | .UntilPost x0 x1 _ _ => [x0] ++ [x1]
  | .When x0 x1 _ _ _ => x0 ++ x1.toList
  | .While x0 x1 _ _ _ _ => [x0] ++ x1.toList
  | .WhilePost x0 x1 _ _ => [x0] ++ [x1]
  | .XHeredoc x0 _ _ _ => x0
  | .Xstr x0 _ _ _ => x0
  | .Yield x0 _ _ _ _ => x0
  | .ZSuper _ => []

/-- All locations of a node apart from `expression_l`. -/
def locs : Node → List Loc
  | .Alias _ _ x2 _ => [x2]
  | .And _ _ x2 _ => [x2]
  | .AndAsgn _ _ x2 _ => [x2]
  | .Arg _ _ => []
  | .Args _ x1 x2 _ => x1.toList ++ x2.toList
  | .Array _ x1 x2 _ => x1.toList ++ x2.toList
  | .ArrayPattern _ x1 x2 _ => x1.toList ++ x2.toList
  | .ArrayPatternWithTail _ x1 x2 _ => x1.toList ++ x2.toList
  | .BackRef _ _ => []
  | .Begin _ x1 x2 _ => x1.toList ++ x2.toList
  | .Block _ _ _ x3 x4 _ => [x3] ++ [x4]
  | .Blockarg _ x1 x2 _ => [x1] ++ x2.toList
  | .BlockPass _ x1 _ => [x1]
  | .Break _ x1 _ => [x1]
  | .Case _ _ _ x3 x4 x5 _ => [x3] ++ x4.toList ++ [x5]
  | .CaseMatch _ _ _ x3 x4 x5 _ => [x3] ++ x4.toList ++ [x5]
  | .Casgn _ _ _ x3 x4 x5 _ => x3.toList ++ [x4] ++ x5.toList
  | .Cbase _ => []
  | .Class _ _ _ x3 x4 x5 _ => [x3] ++ x4.toList ++ [x5]
  | .Complex _ x1 _ => x1.toList
  | .Const _ _ x2 x3 _ => x2.toList ++ [x3]
  | .ConstPattern _ _ x2 x3 _ => [x2] ++ [x3]
  | .CSend _ _ _ x3 x4 x5 x6 x7 _ => [x3] ++ x4.toList ++ x5.toList ++ x6.toList ++ x7.toList
  | .Cvar _ _ => []
  | .Cvasgn _ _ x2 x3 _ => [x2] ++ x3.toList
  | .Def _ _ _ x3 x4 x5 x6 _ => [x3] ++ [x4] ++ x5.toList ++ x6.toList
  | .Defined _ x1 x2 x3 _ => [x1] ++ x2.toList ++ x3.toList
  | .Defs _ _ _ _ x4 x5 x6 x7 x8 _ => [x4] ++ [x5] ++ [x6] ++ x7.toList ++ x8.toList
  | .Dstr _ x1 x2 _ => x1.toList ++ x2.toList
  | .Dsym _ x1 x2 _ => x1.toList ++ x2.toList
  | .EFlipFlop _ _ x2 _ => [x2]
  | .EmptyElse _ => []
  | .Encoding _ => []
  | .Ensure _ _ x2 _ => [x2]
  | .Erange _ _ x2 _ => [x2]
  | .False _ => []
  | .File _ => []
  | .FindPattern _ x1 x2 _ => x1.toList ++ x2.toList
  | .Float _ x1 _ => x1.toList
  | .For _ _ _ x3 x4 x5 x6 _ => [x3] ++ [x4] ++ [x5] ++ [x6]
  | .ForwardArg _ => []
  | .ForwardedArgs _ => []
  | .Gvar _ _ => []
  | .Gvasgn _ _ x2 x3 _ => [x2] ++ x3.toList
  | .Hash _ x1 x2 _ => x1.toList ++ x2.toList
  | .HashPattern _ x1 x2 _ => x1.toList ++ x2.toList
  | .Heredoc _ x1 x2 _ => [x1] ++ [x2]
  | .If _ _ _ x3 x4 x5 x6 _ => [x3] ++ [x4] ++ x5.toList ++ x6.toList
  | .IfGuard _ x1 _ => [x1]
  | .IfMod _ _ _ x3 _ => [x3]
  | .IfTernary _ _ _ x3 x4 _ => [x3] ++ [x4]
  | .IFlipFlop _ _ x2 _ => [x2]
  | .Index _ _ x2 x3 _ => [x2] ++ [x3]
  | .IndexAsgn _ _ _ x3 x4 x5 _ => [x3] ++ [x4] ++ x5.toList
  | .InPattern _ _ _ x3 x4 _ => [x3] ++ [x4]
  | .Int _ x1 _ => x1.toList
  | .Irange _ _ x2 _ => [x2]
  | .Ivar _ _ => []
  | .Ivasgn _ _ x2 x3 _ => [x2] ++ x3.toList
  | .Kwarg _ x1 _ => [x1]
  | .Kwargs _ _ => []
  | .KwBegin _ x1 x2 _ => x1.toList ++ x2.toList
  | .Kwnilarg x0 _ => [x0]
  | .Kwoptarg _ _ x2 _ => [x2]
  | .Kwrestarg _ x1 x2 _ => [x1] ++ x2.toList
  | .Kwsplat _ x1 _ => [x1]
  | .Lambda _ => []
  | .Line _ => []
  | .Lvar _ _ => []
  | .Lvasgn _ _ x2 x3 _ => [x2] ++ x3.toList
  | .Masgn _ _ x2 _ => [x2]
  | .MatchAlt _ _ x2 _ => [x2]
  | .MatchAs _ _ x2 _ => [x2]
  | .MatchCurrentLine _ _ => []
  | .MatchNilPattern x0 x1 _ => [x0] ++ [x1]
  | .MatchPattern _ _ x2 _ => [x2]
  | .MatchPatternP _ _ x2 _ => [x2]
  | .MatchRest _ x1 _ => [x1]
  | .MatchVar _ x1 _ => [x1]
  | .MatchWithLvasgn _ _ x2 _ => [x2]
  | .Mlhs _ x1 x2 _ => x1.toList ++ x2.toList
  | .Module _ _ x2 x3 _ => [x2] ++ [x3]
  | .Next _ x1 _ => [x1]
  | .Nil _ => []
  | .NthRef _ _ => []
  | .Numblock _ _ _ x3 x4 _ => [x3] ++ [x4]
  | .OpAsgn _ _ _ x3 _ => [x3]
  | .Optarg _ _ x2 x3 _ => [x2] ++ [x3]
  | .Or _ _ x2 _ => [x2]
  | .OrAsgn _ _ x2 _ => [x2]
  | .Pair _ _ x2 _ => [x2]
  | .Pin _ x1 _ => [x1]
  | .Postexe _ x1 x2 x3 _ => [x1] ++ [x2] ++ [x3]
  | .Preexe _ x1 x2 x3 _ => [x1] ++ [x2] ++ [x3]
  | .Procarg0 _ x1 x2 _ => x1.toList ++ x2.toList
  | .Rational _ x1 _ => x1.toList
  | .Redo _ => []
  | .RegOpt _ _ => []
  | .Regexp _ _ x2 x3 _ => [x2] ++ [x3]
  | .Rescue _ _ _ x3 _ => x3.toList
  | .RescueBody _ _ _ x3 x4 x5 _ => [x3] ++ x4.toList ++ x5.toList
  | .Restarg _ x1 x2 _ => [x1] ++ x2.toList
  | .Retry _ => []
  | .Return _ x1 _ => [x1]
  | .SClass _ _ x2 x3 x4 _ => [x2] ++ [x3] ++ [x4]
  | .Self_ _ => []
  | .Send _ _ _ x3 x4 x5 x6 x7 _ => x3.toList ++ x4.toList ++ x5.toList ++ x6.toList ++ x7.toList
  | .Shadowarg _ _ => []
  | .Splat _ x1 _ => [x1]
  | .Str _ x1 x2 _ => x1.toList ++ x2.toList
  | .Super _ x1 x2 x3 _ => [x1] ++ x2.toList ++ x3.toList
  | .Sym _ x1 x2 _ => x1.toList ++ x2.toList
  | .True _ => []
  | .Undef _ x1 _ => [x1]
  | .UnlessGuard _ x1 _ => [x1]
  | .Until _ _ x2 x3 x4 _ => [x2] ++ x3.toList ++ x4.toList
  | .UntilPost _ _ x2 _ => [x2]
  | .When _ _ x2 x3 _ => [x2] ++ [x3]
  | .While _ _ x2 x3 x4 _ => [x2] ++ x3.toList ++ x4.toList
  | .WhilePost _ _ x2 _ => [x2]
  | .XHeredoc _ x1 x2 _ => [x1] ++ [x2]
  | .Xstr _ x1 x2 _ => [x1] ++ [x2]
  | .Yield _ x1 x2 x3 _ => [x1] ++ x2.toList ++ x3.toList
  | .ZSuper _ => []

end Node
end Verif
