import Verif.Lemmas.ParseSteps
/-!
What a call of a function of the builder does to the tables, and the kind of its result.
-/
namespace Verif
open Builder Grammar

/-- The tables a function may change. -/
def Grammar.BFn.touches : BFn → List Dim
  | .accessible | .pairLabel => [.env, .num]
  | .assignable | .matchOp => [.env]
  | .matchVar | .matchRest | .matchLabel => [.env, .pv]
  | .matchPair => [.pk]
  | _ => []

/-- The kinds of atoms. -/
inductive Grammar.AK where
  | tok | otok | node | onode | nodes | args | label | tail | parens | exc
deriving DecidableEq, Repr
/-- The kind of an atom. -/
def Grammar.Atom.ak : Atom → AK
  | .tok _ => .tok
  | .otok _ => .otok
  | .node _ => .node
  | .onode _ => .onode
  | .nodes _ => .nodes
  | .args _ => .args
  | .label _ => .label
  | .tail _ => .tail
  | .parens _ => .parens
  | .exc _ => .exc
/-- The kind of the result of a function. -/
def Grammar.BFn.res : BFn → AK
  | .someT => .otok
  | .someN => .onode
  | .noneT => .otok
  | .noneN => .onode
  | .nilL => .nodes
  | .single => .nodes
  | .append => .nodes
  | .endlessName => .tok
  | .kwargName => .tok
  | .argsType => .args
  | .noParens => .parens
  | .someParens => .parens
  | .noExc => .exc
  | .someExc => .exc
  | .elseTail => .tail
  | .elsifTail => .tail
  | .plainLabel => .label
  | .quotedLabel => .label
  | .args => .onode
  | .rescueModOpt => .onode
  | .compstmt => .onode
  | .bodystmtElse => .onode
  | .bodystmt => .onode
  | .procargs => .nodes
  | _ => .node

variable {R : BState → BState → Prop} [Frame R]

omit [Frame R] in
theorem illTyped_steps : BldR.Steps R illTyped := by intro s a s' h; cases h
theorem outp_steps {c : α → Atom} {a : α} : BldR.Steps R (outp c a) := BldR.steps_pure
theorem outR_steps {c : α → Atom} {r : Res α} : BldR.Steps R (outR c r) :=
  BldR.steps_bind (BldR.steps_lift BldM.steps_liftR) fun _ => BldR.steps_pure
theorem outM_steps {c : α → Atom} {r : BldM α} (h : BldM.Steps R r) : BldR.Steps R (outM c r) :=
  BldR.steps_bind (BldR.steps_lift h) fun _ => BldR.steps_pure
theorem outB_steps {c : α → Atom} {r : BldR α} (h : BldR.Steps R r) : BldR.Steps R (outB c r) :=
  BldR.steps_bind h fun _ => BldR.steps_pure

/-- The relation allows the changes the function may make. -/
def Allows (R : BState → BState → Prop) (ds : List Dim) : Prop :=
  (Dim.num ∈ ds → AllowsNum R) ∧ (Dim.env ∈ ds → Dim.num ∉ ds → AllowsEnv R) ∧ (Dim.pv ∈ ds → AllowsPv R) ∧ (Dim.pk ∈ ds → AllowsPk R)

theorem fn_steps {ext : BldExt} {indent : Int} {f : BFn} {xs : List Atom} (ha : Allows R f.touches) :
    BldR.Steps R (applyFn ext indent f xs) := by
  cases f
  case someT =>
    dsimp only [applyFn, withT]
    split
    · exact outp_steps
    · exact illTyped_steps
  case someN =>
    dsimp only [applyFn, withN]
    split
    · exact outp_steps
    · exact illTyped_steps
  case noneT =>
    dsimp only [applyFn, withNone]
    split
    · exact outp_steps
    · exact illTyped_steps
  case noneN =>
    dsimp only [applyFn, withNone]
    split
    · exact outp_steps
    · exact illTyped_steps
  case nilL =>
    dsimp only [applyFn, withNone]
    split
    · exact outp_steps
    · exact illTyped_steps
  case single =>
    dsimp only [applyFn, withN]
    split
    · exact outp_steps
    · exact illTyped_steps
  case append =>
    dsimp only [applyFn, withLL]
    split
    · exact outp_steps
    · exact illTyped_steps
  case checked =>
    dsimp only [applyFn, withN]
    split
    · exact outB_steps checked_steps
    · exact illTyped_steps
  case endlessName =>
    dsimp only [applyFn, withT]
    split
    · exact outB_steps endlessName_steps
    · exact illTyped_steps
  case kwargName =>
    dsimp only [applyFn, withT]
    split
    · exact outB_steps kwargName_steps
    · exact illTyped_steps
  case singletonExpr =>
    dsimp only [applyFn, withN]
    split
    · exact outB_steps singletonExpr_steps
    · exact illTyped_steps
  case argsType =>
    dsimp only [applyFn, withP]
    split
    · exact outB_steps argsType_steps
    · exact illTyped_steps
  case noParens =>
    dsimp only [applyFn, withNone]
    split
    · exact outp_steps
    · exact illTyped_steps
  case someParens =>
    dsimp only [applyFn, withTLT]
    split
    · exact outp_steps
    · exact illTyped_steps
  case noExc =>
    dsimp only [applyFn, withNone]
    split
    · exact outp_steps
    · exact illTyped_steps
  case someExc =>
    dsimp only [applyFn, withTN]
    split
    · exact outp_steps
    · exact illTyped_steps
  case elseTail =>
    dsimp only [applyFn, withOP]
    split
    · exact outp_steps
    · exact illTyped_steps
  case elsifTail =>
    dsimp only [applyFn, withTNTPI]
    split
    · exact outp_steps
    · exact illTyped_steps
  case plainLabel =>
    dsimp only [applyFn, withT]
    split
    · exact outp_steps
    · exact illTyped_steps
  case quotedLabel =>
    dsimp only [applyFn, withTLT]
    split
    · exact outp_steps
    · exact illTyped_steps
  case nil =>
    dsimp only [applyFn, withT]
    split
    · exact outp_steps
    · exact illTyped_steps
  case true_ =>
    dsimp only [applyFn, withT]
    split
    · exact outp_steps
    · exact illTyped_steps
  case false_ =>
    dsimp only [applyFn, withT]
    split
    · exact outp_steps
    · exact illTyped_steps
  case line =>
    dsimp only [applyFn, withT]
    split
    · exact outp_steps
    · exact illTyped_steps
  case file =>
    dsimp only [applyFn, withT]
    split
    · exact outp_steps
    · exact illTyped_steps
  case self_ =>
    dsimp only [applyFn, withT]
    split
    · exact outp_steps
    · exact illTyped_steps
  case encoding =>
    dsimp only [applyFn, withT]
    split
    · exact outp_steps
    · exact illTyped_steps
  case forwardArg =>
    dsimp only [applyFn, withT]
    split
    · exact outp_steps
    · exact illTyped_steps
  case forwardedArgs =>
    dsimp only [applyFn, withT]
    split
    · exact outp_steps
    · exact illTyped_steps
  case stringInternal =>
    dsimp only [applyFn, withT]
    split
    · exact outp_steps
    · exact illTyped_steps
  case integer =>
    dsimp only [applyFn, withT]
    split
    · exact outR_steps
    · exact illTyped_steps
  case float =>
    dsimp only [applyFn, withT]
    split
    · exact outR_steps
    · exact illTyped_steps
  case rational =>
    dsimp only [applyFn, withT]
    split
    · exact outR_steps
    · exact illTyped_steps
  case complex =>
    dsimp only [applyFn, withT]
    split
    · exact outR_steps
    · exact illTyped_steps
  case lvar =>
    dsimp only [applyFn, withT]
    split
    · exact outR_steps
    · exact illTyped_steps
  case ivar =>
    dsimp only [applyFn, withT]
    split
    · exact outR_steps
    · exact illTyped_steps
  case gvar =>
    dsimp only [applyFn, withT]
    split
    · exact outR_steps
    · exact illTyped_steps
  case cvar =>
    dsimp only [applyFn, withT]
    split
    · exact outR_steps
    · exact illTyped_steps
  case backRef =>
    dsimp only [applyFn, withT]
    split
    · exact outR_steps
    · exact illTyped_steps
  case const_ =>
    dsimp only [applyFn, withT]
    split
    · exact outR_steps
    · exact illTyped_steps
  case constFetch =>
    dsimp only [applyFn, withNTT]
    split
    · exact outR_steps
    · exact illTyped_steps
  case constGlobal =>
    dsimp only [applyFn, withTT]
    split
    · exact outR_steps
    · exact illTyped_steps
  case arg =>
    dsimp only [applyFn, withT]
    split
    · exact outB_steps arg_steps
    · exact illTyped_steps
  case shadowarg =>
    dsimp only [applyFn, withT]
    split
    · exact outB_steps shadowarg_steps
    · exact illTyped_steps
  case optarg =>
    dsimp only [applyFn, withTTN]
    split
    · exact outB_steps optarg_steps
    · exact illTyped_steps
  case kwnilarg =>
    dsimp only [applyFn, withTT]
    split
    · exact outp_steps
    · exact illTyped_steps
  case alias =>
    dsimp only [applyFn, withTNN]
    split
    · exact outp_steps
    · exact illTyped_steps
  case pair =>
    dsimp only [applyFn, withNTN]
    split
    · exact outp_steps
    · exact illTyped_steps
  case kwsplat =>
    dsimp only [applyFn, withTN]
    split
    · exact outp_steps
    · exact illTyped_steps
  case multiAssign =>
    dsimp only [applyFn, withNTN]
    split
    · exact outp_steps
    · exact illTyped_steps
  case defClass =>
    dsimp only [applyFn, withTNOPPT]
    split
    · exact outp_steps
    · exact illTyped_steps
  case defSclass =>
    dsimp only [applyFn, withTTNPT]
    split
    · exact outp_steps
    · exact illTyped_steps
  case defModule =>
    dsimp only [applyFn, withTNPT]
    split
    · exact outp_steps
    · exact illTyped_steps
  case defMethod =>
    dsimp only [applyFn, withTTPPT]
    split
    · exact outB_steps defMethod_steps
    · exact illTyped_steps
  case defSingleton =>
    dsimp only [applyFn, withTNTTPPT]
    split
    · exact outB_steps defSingleton_steps
    · exact illTyped_steps
  case indexAsgn =>
    dsimp only [applyFn, withNTLT]
    split
    · exact outp_steps
    · exact illTyped_steps
  case ternary =>
    dsimp only [applyFn, withNTNTN]
    split
    · exact outp_steps
    · exact illTyped_steps
  case case =>
    dsimp only [applyFn, withTPLOPT]
    split
    · exact outp_steps
    · exact illTyped_steps
  case for_ =>
    dsimp only [applyFn, withTNTNTPT]
    split
    · exact outp_steps
    · exact illTyped_steps
  case preexe =>
    dsimp only [applyFn, withTTPT]
    split
    · exact outp_steps
    · exact illTyped_steps
  case postexe =>
    dsimp only [applyFn, withTTPT]
    split
    · exact outp_steps
    · exact illTyped_steps
  case matchPattern =>
    dsimp only [applyFn, withNTN]
    split
    · exact outp_steps
    · exact illTyped_steps
  case matchPatternP =>
    dsimp only [applyFn, withNTN]
    split
    · exact outp_steps
    · exact illTyped_steps
  case ifGuard =>
    dsimp only [applyFn, withTN]
    split
    · exact outp_steps
    · exact illTyped_steps
  case unlessGuard =>
    dsimp only [applyFn, withTN]
    split
    · exact outp_steps
    · exact illTyped_steps
  case constPattern =>
    dsimp only [applyFn, withNTNT]
    split
    · exact outp_steps
    · exact illTyped_steps
  case pin =>
    dsimp only [applyFn, withTN]
    split
    · exact outp_steps
    · exact illTyped_steps
  case matchAlt =>
    dsimp only [applyFn, withNTN]
    split
    · exact outp_steps
    · exact illTyped_steps
  case matchAs =>
    dsimp only [applyFn, withNTN]
    split
    · exact outp_steps
    · exact illTyped_steps
  case matchNilPattern =>
    dsimp only [applyFn, withTT]
    split
    · exact outp_steps
    · exact illTyped_steps
  case wordsCompose =>
    dsimp only [applyFn, withTLT]
    split
    · exact outp_steps
    · exact illTyped_steps
  case character =>
    dsimp only [applyFn, withT]
    split
    · exact outp_steps
    · exact illTyped_steps
  case splat =>
    dsimp only [applyFn, withTP]
    split
    · exact outp_steps
    · exact illTyped_steps
  case blockPass =>
    dsimp only [applyFn, withTP]
    split
    · exact outp_steps
    · exact illTyped_steps
  case rangeInclusive =>
    dsimp only [applyFn, withPTP]
    split
    · exact outp_steps
    · exact illTyped_steps
  case rangeExclusive =>
    dsimp only [applyFn, withPTP]
    split
    · exact outp_steps
    · exact illTyped_steps
  case restarg =>
    dsimp only [applyFn, withTO]
    split
    · exact outB_steps restarg_steps
    · exact illTyped_steps
  case kwrestarg =>
    dsimp only [applyFn, withTO]
    split
    · exact outB_steps kwrestarg_steps
    · exact illTyped_steps
  case blockarg =>
    dsimp only [applyFn, withTO]
    split
    · exact outB_steps blockarg_steps
    · exact illTyped_steps
  case unaryNum =>
    dsimp only [applyFn, withTN]
    split
    · exact outR_steps
    · exact illTyped_steps
  case symbol =>
    dsimp only [applyFn, withTT]
    split
    · exact outM_steps symbol_steps
    · exact illTyped_steps
  case symbolInternal =>
    dsimp only [applyFn, withT]
    split
    · exact outM_steps symbolInternal_steps
    · exact illTyped_steps
  case nthRef =>
    dsimp only [applyFn, withT]
    split
    · exact outM_steps nthRef_steps
    · exact illTyped_steps
  case matchVar =>
    dsimp only [applyFn, withT]
    split
    · exact outB_steps (matchVar_steps (ha.2.1 (by decide) (by decide)) (ha.2.2.1 (by decide)))
    · exact illTyped_steps
  case array =>
    dsimp only [applyFn, withOLO]
    split
    · exact outR_steps
    · exact illTyped_steps
  case multiLhs =>
    dsimp only [applyFn, withOLO]
    split
    · exact outR_steps
    · exact illTyped_steps
  case hashPattern =>
    dsimp only [applyFn, withOLO]
    split
    · exact outR_steps
    · exact illTyped_steps
  case findPattern =>
    dsimp only [applyFn, withOLO]
    split
    · exact outR_steps
    · exact illTyped_steps
  case associate =>
    dsimp only [applyFn, withOLO]
    split
    · exact outM_steps associate_steps
    · exact illTyped_steps
  case args =>
    dsimp only [applyFn, withOLO]
    split
    · exact outM_steps args_steps
    · exact illTyped_steps
  case arrayPattern =>
    dsimp only [applyFn, withOLOO]
    split
    · exact outR_steps
    · exact illTyped_steps
  case logical p =>
    dsimp only [applyFn, withNTN]
    split
    · exact outB_steps logicalOp_steps
    · exact illTyped_steps
  case binaryOp =>
    dsimp only [applyFn, withNTN]
    split
    · exact outB_steps binaryOp_steps
    · exact illTyped_steps
  case unaryOp =>
    dsimp only [applyFn, withTN]
    split
    · exact outB_steps unaryOp_steps
    · exact illTyped_steps
  case matchOp =>
    dsimp only [applyFn, withNTN]
    split
    · exact outB_steps (matchOp_steps (ha.2.1 (by decide) (by decide)))
    · exact illTyped_steps
  case notOp =>
    dsimp only [applyFn, withTN]
    split
    · exact outB_steps notOp_steps
    · exact illTyped_steps
  case notParen =>
    dsimp only [applyFn, withTTNT]
    split
    · exact outB_steps notOp_steps
    · exact illTyped_steps
  case notEmpty =>
    dsimp only [applyFn, withTTT]
    split
    · exact outB_steps notOp_steps
    · exact illTyped_steps
  case ifMod =>
    dsimp only [applyFn, withNTN]
    split
    · exact outR_steps
    · exact illTyped_steps
  case unlessMod =>
    dsimp only [applyFn, withNTN]
    split
    · exact outR_steps
    · exact illTyped_steps
  case loopMod p =>
    dsimp only [applyFn, withNTN]
    split
    · exact outp_steps
    · exact illTyped_steps
  case loop_ p =>
    dsimp only [applyFn, withTNTPT]
    split
    · exact outp_steps
    · exact illTyped_steps
  case condition =>
    dsimp only [applyFn, withTNTPIT]
    split
    · exact outp_steps
    · exact illTyped_steps
  case unless_ =>
    dsimp only [applyFn, withTNTPOPT]
    split
    · exact outp_steps
    · exact illTyped_steps
  case when =>
    dsimp only [applyFn, withTLTP]
    split
    · exact outp_steps
    · exact illTyped_steps
  case inPattern =>
    dsimp only [applyFn, withTNPTP]
    split
    · exact outp_steps
    · exact illTyped_steps
  case caseMatch =>
    dsimp only [applyFn, withTNLOPT]
    split
    · exact outp_steps
    · exact illTyped_steps
  case rescueClause =>
    dsimp only [applyFn, withTLETP]
    split
    · exact outR_steps
    · exact illTyped_steps
  case rescueModOpt =>
    dsimp only [applyFn, withNTN]
    split
    · exact outR_steps
    · exact illTyped_steps
  case rescueMod =>
    dsimp only [applyFn, withNTN]
    split
    · exact outR_steps
    · exact illTyped_steps
  case compstmt =>
    dsimp only [applyFn, withL]
    split
    · exact outR_steps
    · exact illTyped_steps
  case begin =>
    dsimp only [applyFn, withTPT]
    split
    · exact outp_steps
    · exact illTyped_steps
  case beginKeyword =>
    dsimp only [applyFn, withTPT]
    split
    · exact outp_steps
    · exact illTyped_steps
  case bodystmtElse =>
    dsimp only [applyFn, withPLTPOP]
    split
    · exact outB_steps bodystmtElse_steps
    · exact illTyped_steps
  case bodystmt =>
    dsimp only [applyFn, withPLOP]
    split
    · exact outR_steps
    · exact illTyped_steps
  case accessible =>
    dsimp only [applyFn, withN]
    split
    · exact outM_steps (accessible_steps (ha.1 (by decide)))
    · exact illTyped_steps
  case assignable =>
    dsimp only [applyFn, withN]
    split
    · exact outB_steps (assignable_steps (ha.2.1 (by decide) (by decide)))
    · exact illTyped_steps
  case constOpAssignable =>
    dsimp only [applyFn, withN]
    split
    · exact outR_steps
    · exact illTyped_steps
  case assign =>
    dsimp only [applyFn, withNTN]
    split
    · exact outR_steps
    · exact illTyped_steps
  case opAssign =>
    dsimp only [applyFn, withNTN]
    split
    · exact outB_steps opAssign_steps
    · exact illTyped_steps
  case defEndless =>
    dsimp only [applyFn, withTTPTP]
    split
    · exact outB_steps defEndlessMethod_steps
    · exact illTyped_steps
  case defEndlessSingleton =>
    dsimp only [applyFn, withTNTTPTP]
    split
    · exact outB_steps defEndlessSingleton_steps
    · exact illTyped_steps
  case undefMethod =>
    dsimp only [applyFn, withTL]
    split
    · exact outp_steps
    · exact illTyped_steps
  case kwarg =>
    dsimp only [applyFn, withT]
    split
    · exact outB_steps kwarg_steps
    · exact illTyped_steps
  case kwoptarg =>
    dsimp only [applyFn, withTN]
    split
    · exact outB_steps kwoptarg_steps
    · exact illTyped_steps
  case procargs =>
    dsimp only [applyFn, withLL]
    split
    · exact outR_steps
    · exact illTyped_steps
  case callDot =>
    dsimp only [applyFn, withNTTL]
    split
    · exact outR_steps
    · exact illTyped_steps
  case callFn =>
    dsimp only [applyFn, withTL]
    split
    · exact outR_steps
    · exact illTyped_steps
  case callFnParen =>
    dsimp only [applyFn, withTTLT]
    split
    · exact outR_steps
    · exact illTyped_steps
  case callDotParen =>
    dsimp only [applyFn, withNTTTLT]
    split
    · exact outR_steps
    · exact illTyped_steps
  case callDotOpt =>
    dsimp only [applyFn, withNTTG]
    split
    · exact outR_steps
    · exact illTyped_steps
  case callParen =>
    dsimp only [applyFn, withNTTLT]
    split
    · exact outR_steps
    · exact illTyped_steps
  case block =>
    dsimp only [applyFn, withNTAPT]
    split
    · exact outB_steps block_steps
    · exact illTyped_steps
  case lambda =>
    dsimp only [applyFn, withTATPT]
    split
    · exact outB_steps block_steps
    · exact illTyped_steps
  case attrAsgn =>
    dsimp only [applyFn, withNTT]
    split
    · exact outR_steps
    · exact illTyped_steps
  case attrAsgnMasgn =>
    dsimp only [applyFn, withNTT]
    split
    · exact outB_steps attrAsgnMasgn_steps
    · exact illTyped_steps
  case index =>
    dsimp only [applyFn, withNTLT]
    split
    · exact outR_steps
    · exact illTyped_steps
  case keyword p =>
    dsimp only [applyFn, withTL]
    split
    · exact outB_steps keywordCmd_steps
    · exact illTyped_steps
  case keywordParen p =>
    dsimp only [applyFn, withTTLT]
    split
    · exact outB_steps keywordCmd_steps
    · exact illTyped_steps
  case mlhsInner =>
    dsimp only [applyFn, withTNT]
    split
    · exact outR_steps
    · exact illTyped_steps
  case strings =>
    dsimp only [applyFn, withL]
    split
    · exact outR_steps
    · exact illTyped_steps
  case string1 =>
    dsimp only [applyFn, withTLT]
    split
    · exact outR_steps
    · exact illTyped_steps
  case xstring =>
    dsimp only [applyFn, withTLT]
    split
    · exact outR_steps
    · exact illTyped_steps
  case regexp =>
    dsimp only [applyFn, withTLT]
    split
    · exact outM_steps regexp_steps
    · exact illTyped_steps
  case word =>
    dsimp only [applyFn, withL]
    split
    · exact outR_steps
    · exact illTyped_steps
  case symbolsCompose =>
    dsimp only [applyFn, withTLT]
    split
    · exact outM_steps symbolsCompose_steps
    · exact illTyped_steps
  case symbolCompose =>
    dsimp only [applyFn, withTLT]
    split
    · exact outM_steps symbolCompose_steps
    · exact illTyped_steps
  case pairKeyword =>
    dsimp only [applyFn, withTN]
    split
    · exact outM_steps pairKeyword_steps
    · exact illTyped_steps
  case pairLabel =>
    dsimp only [applyFn, withT]
    split
    · exact outM_steps (pairLabel_steps (ha.1 (by decide)))
    · exact illTyped_steps
  case pairQuoted =>
    dsimp only [applyFn, withTLTN]
    split
    · exact outM_steps pairQuoted_steps
    · exact illTyped_steps
  case matchRest =>
    dsimp only [applyFn, withTO]
    split
    · exact outB_steps (matchRest_steps (ha.2.1 (by decide) (by decide)) (ha.2.2.1 (by decide)))
    · exact illTyped_steps
  case matchPair =>
    dsimp only [applyFn, withKN]
    split
    · exact outB_steps (matchPair_steps (ha.2.2.2 (by decide)))
    · exact illTyped_steps
  case matchLabel =>
    dsimp only [applyFn, withK]
    split
    · exact outB_steps (matchLabel_steps (ha.2.1 (by decide) (by decide)) (ha.2.2.1 (by decide)))
    · exact illTyped_steps
  case constPatternEmpty =>
    dsimp only [applyFn, withNTT]
    split
    · exact outR_steps
    · exact illTyped_steps

theorem illTyped_ak {s : BState} {a : Atom} {s' : BState} : illTyped.run s ≠ .ok (.ok a, s') := nofun
theorem outB_ak {α : Type} {c : α → Atom} {r : BldR α} {k : AK} (hc : ∀ a, (c a).ak = k) {s s' : BState} {a : Atom}
    (h : (outB c r).run s = .ok (.ok a, s')) : a.ak = k := by
  unfold outB at h
  rw [BldR.run_bind] at h
  rcases hm : r.run s with e | ⟨x, s1⟩
  · rw [hm] at h; cases h
  · rw [hm] at h
    cases x with
    | error e => cases h
    | ok x => cases h; exact hc x
theorem outM_ak {α : Type} {c : α → Atom} {r : BldM α} {k : AK} (hc : ∀ a, (c a).ak = k) {s s' : BState} {a : Atom}
    (h : (outM c r).run s = .ok (.ok a, s')) : a.ak = k := outB_ak (r := (r : BldR α)) hc h
theorem outR_ak {α : Type} {c : α → Atom} {r : Res α} {k : AK} (hc : ∀ a, (c a).ak = k) {s s' : BState} {a : Atom}
    (h : (outR c r).run s = .ok (.ok a, s')) : a.ak = k := outB_ak (r := ((liftR r : BldM α) : BldR α)) hc h
theorem outp_ak {α : Type} {c : α → Atom} {r : α} {k : AK} (hc : ∀ a, (c a).ak = k) {s s' : BState} {a : Atom}
    (h : (outp c r).run s = .ok (.ok a, s')) : a.ak = k := outB_ak (r := (pure r : BldR α)) hc h

/-- The kind of the result. -/
theorem fn_ak {ext : BldExt} {indent : Int} {f : BFn} {xs : List Atom} {s s' : BState} {a : Atom}
    (h : (applyFn ext indent f xs).run s = .ok (.ok a, s')) : a.ak = f.res := by
  cases f
  case someT =>
    dsimp only [applyFn, withT] at h
    split at h
    · exact outp_ak (c := Atom.otok) (fun _ => rfl) h
    · exact absurd h illTyped_ak
  case someN =>
    dsimp only [applyFn, withN] at h
    split at h
    · exact outp_ak (c := Atom.onode) (fun _ => rfl) h
    · exact absurd h illTyped_ak
  case noneT =>
    dsimp only [applyFn, withNone] at h
    split at h
    · exact outp_ak (c := Atom.otok) (fun _ => rfl) h
    · exact absurd h illTyped_ak
  case noneN =>
    dsimp only [applyFn, withNone] at h
    split at h
    · exact outp_ak (c := Atom.onode) (fun _ => rfl) h
    · exact absurd h illTyped_ak
  case nilL =>
    dsimp only [applyFn, withNone] at h
    split at h
    · exact outp_ak (c := Atom.nodes) (fun _ => rfl) h
    · exact absurd h illTyped_ak
  case single =>
    dsimp only [applyFn, withN] at h
    split at h
    · exact outp_ak (c := Atom.nodes) (fun _ => rfl) h
    · exact absurd h illTyped_ak
  case append =>
    dsimp only [applyFn, withLL] at h
    split at h
    · exact outp_ak (c := Atom.nodes) (fun _ => rfl) h
    · exact absurd h illTyped_ak
  case checked =>
    dsimp only [applyFn, withN] at h
    split at h
    · exact outB_ak (c := Atom.node) (fun _ => rfl) h
    · exact absurd h illTyped_ak
  case endlessName =>
    dsimp only [applyFn, withT] at h
    split at h
    · exact outB_ak (c := Atom.tok) (fun _ => rfl) h
    · exact absurd h illTyped_ak
  case kwargName =>
    dsimp only [applyFn, withT] at h
    split at h
    · exact outB_ak (c := Atom.tok) (fun _ => rfl) h
    · exact absurd h illTyped_ak
  case singletonExpr =>
    dsimp only [applyFn, withN] at h
    split at h
    · exact outB_ak (c := Atom.node) (fun _ => rfl) h
    · exact absurd h illTyped_ak
  case argsType =>
    dsimp only [applyFn, withP] at h
    split at h
    · exact outB_ak (c := Atom.args) (fun _ => rfl) h
    · exact absurd h illTyped_ak
  case noParens =>
    dsimp only [applyFn, withNone] at h
    split at h
    · exact outp_ak (c := Atom.parens) (fun _ => rfl) h
    · exact absurd h illTyped_ak
  case someParens =>
    dsimp only [applyFn, withTLT] at h
    split at h
    · exact outp_ak (c := Atom.parens) (fun _ => rfl) h
    · exact absurd h illTyped_ak
  case noExc =>
    dsimp only [applyFn, withNone] at h
    split at h
    · exact outp_ak (c := Atom.exc) (fun _ => rfl) h
    · exact absurd h illTyped_ak
  case someExc =>
    dsimp only [applyFn, withTN] at h
    split at h
    · exact outp_ak (c := Atom.exc) (fun _ => rfl) h
    · exact absurd h illTyped_ak
  case elseTail =>
    dsimp only [applyFn, withOP] at h
    split at h
    · exact outp_ak (c := Atom.tail) (fun _ => rfl) h
    · exact absurd h illTyped_ak
  case elsifTail =>
    dsimp only [applyFn, withTNTPI] at h
    split at h
    · exact outp_ak (c := Atom.tail) (fun _ => rfl) h
    · exact absurd h illTyped_ak
  case plainLabel =>
    dsimp only [applyFn, withT] at h
    split at h
    · exact outp_ak (c := Atom.label) (fun _ => rfl) h
    · exact absurd h illTyped_ak
  case quotedLabel =>
    dsimp only [applyFn, withTLT] at h
    split at h
    · exact outp_ak (c := Atom.label) (fun _ => rfl) h
    · exact absurd h illTyped_ak
  case nil =>
    dsimp only [applyFn, withT] at h
    split at h
    · exact outp_ak (c := Atom.node) (fun _ => rfl) h
    · exact absurd h illTyped_ak
  case true_ =>
    dsimp only [applyFn, withT] at h
    split at h
    · exact outp_ak (c := Atom.node) (fun _ => rfl) h
    · exact absurd h illTyped_ak
  case false_ =>
    dsimp only [applyFn, withT] at h
    split at h
    · exact outp_ak (c := Atom.node) (fun _ => rfl) h
    · exact absurd h illTyped_ak
  case line =>
    dsimp only [applyFn, withT] at h
    split at h
    · exact outp_ak (c := Atom.node) (fun _ => rfl) h
    · exact absurd h illTyped_ak
  case file =>
    dsimp only [applyFn, withT] at h
    split at h
    · exact outp_ak (c := Atom.node) (fun _ => rfl) h
    · exact absurd h illTyped_ak
  case self_ =>
    dsimp only [applyFn, withT] at h
    split at h
    · exact outp_ak (c := Atom.node) (fun _ => rfl) h
    · exact absurd h illTyped_ak
  case encoding =>
    dsimp only [applyFn, withT] at h
    split at h
    · exact outp_ak (c := Atom.node) (fun _ => rfl) h
    · exact absurd h illTyped_ak
  case forwardArg =>
    dsimp only [applyFn, withT] at h
    split at h
    · exact outp_ak (c := Atom.node) (fun _ => rfl) h
    · exact absurd h illTyped_ak
  case forwardedArgs =>
    dsimp only [applyFn, withT] at h
    split at h
    · exact outp_ak (c := Atom.node) (fun _ => rfl) h
    · exact absurd h illTyped_ak
  case stringInternal =>
    dsimp only [applyFn, withT] at h
    split at h
    · exact outp_ak (c := Atom.node) (fun _ => rfl) h
    · exact absurd h illTyped_ak
  case integer =>
    dsimp only [applyFn, withT] at h
    split at h
    · exact outR_ak (c := Atom.node) (fun _ => rfl) h
    · exact absurd h illTyped_ak
  case float =>
    dsimp only [applyFn, withT] at h
    split at h
    · exact outR_ak (c := Atom.node) (fun _ => rfl) h
    · exact absurd h illTyped_ak
  case rational =>
    dsimp only [applyFn, withT] at h
    split at h
    · exact outR_ak (c := Atom.node) (fun _ => rfl) h
    · exact absurd h illTyped_ak
  case complex =>
    dsimp only [applyFn, withT] at h
    split at h
    · exact outR_ak (c := Atom.node) (fun _ => rfl) h
    · exact absurd h illTyped_ak
  case lvar =>
    dsimp only [applyFn, withT] at h
    split at h
    · exact outR_ak (c := Atom.node) (fun _ => rfl) h
    · exact absurd h illTyped_ak
  case ivar =>
    dsimp only [applyFn, withT] at h
    split at h
    · exact outR_ak (c := Atom.node) (fun _ => rfl) h
    · exact absurd h illTyped_ak
  case gvar =>
    dsimp only [applyFn, withT] at h
    split at h
    · exact outR_ak (c := Atom.node) (fun _ => rfl) h
    · exact absurd h illTyped_ak
  case cvar =>
    dsimp only [applyFn, withT] at h
    split at h
    · exact outR_ak (c := Atom.node) (fun _ => rfl) h
    · exact absurd h illTyped_ak
  case backRef =>
    dsimp only [applyFn, withT] at h
    split at h
    · exact outR_ak (c := Atom.node) (fun _ => rfl) h
    · exact absurd h illTyped_ak
  case const_ =>
    dsimp only [applyFn, withT] at h
    split at h
    · exact outR_ak (c := Atom.node) (fun _ => rfl) h
    · exact absurd h illTyped_ak
  case constFetch =>
    dsimp only [applyFn, withNTT] at h
    split at h
    · exact outR_ak (c := Atom.node) (fun _ => rfl) h
    · exact absurd h illTyped_ak
  case constGlobal =>
    dsimp only [applyFn, withTT] at h
    split at h
    · exact outR_ak (c := Atom.node) (fun _ => rfl) h
    · exact absurd h illTyped_ak
  case arg =>
    dsimp only [applyFn, withT] at h
    split at h
    · exact outB_ak (c := Atom.node) (fun _ => rfl) h
    · exact absurd h illTyped_ak
  case shadowarg =>
    dsimp only [applyFn, withT] at h
    split at h
    · exact outB_ak (c := Atom.node) (fun _ => rfl) h
    · exact absurd h illTyped_ak
  case optarg =>
    dsimp only [applyFn, withTTN] at h
    split at h
    · exact outB_ak (c := Atom.node) (fun _ => rfl) h
    · exact absurd h illTyped_ak
  case kwnilarg =>
    dsimp only [applyFn, withTT] at h
    split at h
    · exact outp_ak (c := Atom.node) (fun _ => rfl) h
    · exact absurd h illTyped_ak
  case alias =>
    dsimp only [applyFn, withTNN] at h
    split at h
    · exact outp_ak (c := Atom.node) (fun _ => rfl) h
    · exact absurd h illTyped_ak
  case pair =>
    dsimp only [applyFn, withNTN] at h
    split at h
    · exact outp_ak (c := Atom.node) (fun _ => rfl) h
    · exact absurd h illTyped_ak
  case kwsplat =>
    dsimp only [applyFn, withTN] at h
    split at h
    · exact outp_ak (c := Atom.node) (fun _ => rfl) h
    · exact absurd h illTyped_ak
  case multiAssign =>
    dsimp only [applyFn, withNTN] at h
    split at h
    · exact outp_ak (c := Atom.node) (fun _ => rfl) h
    · exact absurd h illTyped_ak
  case defClass =>
    dsimp only [applyFn, withTNOPPT] at h
    split at h
    · exact outp_ak (c := Atom.node) (fun _ => rfl) h
    · exact absurd h illTyped_ak
  case defSclass =>
    dsimp only [applyFn, withTTNPT] at h
    split at h
    · exact outp_ak (c := Atom.node) (fun _ => rfl) h
    · exact absurd h illTyped_ak
  case defModule =>
    dsimp only [applyFn, withTNPT] at h
    split at h
    · exact outp_ak (c := Atom.node) (fun _ => rfl) h
    · exact absurd h illTyped_ak
  case defMethod =>
    dsimp only [applyFn, withTTPPT] at h
    split at h
    · exact outB_ak (c := Atom.node) (fun _ => rfl) h
    · exact absurd h illTyped_ak
  case defSingleton =>
    dsimp only [applyFn, withTNTTPPT] at h
    split at h
    · exact outB_ak (c := Atom.node) (fun _ => rfl) h
    · exact absurd h illTyped_ak
  case indexAsgn =>
    dsimp only [applyFn, withNTLT] at h
    split at h
    · exact outp_ak (c := Atom.node) (fun _ => rfl) h
    · exact absurd h illTyped_ak
  case ternary =>
    dsimp only [applyFn, withNTNTN] at h
    split at h
    · exact outp_ak (c := Atom.node) (fun _ => rfl) h
    · exact absurd h illTyped_ak
  case case =>
    dsimp only [applyFn, withTPLOPT] at h
    split at h
    · exact outp_ak (c := Atom.node) (fun _ => rfl) h
    · exact absurd h illTyped_ak
  case for_ =>
    dsimp only [applyFn, withTNTNTPT] at h
    split at h
    · exact outp_ak (c := Atom.node) (fun _ => rfl) h
    · exact absurd h illTyped_ak
  case preexe =>
    dsimp only [applyFn, withTTPT] at h
    split at h
    · exact outp_ak (c := Atom.node) (fun _ => rfl) h
    · exact absurd h illTyped_ak
  case postexe =>
    dsimp only [applyFn, withTTPT] at h
    split at h
    · exact outp_ak (c := Atom.node) (fun _ => rfl) h
    · exact absurd h illTyped_ak
  case matchPattern =>
    dsimp only [applyFn, withNTN] at h
    split at h
    · exact outp_ak (c := Atom.node) (fun _ => rfl) h
    · exact absurd h illTyped_ak
  case matchPatternP =>
    dsimp only [applyFn, withNTN] at h
    split at h
    · exact outp_ak (c := Atom.node) (fun _ => rfl) h
    · exact absurd h illTyped_ak
  case ifGuard =>
    dsimp only [applyFn, withTN] at h
    split at h
    · exact outp_ak (c := Atom.node) (fun _ => rfl) h
    · exact absurd h illTyped_ak
  case unlessGuard =>
    dsimp only [applyFn, withTN] at h
    split at h
    · exact outp_ak (c := Atom.node) (fun _ => rfl) h
    · exact absurd h illTyped_ak
  case constPattern =>
    dsimp only [applyFn, withNTNT] at h
    split at h
    · exact outp_ak (c := Atom.node) (fun _ => rfl) h
    · exact absurd h illTyped_ak
  case pin =>
    dsimp only [applyFn, withTN] at h
    split at h
    · exact outp_ak (c := Atom.node) (fun _ => rfl) h
    · exact absurd h illTyped_ak
  case matchAlt =>
    dsimp only [applyFn, withNTN] at h
    split at h
    · exact outp_ak (c := Atom.node) (fun _ => rfl) h
    · exact absurd h illTyped_ak
  case matchAs =>
    dsimp only [applyFn, withNTN] at h
    split at h
    · exact outp_ak (c := Atom.node) (fun _ => rfl) h
    · exact absurd h illTyped_ak
  case matchNilPattern =>
    dsimp only [applyFn, withTT] at h
    split at h
    · exact outp_ak (c := Atom.node) (fun _ => rfl) h
    · exact absurd h illTyped_ak
  case wordsCompose =>
    dsimp only [applyFn, withTLT] at h
    split at h
    · exact outp_ak (c := Atom.node) (fun _ => rfl) h
    · exact absurd h illTyped_ak
  case character =>
    dsimp only [applyFn, withT] at h
    split at h
    · exact outp_ak (c := Atom.node) (fun _ => rfl) h
    · exact absurd h illTyped_ak
  case splat =>
    dsimp only [applyFn, withTP] at h
    split at h
    · exact outp_ak (c := Atom.node) (fun _ => rfl) h
    · exact absurd h illTyped_ak
  case blockPass =>
    dsimp only [applyFn, withTP] at h
    split at h
    · exact outp_ak (c := Atom.node) (fun _ => rfl) h
    · exact absurd h illTyped_ak
  case rangeInclusive =>
    dsimp only [applyFn, withPTP] at h
    split at h
    · exact outp_ak (c := Atom.node) (fun _ => rfl) h
    · exact absurd h illTyped_ak
  case rangeExclusive =>
    dsimp only [applyFn, withPTP] at h
    split at h
    · exact outp_ak (c := Atom.node) (fun _ => rfl) h
    · exact absurd h illTyped_ak
  case restarg =>
    dsimp only [applyFn, withTO] at h
    split at h
    · exact outB_ak (c := Atom.node) (fun _ => rfl) h
    · exact absurd h illTyped_ak
  case kwrestarg =>
    dsimp only [applyFn, withTO] at h
    split at h
    · exact outB_ak (c := Atom.node) (fun _ => rfl) h
    · exact absurd h illTyped_ak
  case blockarg =>
    dsimp only [applyFn, withTO] at h
    split at h
    · exact outB_ak (c := Atom.node) (fun _ => rfl) h
    · exact absurd h illTyped_ak
  case unaryNum =>
    dsimp only [applyFn, withTN] at h
    split at h
    · exact outR_ak (c := Atom.node) (fun _ => rfl) h
    · exact absurd h illTyped_ak
  case symbol =>
    dsimp only [applyFn, withTT] at h
    split at h
    · exact outM_ak (c := Atom.node) (fun _ => rfl) h
    · exact absurd h illTyped_ak
  case symbolInternal =>
    dsimp only [applyFn, withT] at h
    split at h
    · exact outM_ak (c := Atom.node) (fun _ => rfl) h
    · exact absurd h illTyped_ak
  case nthRef =>
    dsimp only [applyFn, withT] at h
    split at h
    · exact outM_ak (c := Atom.node) (fun _ => rfl) h
    · exact absurd h illTyped_ak
  case matchVar =>
    dsimp only [applyFn, withT] at h
    split at h
    · exact outB_ak (c := Atom.node) (fun _ => rfl) h
    · exact absurd h illTyped_ak
  case array =>
    dsimp only [applyFn, withOLO] at h
    split at h
    · exact outR_ak (c := Atom.node) (fun _ => rfl) h
    · exact absurd h illTyped_ak
  case multiLhs =>
    dsimp only [applyFn, withOLO] at h
    split at h
    · exact outR_ak (c := Atom.node) (fun _ => rfl) h
    · exact absurd h illTyped_ak
  case hashPattern =>
    dsimp only [applyFn, withOLO] at h
    split at h
    · exact outR_ak (c := Atom.node) (fun _ => rfl) h
    · exact absurd h illTyped_ak
  case findPattern =>
    dsimp only [applyFn, withOLO] at h
    split at h
    · exact outR_ak (c := Atom.node) (fun _ => rfl) h
    · exact absurd h illTyped_ak
  case associate =>
    dsimp only [applyFn, withOLO] at h
    split at h
    · exact outM_ak (c := Atom.node) (fun _ => rfl) h
    · exact absurd h illTyped_ak
  case args =>
    dsimp only [applyFn, withOLO] at h
    split at h
    · exact outM_ak (c := Atom.onode) (fun _ => rfl) h
    · exact absurd h illTyped_ak
  case arrayPattern =>
    dsimp only [applyFn, withOLOO] at h
    split at h
    · exact outR_ak (c := Atom.node) (fun _ => rfl) h
    · exact absurd h illTyped_ak
  case logical p =>
    dsimp only [applyFn, withNTN] at h
    split at h
    · exact outB_ak (c := Atom.node) (fun _ => rfl) h
    · exact absurd h illTyped_ak
  case binaryOp =>
    dsimp only [applyFn, withNTN] at h
    split at h
    · exact outB_ak (c := Atom.node) (fun _ => rfl) h
    · exact absurd h illTyped_ak
  case unaryOp =>
    dsimp only [applyFn, withTN] at h
    split at h
    · exact outB_ak (c := Atom.node) (fun _ => rfl) h
    · exact absurd h illTyped_ak
  case matchOp =>
    dsimp only [applyFn, withNTN] at h
    split at h
    · exact outB_ak (c := Atom.node) (fun _ => rfl) h
    · exact absurd h illTyped_ak
  case notOp =>
    dsimp only [applyFn, withTN] at h
    split at h
    · exact outB_ak (c := Atom.node) (fun _ => rfl) h
    · exact absurd h illTyped_ak
  case notParen =>
    dsimp only [applyFn, withTTNT] at h
    split at h
    · exact outB_ak (c := Atom.node) (fun _ => rfl) h
    · exact absurd h illTyped_ak
  case notEmpty =>
    dsimp only [applyFn, withTTT] at h
    split at h
    · exact outB_ak (c := Atom.node) (fun _ => rfl) h
    · exact absurd h illTyped_ak
  case ifMod =>
    dsimp only [applyFn, withNTN] at h
    split at h
    · exact outR_ak (c := Atom.node) (fun _ => rfl) h
    · exact absurd h illTyped_ak
  case unlessMod =>
    dsimp only [applyFn, withNTN] at h
    split at h
    · exact outR_ak (c := Atom.node) (fun _ => rfl) h
    · exact absurd h illTyped_ak
  case loopMod p =>
    dsimp only [applyFn, withNTN] at h
    split at h
    · exact outp_ak (c := Atom.node) (fun _ => rfl) h
    · exact absurd h illTyped_ak
  case loop_ p =>
    dsimp only [applyFn, withTNTPT] at h
    split at h
    · exact outp_ak (c := Atom.node) (fun _ => rfl) h
    · exact absurd h illTyped_ak
  case condition =>
    dsimp only [applyFn, withTNTPIT] at h
    split at h
    · exact outp_ak (c := Atom.node) (fun _ => rfl) h
    · exact absurd h illTyped_ak
  case unless_ =>
    dsimp only [applyFn, withTNTPOPT] at h
    split at h
    · exact outp_ak (c := Atom.node) (fun _ => rfl) h
    · exact absurd h illTyped_ak
  case when =>
    dsimp only [applyFn, withTLTP] at h
    split at h
    · exact outp_ak (c := Atom.node) (fun _ => rfl) h
    · exact absurd h illTyped_ak
  case inPattern =>
    dsimp only [applyFn, withTNPTP] at h
    split at h
    · exact outp_ak (c := Atom.node) (fun _ => rfl) h
    · exact absurd h illTyped_ak
  case caseMatch =>
    dsimp only [applyFn, withTNLOPT] at h
    split at h
    · exact outp_ak (c := Atom.node) (fun _ => rfl) h
    · exact absurd h illTyped_ak
  case rescueClause =>
    dsimp only [applyFn, withTLETP] at h
    split at h
    · exact outR_ak (c := Atom.node) (fun _ => rfl) h
    · exact absurd h illTyped_ak
  case rescueModOpt =>
    dsimp only [applyFn, withNTN] at h
    split at h
    · exact outR_ak (c := Atom.onode) (fun _ => rfl) h
    · exact absurd h illTyped_ak
  case rescueMod =>
    dsimp only [applyFn, withNTN] at h
    split at h
    · exact outR_ak (c := Atom.node) (fun _ => rfl) h
    · exact absurd h illTyped_ak
  case compstmt =>
    dsimp only [applyFn, withL] at h
    split at h
    · exact outR_ak (c := Atom.onode) (fun _ => rfl) h
    · exact absurd h illTyped_ak
  case begin =>
    dsimp only [applyFn, withTPT] at h
    split at h
    · exact outp_ak (c := Atom.node) (fun _ => rfl) h
    · exact absurd h illTyped_ak
  case beginKeyword =>
    dsimp only [applyFn, withTPT] at h
    split at h
    · exact outp_ak (c := Atom.node) (fun _ => rfl) h
    · exact absurd h illTyped_ak
  case bodystmtElse =>
    dsimp only [applyFn, withPLTPOP] at h
    split at h
    · exact outB_ak (c := Atom.onode) (fun _ => rfl) h
    · exact absurd h illTyped_ak
  case bodystmt =>
    dsimp only [applyFn, withPLOP] at h
    split at h
    · exact outR_ak (c := Atom.onode) (fun _ => rfl) h
    · exact absurd h illTyped_ak
  case accessible =>
    dsimp only [applyFn, withN] at h
    split at h
    · exact outM_ak (c := Atom.node) (fun _ => rfl) h
    · exact absurd h illTyped_ak
  case assignable =>
    dsimp only [applyFn, withN] at h
    split at h
    · exact outB_ak (c := Atom.node) (fun _ => rfl) h
    · exact absurd h illTyped_ak
  case constOpAssignable =>
    dsimp only [applyFn, withN] at h
    split at h
    · exact outR_ak (c := Atom.node) (fun _ => rfl) h
    · exact absurd h illTyped_ak
  case assign =>
    dsimp only [applyFn, withNTN] at h
    split at h
    · exact outR_ak (c := Atom.node) (fun _ => rfl) h
    · exact absurd h illTyped_ak
  case opAssign =>
    dsimp only [applyFn, withNTN] at h
    split at h
    · exact outB_ak (c := Atom.node) (fun _ => rfl) h
    · exact absurd h illTyped_ak
  case defEndless =>
    dsimp only [applyFn, withTTPTP] at h
    split at h
    · exact outB_ak (c := Atom.node) (fun _ => rfl) h
    · exact absurd h illTyped_ak
  case defEndlessSingleton =>
    dsimp only [applyFn, withTNTTPTP] at h
    split at h
    · exact outB_ak (c := Atom.node) (fun _ => rfl) h
    · exact absurd h illTyped_ak
  case undefMethod =>
    dsimp only [applyFn, withTL] at h
    split at h
    · exact outp_ak (c := Atom.node) (fun _ => rfl) h
    · exact absurd h illTyped_ak
  case kwarg =>
    dsimp only [applyFn, withT] at h
    split at h
    · exact outB_ak (c := Atom.node) (fun _ => rfl) h
    · exact absurd h illTyped_ak
  case kwoptarg =>
    dsimp only [applyFn, withTN] at h
    split at h
    · exact outB_ak (c := Atom.node) (fun _ => rfl) h
    · exact absurd h illTyped_ak
  case procargs =>
    dsimp only [applyFn, withLL] at h
    split at h
    · exact outR_ak (c := Atom.nodes) (fun _ => rfl) h
    · exact absurd h illTyped_ak
  case callDot =>
    dsimp only [applyFn, withNTTL] at h
    split at h
    · exact outR_ak (c := Atom.node) (fun _ => rfl) h
    · exact absurd h illTyped_ak
  case callFn =>
    dsimp only [applyFn, withTL] at h
    split at h
    · exact outR_ak (c := Atom.node) (fun _ => rfl) h
    · exact absurd h illTyped_ak
  case callFnParen =>
    dsimp only [applyFn, withTTLT] at h
    split at h
    · exact outR_ak (c := Atom.node) (fun _ => rfl) h
    · exact absurd h illTyped_ak
  case callDotParen =>
    dsimp only [applyFn, withNTTTLT] at h
    split at h
    · exact outR_ak (c := Atom.node) (fun _ => rfl) h
    · exact absurd h illTyped_ak
  case callDotOpt =>
    dsimp only [applyFn, withNTTG] at h
    split at h
    · exact outR_ak (c := Atom.node) (fun _ => rfl) h
    · exact absurd h illTyped_ak
  case callParen =>
    dsimp only [applyFn, withNTTLT] at h
    split at h
    · exact outR_ak (c := Atom.node) (fun _ => rfl) h
    · exact absurd h illTyped_ak
  case block =>
    dsimp only [applyFn, withNTAPT] at h
    split at h
    · exact outB_ak (c := Atom.node) (fun _ => rfl) h
    · exact absurd h illTyped_ak
  case lambda =>
    dsimp only [applyFn, withTATPT] at h
    split at h
    · exact outB_ak (c := Atom.node) (fun _ => rfl) h
    · exact absurd h illTyped_ak
  case attrAsgn =>
    dsimp only [applyFn, withNTT] at h
    split at h
    · exact outR_ak (c := Atom.node) (fun _ => rfl) h
    · exact absurd h illTyped_ak
  case attrAsgnMasgn =>
    dsimp only [applyFn, withNTT] at h
    split at h
    · exact outB_ak (c := Atom.node) (fun _ => rfl) h
    · exact absurd h illTyped_ak
  case index =>
    dsimp only [applyFn, withNTLT] at h
    split at h
    · exact outR_ak (c := Atom.node) (fun _ => rfl) h
    · exact absurd h illTyped_ak
  case keyword p =>
    dsimp only [applyFn, withTL] at h
    split at h
    · exact outB_ak (c := Atom.node) (fun _ => rfl) h
    · exact absurd h illTyped_ak
  case keywordParen p =>
    dsimp only [applyFn, withTTLT] at h
    split at h
    · exact outB_ak (c := Atom.node) (fun _ => rfl) h
    · exact absurd h illTyped_ak
  case mlhsInner =>
    dsimp only [applyFn, withTNT] at h
    split at h
    · exact outR_ak (c := Atom.node) (fun _ => rfl) h
    · exact absurd h illTyped_ak
  case strings =>
    dsimp only [applyFn, withL] at h
    split at h
    · exact outR_ak (c := Atom.node) (fun _ => rfl) h
    · exact absurd h illTyped_ak
  case string1 =>
    dsimp only [applyFn, withTLT] at h
    split at h
    · exact outR_ak (c := Atom.node) (fun _ => rfl) h
    · exact absurd h illTyped_ak
  case xstring =>
    dsimp only [applyFn, withTLT] at h
    split at h
    · exact outR_ak (c := Atom.node) (fun _ => rfl) h
    · exact absurd h illTyped_ak
  case regexp =>
    dsimp only [applyFn, withTLT] at h
    split at h
    · exact outM_ak (c := Atom.node) (fun _ => rfl) h
    · exact absurd h illTyped_ak
  case word =>
    dsimp only [applyFn, withL] at h
    split at h
    · exact outR_ak (c := Atom.node) (fun _ => rfl) h
    · exact absurd h illTyped_ak
  case symbolsCompose =>
    dsimp only [applyFn, withTLT] at h
    split at h
    · exact outM_ak (c := Atom.node) (fun _ => rfl) h
    · exact absurd h illTyped_ak
  case symbolCompose =>
    dsimp only [applyFn, withTLT] at h
    split at h
    · exact outM_ak (c := Atom.node) (fun _ => rfl) h
    · exact absurd h illTyped_ak
  case pairKeyword =>
    dsimp only [applyFn, withTN] at h
    split at h
    · exact outM_ak (c := Atom.node) (fun _ => rfl) h
    · exact absurd h illTyped_ak
  case pairLabel =>
    dsimp only [applyFn, withT] at h
    split at h
    · exact outM_ak (c := Atom.node) (fun _ => rfl) h
    · exact absurd h illTyped_ak
  case pairQuoted =>
    dsimp only [applyFn, withTLTN] at h
    split at h
    · exact outM_ak (c := Atom.node) (fun _ => rfl) h
    · exact absurd h illTyped_ak
  case matchRest =>
    dsimp only [applyFn, withTO] at h
    split at h
    · exact outB_ak (c := Atom.node) (fun _ => rfl) h
    · exact absurd h illTyped_ak
  case matchPair =>
    dsimp only [applyFn, withKN] at h
    split at h
    · exact outB_ak (c := Atom.node) (fun _ => rfl) h
    · exact absurd h illTyped_ak
  case matchLabel =>
    dsimp only [applyFn, withK] at h
    split at h
    · exact outB_ak (c := Atom.node) (fun _ => rfl) h
    · exact absurd h illTyped_ak
  case constPatternEmpty =>
    dsimp only [applyFn, withNTT] at h
    split at h
    · exact outR_ak (c := Atom.node) (fun _ => rfl) h
    · exact absurd h illTyped_ak

end Verif
