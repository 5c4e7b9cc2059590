import Verif.Lemmas.ScopeParts
/-!
The functions that only put nodes together (`plainFn`), one by one. Generated by `tools/scope/gen_fn.py`.
-/
namespace Verif
open Builder Grammar

/-- The functions whose result has what the arguments have. -/
def plainFn : BFn → Bool
  | .someT | .noneT | .endlessName | .kwargName | .lvar | .accessible | .assignable | .pairLabel | .block | .lambda | .defClass | .defSclass | .defModule | .defMethod
  | .defSingleton | .defEndless | .defEndlessSingleton | .arg | .optarg | .kwarg | .kwoptarg | .shadowarg | .restarg | .kwrestarg | .blockarg | .matchVar | .matchRest
  | .matchLabel | .matchOp | .argsType | .assign | .keyword _ | .keywordParen _ | .bodystmt | .bodystmtElse
  | .opAssign | .constOpAssignable => false
  | _ => true

variable {Q : Node → Prop}

theorem fn_plain (h : Additive Q) {ext : BldExt} {indent : Int} {f : BFn} (hf : plainFn f = true) (xs : List Atom) :
    BldR.Yields (applyFn ext indent f xs) fun a => (Some_ Q a.trees ↔ Some_ Q (xs.flatMap Atom.trees)) := by
  cases f
  case someT =>
    cases hf
  case someN =>
    dsimp only [applyFn, withN]
    split
    · refine outp_yields ?_; adds h; try tauto
    · exact illTyped_yields
  case noneT =>
    cases hf
  case noneN =>
    dsimp only [applyFn, withNone]
    split
    · refine outp_yields ?_; adds h; try tauto
    · exact illTyped_yields
  case nilL =>
    dsimp only [applyFn, withNone]
    split
    · refine outp_yields ?_; adds h; try tauto
    · exact illTyped_yields
  case single =>
    dsimp only [applyFn, withN]
    split
    · refine outp_yields ?_; adds h; try tauto
    · exact illTyped_yields
  case append =>
    dsimp only [applyFn, withLL]
    split
    · refine outp_yields ?_; adds h; try tauto
    · exact illTyped_yields
  case checked =>
    dsimp only [applyFn, withN]
    split
    · refine outB_yields ?_; rw [seqRight_eq_bind]; skips; ends h
    · exact illTyped_yields
  case endlessName =>
    cases hf
  case kwargName =>
    cases hf
  case singletonExpr =>
    dsimp only [applyFn, withN]
    split
    · refine outB_yields ?_; unfold singletonExpr; skips; ends h
    · exact illTyped_yields
  case argsType =>
    cases hf
  case noParens =>
    dsimp only [applyFn, withNone]
    split
    · refine outp_yields ?_; adds h; try tauto
    · exact illTyped_yields
  case someParens =>
    dsimp only [applyFn, withTLT]
    split
    · refine outp_yields ?_; adds h; try tauto
    · exact illTyped_yields
  case noExc =>
    dsimp only [applyFn, withNone]
    split
    · refine outp_yields ?_; adds h; try tauto
    · exact illTyped_yields
  case someExc =>
    dsimp only [applyFn, withTN]
    split
    · refine outp_yields ?_; adds h; try tauto
    · exact illTyped_yields
  case elseTail =>
    dsimp only [applyFn, withOP]
    split
    · refine outp_yields ?_; adds h; try tauto
    · exact illTyped_yields
  case elsifTail =>
    dsimp only [applyFn, withTNTPI]
    split
    · refine outp_yields ?_; adds h; rw [condition_adds h]; (try adds h); (try tauto)
    · exact illTyped_yields
  case plainLabel =>
    dsimp only [applyFn, withT]
    split
    · refine outp_yields ?_; adds h; try tauto
    · exact illTyped_yields
  case quotedLabel =>
    dsimp only [applyFn, withTLT]
    split
    · refine outp_yields ?_; adds h; try tauto
    · exact illTyped_yields
  case nil =>
    dsimp only [applyFn, withT]
    split
    · refine outp_yields ?_; unfold nil; adds h; try tauto
    · exact illTyped_yields
  case true_ =>
    dsimp only [applyFn, withT]
    split
    · refine outp_yields ?_; unfold true_; adds h; try tauto
    · exact illTyped_yields
  case false_ =>
    dsimp only [applyFn, withT]
    split
    · refine outp_yields ?_; unfold false_; adds h; try tauto
    · exact illTyped_yields
  case line =>
    dsimp only [applyFn, withT]
    split
    · refine outp_yields ?_; unfold line; adds h; try tauto
    · exact illTyped_yields
  case file =>
    dsimp only [applyFn, withT]
    split
    · refine outp_yields ?_; unfold file; adds h; try tauto
    · exact illTyped_yields
  case self_ =>
    dsimp only [applyFn, withT]
    split
    · refine outp_yields ?_; unfold self_; adds h; try tauto
    · exact illTyped_yields
  case encoding =>
    dsimp only [applyFn, withT]
    split
    · refine outp_yields ?_; unfold encoding; adds h; try tauto
    · exact illTyped_yields
  case forwardArg =>
    dsimp only [applyFn, withT]
    split
    · refine outp_yields ?_; unfold forwardArg; adds h; try tauto
    · exact illTyped_yields
  case forwardedArgs =>
    dsimp only [applyFn, withT]
    split
    · refine outp_yields ?_; unfold forwardedArgs; adds h; try tauto
    · exact illTyped_yields
  case stringInternal =>
    dsimp only [applyFn, withT]
    split
    · refine outp_yields ?_; unfold stringInternal; adds h; try tauto
    · exact illTyped_yields
  case integer =>
    dsimp only [applyFn, withT]
    split
    · refine outR_yields ?_; unfold integer; skips <;> ends h
    · exact illTyped_yields
  case float =>
    dsimp only [applyFn, withT]
    split
    · refine outR_yields ?_; unfold float; skips <;> ends h
    · exact illTyped_yields
  case rational =>
    dsimp only [applyFn, withT]
    split
    · refine outR_yields ?_; unfold rational; skips <;> ends h
    · exact illTyped_yields
  case complex =>
    dsimp only [applyFn, withT]
    split
    · refine outR_yields ?_; unfold complex; skips <;> ends h
    · exact illTyped_yields
  case lvar =>
    cases hf
  case ivar =>
    dsimp only [applyFn, withT]
    split
    · refine outR_yields ?_; unfold ivar; skips <;> ends h
    · exact illTyped_yields
  case gvar =>
    dsimp only [applyFn, withT]
    split
    · refine outR_yields ?_; unfold gvar; skips <;> ends h
    · exact illTyped_yields
  case cvar =>
    dsimp only [applyFn, withT]
    split
    · refine outR_yields ?_; unfold cvar; skips <;> ends h
    · exact illTyped_yields
  case backRef =>
    dsimp only [applyFn, withT]
    split
    · refine outR_yields ?_; unfold backRef; skips <;> ends h
    · exact illTyped_yields
  case const_ =>
    dsimp only [applyFn, withT]
    split
    · refine outR_yields ?_; unfold const_; skips <;> ends h
    · exact illTyped_yields
  case constFetch =>
    dsimp only [applyFn, withNTT]
    split
    · refine outR_yields ?_; unfold constFetch; skips <;> ends h
    · exact illTyped_yields
  case constGlobal =>
    dsimp only [applyFn, withTT]
    split
    · refine outR_yields ?_; unfold constGlobal; skips <;> ends h
    · exact illTyped_yields
  case arg =>
    cases hf
  case shadowarg =>
    cases hf
  case optarg =>
    cases hf
  case kwnilarg =>
    dsimp only [applyFn, withTT]
    split
    · refine outp_yields ?_; unfold kwnilarg; adds h; try tauto
    · exact illTyped_yields
  case «alias» =>
    dsimp only [applyFn, withTNN]
    split
    · refine outp_yields ?_; unfold Builder.«alias»; adds h; try tauto
    · exact illTyped_yields
  case pair =>
    dsimp only [applyFn, withNTN]
    split
    · refine outp_yields ?_; unfold pair; adds h; try tauto
    · exact illTyped_yields
  case kwsplat =>
    dsimp only [applyFn, withTN]
    split
    · refine outp_yields ?_; unfold kwsplat; adds h; try tauto
    · exact illTyped_yields
  case multiAssign =>
    dsimp only [applyFn, withNTN]
    split
    · refine outp_yields ?_; unfold multiAssign; adds h; try tauto
    · exact illTyped_yields
  case defClass =>
    cases hf
  case defSclass =>
    cases hf
  case defModule =>
    cases hf
  case defMethod =>
    cases hf
  case defSingleton =>
    cases hf
  case indexAsgn =>
    dsimp only [applyFn, withNTLT]
    split
    · refine outp_yields ?_; unfold indexAsgn; adds h; try tauto
    · exact illTyped_yields
  case ternary =>
    dsimp only [applyFn, withNTNTN]
    split
    · refine outp_yields ?_; unfold ternary; adds h; try tauto
    · exact illTyped_yields
  case case =>
    dsimp only [applyFn, withTPLOPT]
    split
    · refine outp_yields ?_; unfold Builder.case; adds h; try tauto
    · exact illTyped_yields
  case for_ =>
    dsimp only [applyFn, withTNTNTPT]
    split
    · refine outp_yields ?_; unfold for_; adds h; try tauto
    · exact illTyped_yields
  case preexe =>
    dsimp only [applyFn, withTTPT]
    split
    · refine outp_yields ?_; unfold preexe; adds h; try tauto
    · exact illTyped_yields
  case postexe =>
    dsimp only [applyFn, withTTPT]
    split
    · refine outp_yields ?_; unfold postexe; adds h; try tauto
    · exact illTyped_yields
  case matchPattern =>
    dsimp only [applyFn, withNTN]
    split
    · refine outp_yields ?_; unfold matchPattern; adds h; try tauto
    · exact illTyped_yields
  case matchPatternP =>
    dsimp only [applyFn, withNTN]
    split
    · refine outp_yields ?_; unfold matchPatternP; adds h; try tauto
    · exact illTyped_yields
  case ifGuard =>
    dsimp only [applyFn, withTN]
    split
    · refine outp_yields ?_; unfold ifGuard; adds h; try tauto
    · exact illTyped_yields
  case unlessGuard =>
    dsimp only [applyFn, withTN]
    split
    · refine outp_yields ?_; unfold unlessGuard; adds h; try tauto
    · exact illTyped_yields
  case constPattern =>
    dsimp only [applyFn, withNTNT]
    split
    · refine outp_yields ?_; unfold constPattern; adds h; try tauto
    · exact illTyped_yields
  case pin =>
    dsimp only [applyFn, withTN]
    split
    · refine outp_yields ?_; unfold pin; adds h; try tauto
    · exact illTyped_yields
  case matchAlt =>
    dsimp only [applyFn, withNTN]
    split
    · refine outp_yields ?_; unfold matchAlt; adds h; try tauto
    · exact illTyped_yields
  case matchAs =>
    dsimp only [applyFn, withNTN]
    split
    · refine outp_yields ?_; unfold matchAs; adds h; try tauto
    · exact illTyped_yields
  case matchNilPattern =>
    dsimp only [applyFn, withTT]
    split
    · refine outp_yields ?_; unfold matchNilPattern; adds h; try tauto
    · exact illTyped_yields
  case wordsCompose =>
    dsimp only [applyFn, withTLT]
    split
    · refine outp_yields ?_; unfold wordsCompose; adds h; try tauto
    · exact illTyped_yields
  case character =>
    dsimp only [applyFn, withT]
    split
    · refine outp_yields ?_; unfold character; adds h; try tauto
    · exact illTyped_yields
  case splat =>
    dsimp only [applyFn, withTP]
    split
    · refine outp_yields ?_; unfold splat; adds h; try tauto
    · exact illTyped_yields
  case blockPass =>
    dsimp only [applyFn, withTP]
    split
    · refine outp_yields ?_; unfold blockPass; adds h; try tauto
    · exact illTyped_yields
  case rangeInclusive =>
    dsimp only [applyFn, withPTP]
    split
    · refine outp_yields ?_; unfold rangeInclusive; adds h; try tauto
    · exact illTyped_yields
  case rangeExclusive =>
    dsimp only [applyFn, withPTP]
    split
    · refine outp_yields ?_; unfold rangeExclusive; adds h; try tauto
    · exact illTyped_yields
  case restarg =>
    cases hf
  case kwrestarg =>
    cases hf
  case blockarg =>
    cases hf
  case unaryNum =>
    dsimp only [applyFn, withTN]
    split
    · refine outR_yields ?_; unfold unaryNum; skips <;> ends h
    · exact illTyped_yields
  case symbol =>
    dsimp only [applyFn, withTT]
    split
    · refine outM_yields ?_; unfold symbol; skips <;> ends h
    · exact illTyped_yields
  case symbolInternal =>
    dsimp only [applyFn, withT]
    split
    · refine outM_yields ?_; unfold symbolInternal; skips <;> ends h
    · exact illTyped_yields
  case nthRef =>
    dsimp only [applyFn, withT]
    split
    · refine outM_yields ?_; unfold nthRef; skips <;> ends h
    · exact illTyped_yields
  case matchVar =>
    cases hf
  case array =>
    dsimp only [applyFn, withOLO]
    split
    · refine outR_yields ?_; unfold array; skips <;> ends h
    · exact illTyped_yields
  case multiLhs =>
    dsimp only [applyFn, withOLO]
    split
    · refine outR_yields ?_; unfold multiLhs; skips <;> ends h
    · exact illTyped_yields
  case hashPattern =>
    dsimp only [applyFn, withOLO]
    split
    · refine outR_yields ?_; unfold hashPattern; skips <;> ends h
    · exact illTyped_yields
  case findPattern =>
    dsimp only [applyFn, withOLO]
    split
    · refine outR_yields ?_; unfold findPattern; skips <;> ends h
    · exact illTyped_yields
  case associate =>
    dsimp only [applyFn, withOLO]
    split
    · refine outM_yields ?_; unfold associate; skips <;> ends h
    · exact illTyped_yields
  case args =>
    dsimp only [applyFn, withOLO]
    split
    · exact outM_yields ((args_adds h).imp fun m hm => by adds h; (first | rw [hm] | rw [← hm]); (try adds h); (try tauto))
    · exact illTyped_yields
  case arrayPattern =>
    dsimp only [applyFn, withOLOO]
    split
    · exact outR_yields ((arrayPattern_adds h).imp fun m hm => by adds h; (first | rw [hm] | rw [← hm]); (try adds h); (try tauto))
    · exact illTyped_yields
  case logical p =>
    dsimp only [applyFn, withNTN]
    split
    · refine outB_yields ?_; unfold logicalOp; skips <;> ends h
    · exact illTyped_yields
  case binaryOp =>
    dsimp only [applyFn, withNTN]
    split
    · refine outB_yields ?_; unfold binaryOp; skips <;> ends h
    · exact illTyped_yields
  case unaryOp =>
    dsimp only [applyFn, withTN]
    split
    · refine outB_yields ?_; unfold unaryOp; skips <;> ends h
    · exact illTyped_yields
  case matchOp =>
    cases hf
  case notOp =>
    dsimp only [applyFn, withTN]
    split
    · exact outB_yields ((notOp_adds h).imp fun m hm => by adds h; (first | rw [hm] | rw [← hm]); (try adds h); (try tauto))
    · exact illTyped_yields
  case notParen =>
    dsimp only [applyFn, withTTNT]
    split
    · exact outB_yields ((notOp_adds h).imp fun m hm => by adds h; (first | rw [hm] | rw [← hm]); (try adds h); (try tauto))
    · exact illTyped_yields
  case notEmpty =>
    dsimp only [applyFn, withTTT]
    split
    · exact outB_yields ((notOp_adds h).imp fun m hm => by adds h; (first | rw [hm] | rw [← hm]); (try adds h); (try tauto))
    · exact illTyped_yields
  case ifMod =>
    dsimp only [applyFn, withNTN]
    split
    · exact outR_yields ((conditionMod_adds h).imp fun m hm => by adds h; (first | rw [hm] | rw [← hm]); (try adds h); (try tauto))
    · exact illTyped_yields
  case unlessMod =>
    dsimp only [applyFn, withNTN]
    split
    · exact outR_yields ((conditionMod_adds h).imp fun m hm => by adds h; (first | rw [hm] | rw [← hm]); (try adds h); (try tauto))
    · exact illTyped_yields
  case loopMod p =>
    dsimp only [applyFn, withNTN]
    split
    · refine outp_yields ?_; adds h; rw [loopMod_adds h]; (try adds h); (try tauto)
    · exact illTyped_yields
  case loop_ p =>
    dsimp only [applyFn, withTNTPT]
    split
    · refine outp_yields ?_; adds h; rw [loop_adds h]; (try adds h); (try tauto)
    · exact illTyped_yields
  case condition =>
    dsimp only [applyFn, withTNTPIT]
    split
    · refine outp_yields ?_; adds h; rw [condition_adds h]; (try adds h); (try tauto)
    · exact illTyped_yields
  case unless_ =>
    dsimp only [applyFn, withTNTPOPT]
    split
    · refine outp_yields ?_; adds h; rw [condition_adds h]; (try adds h); (try tauto)
    · exact illTyped_yields
  case when =>
    dsimp only [applyFn, withTLTP]
    split
    · refine outp_yields ?_; unfold when; adds h; try tauto
    · exact illTyped_yields
  case inPattern =>
    dsimp only [applyFn, withTNPTP]
    split
    · refine outp_yields ?_; unfold inPattern; adds h; try tauto
    · exact illTyped_yields
  case caseMatch =>
    dsimp only [applyFn, withTNLOPT]
    split
    · refine outp_yields ?_; adds h; rw [caseMatch_adds h]; (try adds h); (try tauto)
    · exact illTyped_yields
  case rescueClause =>
    dsimp only [applyFn, withTLETP]
    split
    · exact outR_yields ((rescueClause_adds h).imp fun m hm => by adds h; (first | rw [hm] | rw [← hm]); (try adds h); (try tauto))
    · exact illTyped_yields
  case rescueModOpt =>
    dsimp only [applyFn, withNTN]
    split
    · exact outR_yields ((rescueMod_adds h).imp fun m hm => by adds h; (first | rw [hm] | rw [← hm]); (try adds h); (try tauto))
    · exact illTyped_yields
  case rescueMod =>
    dsimp only [applyFn, withNTN]
    split
    · exact outR_yields ((rescueMod!_adds h).imp fun m hm => by adds h; (first | rw [hm] | rw [← hm]); (try adds h); (try tauto))
    · exact illTyped_yields
  case compstmt =>
    dsimp only [applyFn, withL]
    split
    · refine outR_yields ?_; unfold compstmt; skips <;> ends h
    · exact illTyped_yields
  case «begin» =>
    dsimp only [applyFn, withTPT]
    split
    · refine outp_yields ?_; adds h; rw [begin_adds h]; (try adds h); (try tauto)
    · exact illTyped_yields
  case beginKeyword =>
    dsimp only [applyFn, withTPT]
    split
    · refine outp_yields ?_; adds h; rw [beginKeyword_adds h]; (try adds h); (try tauto)
    · exact illTyped_yields
  case bodystmtElse =>
    cases hf
  case bodystmt =>
    cases hf
  case accessible =>
    cases hf
  case assignable =>
    cases hf
  case constOpAssignable =>
    cases hf
  case assign =>
    cases hf
  case opAssign =>
    cases hf
  case defEndless =>
    cases hf
  case defEndlessSingleton =>
    cases hf
  case undefMethod =>
    dsimp only [applyFn, withTL]
    split
    · refine outp_yields ?_; unfold undefMethod; adds h; try tauto
    · exact illTyped_yields
  case kwarg =>
    cases hf
  case kwoptarg =>
    cases hf
  case procargs =>
    dsimp only [applyFn, withLL]
    split
    · exact outR_yields ((procargs_adds h).imp fun m hm => by adds h; (first | rw [hm] | rw [← hm]); (try adds h); (try tauto))
    · exact illTyped_yields
  case callDot =>
    dsimp only [applyFn, withNTTL]
    split
    · exact outR_yields ((callMethod_adds h).imp fun m hm => by adds h; (first | rw [hm] | rw [← hm]); (try adds h); (try tauto))
    · exact illTyped_yields
  case callFn =>
    dsimp only [applyFn, withTL]
    split
    · exact outR_yields ((callMethod_adds h).imp fun m hm => by adds h; (first | rw [hm] | rw [← hm]); (try adds h); (try tauto))
    · exact illTyped_yields
  case callFnParen =>
    dsimp only [applyFn, withTTLT]
    split
    · exact outR_yields ((callMethod_adds h).imp fun m hm => by adds h; (first | rw [hm] | rw [← hm]); (try adds h); (try tauto))
    · exact illTyped_yields
  case callDotParen =>
    dsimp only [applyFn, withNTTTLT]
    split
    · exact outR_yields ((callMethod_adds h).imp fun m hm => by adds h; (first | rw [hm] | rw [← hm]); (try adds h); (try tauto))
    · exact illTyped_yields
  case callDotOpt =>
    dsimp only [applyFn, withNTTG]
    split
    · exact outR_yields ((callMethod_adds h).imp fun m hm => by adds h; (first | rw [hm] | rw [← hm]); (try adds h); (try tauto))
    · exact illTyped_yields
  case callParen =>
    dsimp only [applyFn, withNTTLT]
    split
    · exact outR_yields ((callMethod_adds h).imp fun m hm => by adds h; (first | rw [hm] | rw [← hm]); (try adds h); (try tauto))
    · exact illTyped_yields
  case block =>
    cases hf
  case lambda =>
    cases hf
  case attrAsgn =>
    dsimp only [applyFn, withNTT]
    split
    · exact outR_yields ((attrAsgn_adds h).imp fun m hm => by adds h; (first | rw [hm] | rw [← hm]); (try adds h); (try tauto))
    · exact illTyped_yields
  case attrAsgnMasgn =>
    dsimp only [applyFn, withNTT]
    split
    · refine outB_yields ?_; unfold attrAsgnMasgn; split; · skip1
      · exact (BldR.safe_lift (BldM.safe_liftR (attrAsgn_adds h))).imp fun m hm => by adds h; exact hm
    · exact illTyped_yields
  case index =>
    dsimp only [applyFn, withNTLT]
    split
    · refine outR_yields ?_; unfold index; refine Res.safe_bind (rewrite_adds h _) fun m hm => Res.safe_pure ?_; adds h; rw [hm]
    · exact illTyped_yields
  case keyword p =>
    cases hf
  case keywordParen p =>
    cases hf
  case mlhsInner =>
    dsimp only [applyFn, withTNT]
    split
    · exact outR_yields ((mlhsInner_adds h).imp fun m hm => by adds h; (first | rw [hm] | rw [← hm]); (try adds h); (try tauto))
    · exact illTyped_yields
  case strings =>
    dsimp only [applyFn, withL]
    split
    · exact outR_yields ((stringCompose_adds h).imp fun m hm => by adds h; (first | rw [hm] | rw [← hm]); (try adds h); (try tauto))
    · exact illTyped_yields
  case string1 =>
    dsimp only [applyFn, withTLT]
    split
    · refine outR_yields ?_; unfold string1; refine Res.safe_bind (stringCompose_adds h) fun m hm => (heredocDedent_adds h).imp fun m' hm' => ?_; adds h; rw [hm', hm]
    · exact illTyped_yields
  case xstring =>
    dsimp only [applyFn, withTLT]
    split
    · refine outR_yields ((heredocDedent_adds h).imp fun m hm => ?_); adds h; rw [hm]; unfold xstringCompose; split <;> adds h
    · exact illTyped_yields
  case regexp =>
    dsimp only [applyFn, withTLT]
    split
    · refine outM_yields (BldM.safe_bind (BldM.safe_liftR (regOpt_adds h)) fun m hm => (regexpCompose_adds h).imp fun m' hm' => ?_); adds h; rw [hm']; tauto
    · exact illTyped_yields
  case word =>
    dsimp only [applyFn, withL]
    split
    · exact outR_yields ((word_adds h).imp fun m hm => by adds h; (first | rw [hm] | rw [← hm]); (try adds h); (try tauto))
    · exact illTyped_yields
  case symbolsCompose =>
    dsimp only [applyFn, withTLT]
    split
    · exact outM_yields ((symbolsCompose_adds h).imp fun m hm => by adds h; (first | rw [hm] | rw [← hm]); (try adds h); (try tauto))
    · exact illTyped_yields
  case symbolCompose =>
    dsimp only [applyFn, withTLT]
    split
    · exact outM_yields ((symbolCompose_adds h).imp fun m hm => by adds h; (first | rw [hm] | rw [← hm]); (try adds h); (try tauto))
    · exact illTyped_yields
  case pairKeyword =>
    dsimp only [applyFn, withTN]
    split
    · exact outM_yields ((pairKeyword_adds h).imp fun m hm => by adds h; (first | rw [hm] | rw [← hm]); (try adds h); (try tauto))
    · exact illTyped_yields
  case pairLabel =>
    cases hf
  case pairQuoted =>
    dsimp only [applyFn, withTLTN]
    split
    · exact outM_yields ((pairQuoted_adds h).imp fun m hm => by adds h; (first | rw [hm] | rw [← hm]); (try adds h); (try tauto))
    · exact illTyped_yields
  case matchRest =>
    cases hf
  case matchPair =>
    dsimp only [applyFn, withKN]
    split
    · exact outB_yields ((matchPair_adds h).imp fun m hm => by adds h; (first | rw [hm] | rw [← hm]); (try adds h); (try tauto))
    · exact illTyped_yields
  case matchLabel =>
    cases hf
  case constPatternEmpty =>
    dsimp only [applyFn, withNTT]
    split
    · exact outR_yields ((constPatternEmpty_adds h).imp fun m hm => by adds h; (first | rw [hm] | rw [← hm]); (try adds h); (try tauto))
    · exact illTyped_yields

/-- These, and the ones that assign. -/
def wideFn (f : BFn) : Bool := plainFn f || f == .opAssign || f == .constOpAssignable
theorem fn_wide (h : Wide Q) {ext : BldExt} {indent : Int} {f : BFn} (hf : wideFn f = true) (xs : List Atom) :
    BldR.Yields (applyFn ext indent f xs) fun a => (Some_ Q a.trees ↔ Some_ Q (xs.flatMap Atom.trees)) := by
  simp only [wideFn, Bool.or_eq_true, beq_iff_eq] at hf
  rcases hf with (hf | rfl) | rfl
  · exact fn_plain h.add hf xs
  · dsimp only [applyFn, withNTN]
    split
    · exact outB_yields ((opAssign_adds h).imp fun m hm => by adds h.add; exact hm)
    · exact illTyped_yields
  · dsimp only [applyFn, withN]
    split
    · refine outR_yields ?_
      unfold constOpAssignable
      skips
      refine Res.safe_ok ?_
      adds h.add
      rw [h.Casgn]
      simp
    · exact illTyped_yields

end Verif
