import Verif.Lemmas.TokTable
/-!
A call of a function of the builder does not panic but by `unreachable!`, when its arguments have what it relies on.
-/
namespace Verif
open Builder Grammar

variable {i : Prop} {p : Bool}

theorem illTyped_calm : BldR.Calm i p illTyped Any := BldR.calm_lift BldM.calm_panic
theorem outp_calm {c : α → Atom} {a : α} : BldR.Calm i p (outp c a) Any := BldR.calm_pure trivial
theorem outR_calm {c : α → Atom} {r : Res α} (h : Res.Calm i r Any) : BldR.Calm i p (outR c r) Any :=
  BldR.calm_bind (BldR.calm_lift (BldM.calm_liftR h)) fun _ _ => BldR.calm_pure trivial
theorem outM_calm {c : α → Atom} {r : BldM α} (h : BldM.Calm i p r Any) : BldR.Calm i p (outM c r) Any :=
  BldR.calm_bind (BldR.calm_lift h) fun _ _ => BldR.calm_pure trivial
theorem outB_calm {c : α → Atom} {r : BldR α} (h : BldR.Calm i p r Any) : BldR.Calm i p (outB c r) Any :=
  BldR.calm_bind h fun _ _ => BldR.calm_pure trivial
theorem checked_calm : BldR.Calm i p (valueExpr n *> pure n) Any := by
  rw [show (valueExpr n *> pure n : BldR Node) = (valueExpr n >>= fun _ => pure n) from rfl]
  exact BldR.calm_bind valueExpr_calm fun _ _ => BldR.calm_pure trivial
theorem BldM.Calm.index {m : BldM α} {P : α → Prop} (h : BldM.Calm True p m P) (hi : i) : BldM.Calm i p m P := by
  intro s hs
  have := h s hs
  rcases hm : m s with e | q
  · rw [hm] at this
    rcases this with h | h
    · exact .inl h
    · exact .inr ⟨hi, h.2⟩
  · rw [hm] at this; exact this

/-- The jump has an argument. -/
def HasArgs (n : Node) : Prop :=
  (∀ as k x, n = .Return as k x → as ≠ []) ∧ (∀ as k x, n = .Next as k x → as ≠ []) ∧ ∀ as k x, n = .Break as k x → as ≠ []

theorem fn_calm {ext : BldExt} {indent : Int} {f : BFn} {xs : List Atom} (hi : 0 ≤ indent) (h : THasP f.needs xs)
    (hb : ∀ r, f = .block → ∀ n, xs = .node n :: r → HasArgs n)
    (hk : f = .keyword .Defined ∨ f = .keywordParen .Defined → ∀ l, .nodes l ∈ xs → l ≠ [])
    (hm : f = .matchLabel → ∀ a l t, xs ≠ [.label (.QuotedLabel a l t)]) :
    BldR.Calm (f = .args) f.declares (applyFn ext indent f xs) Any := by
  cases f
  case someT =>
    dsimp only [applyFn, withT]
    split
    · exact outp_calm
    · exact illTyped_calm
  case someN =>
    dsimp only [applyFn, withN]
    split
    · exact outp_calm
    · exact illTyped_calm
  case noneT =>
    dsimp only [applyFn, withNone]
    split
    · exact outp_calm
    · exact illTyped_calm
  case noneN =>
    dsimp only [applyFn, withNone]
    split
    · exact outp_calm
    · exact illTyped_calm
  case nilL =>
    dsimp only [applyFn, withNone]
    split
    · exact outp_calm
    · exact illTyped_calm
  case single =>
    dsimp only [applyFn, withN]
    split
    · exact outp_calm
    · exact illTyped_calm
  case append =>
    dsimp only [applyFn, withLL]
    split
    · exact outp_calm
    · exact illTyped_calm
  case checked =>
    dsimp only [applyFn, withN]
    split
    · exact outB_calm (checked_calm)
    · exact illTyped_calm
  case endlessName =>
    dsimp only [applyFn, withT]
    split
    · exact outB_calm (endlessName_calm.any)
    · exact illTyped_calm
  case kwargName =>
    dsimp only [applyFn, withT]
    split
    · exact outB_calm ((kwargName_calm (h.1.name rfl)).any)
    · exact illTyped_calm
  case singletonExpr =>
    dsimp only [applyFn, withN]
    split
    · exact outB_calm (singletonExpr_calm)
    · exact illTyped_calm
  case argsType =>
    dsimp only [applyFn, withP]
    split
    · exact outB_calm (argsType_calm)
    · exact illTyped_calm
  case noParens =>
    dsimp only [applyFn, withNone]
    split
    · exact outp_calm
    · exact illTyped_calm
  case someParens =>
    dsimp only [applyFn, withTLT]
    split
    · exact outp_calm
    · exact illTyped_calm
  case noExc =>
    dsimp only [applyFn, withNone]
    split
    · exact outp_calm
    · exact illTyped_calm
  case someExc =>
    dsimp only [applyFn, withTN]
    split
    · exact outp_calm
    · exact illTyped_calm
  case elseTail =>
    dsimp only [applyFn, withOP]
    split
    · exact outp_calm
    · exact illTyped_calm
  case elsifTail =>
    dsimp only [applyFn, withTNTPI]
    split
    · exact outp_calm
    · exact illTyped_calm
  case plainLabel =>
    dsimp only [applyFn, withT]
    split
    · exact outp_calm
    · exact illTyped_calm
  case quotedLabel =>
    dsimp only [applyFn, withTLT]
    split
    · exact outp_calm
    · exact illTyped_calm
  case nil =>
    dsimp only [applyFn, withT]
    split
    · exact outp_calm
    · exact illTyped_calm
  case true_ =>
    dsimp only [applyFn, withT]
    split
    · exact outp_calm
    · exact illTyped_calm
  case false_ =>
    dsimp only [applyFn, withT]
    split
    · exact outp_calm
    · exact illTyped_calm
  case line =>
    dsimp only [applyFn, withT]
    split
    · exact outp_calm
    · exact illTyped_calm
  case file =>
    dsimp only [applyFn, withT]
    split
    · exact outp_calm
    · exact illTyped_calm
  case self_ =>
    dsimp only [applyFn, withT]
    split
    · exact outp_calm
    · exact illTyped_calm
  case encoding =>
    dsimp only [applyFn, withT]
    split
    · exact outp_calm
    · exact illTyped_calm
  case forwardArg =>
    dsimp only [applyFn, withT]
    split
    · exact outp_calm
    · exact illTyped_calm
  case forwardedArgs =>
    dsimp only [applyFn, withT]
    split
    · exact outp_calm
    · exact illTyped_calm
  case stringInternal =>
    dsimp only [applyFn, withT]
    split
    · exact outp_calm
    · exact illTyped_calm
  case integer =>
    dsimp only [applyFn, withT]
    split
    · exact outR_calm (integer_calm (h.1.text rfl))
    · exact illTyped_calm
  case float =>
    dsimp only [applyFn, withT]
    split
    · exact outR_calm (float_calm (h.1.text rfl))
    · exact illTyped_calm
  case rational =>
    dsimp only [applyFn, withT]
    split
    · exact outR_calm (rational_calm (h.1.text rfl))
    · exact illTyped_calm
  case complex =>
    dsimp only [applyFn, withT]
    split
    · exact outR_calm (complex_calm (h.1.text rfl))
    · exact illTyped_calm
  case lvar =>
    dsimp only [applyFn, withT]
    split
    · exact outR_calm (lvar_calm (h.1.text rfl))
    · exact illTyped_calm
  case ivar =>
    dsimp only [applyFn, withT]
    split
    · exact outR_calm (ivar_calm (h.1.text rfl))
    · exact illTyped_calm
  case gvar =>
    dsimp only [applyFn, withT]
    split
    · exact outR_calm (gvar_calm (h.1.text rfl))
    · exact illTyped_calm
  case cvar =>
    dsimp only [applyFn, withT]
    split
    · exact outR_calm (cvar_calm (h.1.text rfl))
    · exact illTyped_calm
  case backRef =>
    dsimp only [applyFn, withT]
    split
    · exact outR_calm (backRef_calm (h.1.text rfl))
    · exact illTyped_calm
  case const_ =>
    dsimp only [applyFn, withT]
    split
    · exact outR_calm (const_calm (h.1.text rfl))
    · exact illTyped_calm
  case constFetch =>
    dsimp only [applyFn, withNTT]
    split
    · exact outR_calm (constFetch_calm (h.2.2.1.text rfl))
    · exact illTyped_calm
  case constGlobal =>
    dsimp only [applyFn, withTT]
    split
    · exact outR_calm (constGlobal_calm (h.2.1.text rfl))
    · exact illTyped_calm
  case arg =>
    dsimp only [applyFn, withT]
    split
    · exact outB_calm (arg_calm (h.1.text rfl))
    · exact illTyped_calm
  case shadowarg =>
    dsimp only [applyFn, withT]
    split
    · exact outB_calm (shadowarg_calm (h.1.text rfl))
    · exact illTyped_calm
  case optarg =>
    dsimp only [applyFn, withTTN]
    split
    · exact outB_calm (optarg_calm (h.1.text rfl))
    · exact illTyped_calm
  case kwnilarg =>
    dsimp only [applyFn, withTT]
    split
    · exact outp_calm
    · exact illTyped_calm
  case «alias» =>
    dsimp only [applyFn, withTNN]
    split
    · exact outp_calm
    · exact illTyped_calm
  case pair =>
    dsimp only [applyFn, withNTN]
    split
    · exact outp_calm
    · exact illTyped_calm
  case kwsplat =>
    dsimp only [applyFn, withTN]
    split
    · exact outp_calm
    · exact illTyped_calm
  case multiAssign =>
    dsimp only [applyFn, withNTN]
    split
    · exact outp_calm
    · exact illTyped_calm
  case defClass =>
    dsimp only [applyFn, withTNOPPT]
    split
    · exact outp_calm
    · exact illTyped_calm
  case defSclass =>
    dsimp only [applyFn, withTTNPT]
    split
    · exact outp_calm
    · exact illTyped_calm
  case defModule =>
    dsimp only [applyFn, withTNPT]
    split
    · exact outp_calm
    · exact illTyped_calm
  case defMethod =>
    dsimp only [applyFn, withTTPPT]
    split
    · exact outB_calm (defMethod_calm (h.2.1.text rfl))
    · exact illTyped_calm
  case defSingleton =>
    dsimp only [applyFn, withTNTTPPT]
    split
    · exact outB_calm (defSingleton_calm (h.2.2.2.1.text rfl))
    · exact illTyped_calm
  case indexAsgn =>
    dsimp only [applyFn, withNTLT]
    split
    · exact outp_calm
    · exact illTyped_calm
  case ternary =>
    dsimp only [applyFn, withNTNTN]
    split
    · exact outp_calm
    · exact illTyped_calm
  case «case» =>
    dsimp only [applyFn, withTPLOPT]
    split
    · exact outp_calm
    · exact illTyped_calm
  case for_ =>
    dsimp only [applyFn, withTNTNTPT]
    split
    · exact outp_calm
    · exact illTyped_calm
  case preexe =>
    dsimp only [applyFn, withTTPT]
    split
    · exact outp_calm
    · exact illTyped_calm
  case postexe =>
    dsimp only [applyFn, withTTPT]
    split
    · exact outp_calm
    · exact illTyped_calm
  case matchPattern =>
    dsimp only [applyFn, withNTN]
    split
    · exact outp_calm
    · exact illTyped_calm
  case matchPatternP =>
    dsimp only [applyFn, withNTN]
    split
    · exact outp_calm
    · exact illTyped_calm
  case ifGuard =>
    dsimp only [applyFn, withTN]
    split
    · exact outp_calm
    · exact illTyped_calm
  case unlessGuard =>
    dsimp only [applyFn, withTN]
    split
    · exact outp_calm
    · exact illTyped_calm
  case constPattern =>
    dsimp only [applyFn, withNTNT]
    split
    · exact outp_calm
    · exact illTyped_calm
  case pin =>
    dsimp only [applyFn, withTN]
    split
    · exact outp_calm
    · exact illTyped_calm
  case matchAlt =>
    dsimp only [applyFn, withNTN]
    split
    · exact outp_calm
    · exact illTyped_calm
  case matchAs =>
    dsimp only [applyFn, withNTN]
    split
    · exact outp_calm
    · exact illTyped_calm
  case matchNilPattern =>
    dsimp only [applyFn, withTT]
    split
    · exact outp_calm
    · exact illTyped_calm
  case wordsCompose =>
    dsimp only [applyFn, withTLT]
    split
    · exact outp_calm
    · exact illTyped_calm
  case character =>
    dsimp only [applyFn, withT]
    split
    · exact outp_calm
    · exact illTyped_calm
  case splat =>
    dsimp only [applyFn, withTP]
    split
    · exact outp_calm
    · exact illTyped_calm
  case blockPass =>
    dsimp only [applyFn, withTP]
    split
    · exact outp_calm
    · exact illTyped_calm
  case rangeInclusive =>
    dsimp only [applyFn, withPTP]
    split
    · exact outp_calm
    · exact illTyped_calm
  case rangeExclusive =>
    dsimp only [applyFn, withPTP]
    split
    · exact outp_calm
    · exact illTyped_calm
  case restarg =>
    dsimp only [applyFn, withTO]
    split
    · exact outB_calm (restarg_calm (fun t e => (h.2.1 t e).text rfl))
    · exact illTyped_calm
  case kwrestarg =>
    dsimp only [applyFn, withTO]
    split
    · exact outB_calm (kwrestarg_calm (fun t e => (h.2.1 t e).text rfl))
    · exact illTyped_calm
  case blockarg =>
    dsimp only [applyFn, withTO]
    split
    · exact outB_calm (blockarg_calm (fun t e => (h.2.1 t e).text rfl))
    · exact illTyped_calm
  case unaryNum =>
    dsimp only [applyFn, withTN]
    split
    · exact outR_calm (unaryNum_calm (h.1.text rfl))
    · exact illTyped_calm
  case symbol =>
    dsimp only [applyFn, withTT]
    split
    · exact outM_calm (symbol_calm)
    · exact illTyped_calm
  case symbolInternal =>
    dsimp only [applyFn, withT]
    split
    · exact outM_calm (symbolInternal_calm)
    · exact illTyped_calm
  case nthRef =>
    dsimp only [applyFn, withT]
    split
    · exact outM_calm (nthRef_calm (h.1.text rfl) (h.1.ref rfl))
    · exact illTyped_calm
  case matchVar =>
    dsimp only [applyFn, withT]
    split
    · exact outB_calm (matchVar_calm (h.1.text rfl) (h.1.name rfl))
    · exact illTyped_calm
  case array =>
    dsimp only [applyFn, withOLO]
    split
    · exact outR_calm (array_calm)
    · exact illTyped_calm
  case multiLhs =>
    dsimp only [applyFn, withOLO]
    split
    · exact outR_calm (multiLhs_calm)
    · exact illTyped_calm
  case hashPattern =>
    dsimp only [applyFn, withOLO]
    split
    · exact outR_calm (hashPattern_calm)
    · exact illTyped_calm
  case findPattern =>
    dsimp only [applyFn, withOLO]
    split
    · exact outR_calm (findPattern_calm)
    · exact illTyped_calm
  case associate =>
    dsimp only [applyFn, withOLO]
    split
    · exact outM_calm (associate_calm)
    · exact illTyped_calm
  case args =>
    dsimp only [applyFn, withOLO]
    split
    · exact outM_calm (args_calm.index rfl)
    · exact illTyped_calm
  case arrayPattern =>
    dsimp only [applyFn, withOLOO]
    split
    · exact outR_calm (arrayPattern_calm)
    · exact illTyped_calm
  case logical k =>
    dsimp only [applyFn, withNTN]
    split
    · exact outB_calm (logicalOp_calm)
    · exact illTyped_calm
  case binaryOp =>
    dsimp only [applyFn, withNTN]
    split
    · exact outB_calm (binaryOp_calm (h.2.1.text rfl))
    · exact illTyped_calm
  case unaryOp =>
    dsimp only [applyFn, withTN]
    split
    · exact outB_calm (unaryOp_calm (h.1.text rfl))
    · exact illTyped_calm
  case matchOp =>
    dsimp only [applyFn, withNTN]
    split
    · exact outB_calm (matchOp_calm)
    · exact illTyped_calm
  case notOp =>
    dsimp only [applyFn, withTN]
    split
    · exact outB_calm (notOp_calm)
    · exact illTyped_calm
  case notParen =>
    dsimp only [applyFn, withTTNT]
    split
    · exact outB_calm (notOp_calm)
    · exact illTyped_calm
  case notEmpty =>
    dsimp only [applyFn, withTTT]
    split
    · exact outB_calm (notOp_calm)
    · exact illTyped_calm
  case ifMod =>
    dsimp only [applyFn, withNTN]
    split
    · exact outR_calm (conditionMod_calm)
    · exact illTyped_calm
  case unlessMod =>
    dsimp only [applyFn, withNTN]
    split
    · exact outR_calm (conditionMod_calm)
    · exact illTyped_calm
  case loopMod k =>
    dsimp only [applyFn, withNTN]
    split
    · exact outp_calm
    · exact illTyped_calm
  case loop_ k =>
    dsimp only [applyFn, withTNTPT]
    split
    · exact outp_calm
    · exact illTyped_calm
  case condition =>
    dsimp only [applyFn, withTNTPIT]
    split
    · exact outp_calm
    · exact illTyped_calm
  case unless_ =>
    dsimp only [applyFn, withTNTPOPT]
    split
    · exact outp_calm
    · exact illTyped_calm
  case when =>
    dsimp only [applyFn, withTLTP]
    split
    · exact outp_calm
    · exact illTyped_calm
  case inPattern =>
    dsimp only [applyFn, withTNPTP]
    split
    · exact outp_calm
    · exact illTyped_calm
  case caseMatch =>
    dsimp only [applyFn, withTNLOPT]
    split
    · exact outp_calm
    · exact illTyped_calm
  case rescueClause =>
    dsimp only [applyFn, withTLETP]
    split
    · exact outR_calm (rescueClause_calm)
    · exact illTyped_calm
  case rescueModOpt =>
    dsimp only [applyFn, withNTN]
    split
    · exact outR_calm (rescueMod_calm)
    · exact illTyped_calm
  case rescueMod =>
    dsimp only [applyFn, withNTN]
    split
    · exact outR_calm (rescueMod!_calm)
    · exact illTyped_calm
  case compstmt =>
    dsimp only [applyFn, withL]
    split
    · exact outR_calm (compstmt_calm)
    · exact illTyped_calm
  case «begin» =>
    dsimp only [applyFn, withTPT]
    split
    · exact outp_calm
    · exact illTyped_calm
  case beginKeyword =>
    dsimp only [applyFn, withTPT]
    split
    · exact outp_calm
    · exact illTyped_calm
  case bodystmtElse =>
    dsimp only [applyFn, withPLTPOP]
    split
    · exact outB_calm (bodystmtElse_calm)
    · exact illTyped_calm
  case bodystmt =>
    dsimp only [applyFn, withPLOP]
    split
    · exact outR_calm (beginBody_calm)
    · exact illTyped_calm
  case accessible =>
    dsimp only [applyFn, withN]
    split
    · exact outM_calm (accessible_calm)
    · exact illTyped_calm
  case assignable =>
    dsimp only [applyFn, withN]
    split
    · exact outB_calm (assignable_calm)
    · exact illTyped_calm
  case constOpAssignable =>
    dsimp only [applyFn, withN]
    split
    · exact outR_calm (constOpAssignable_calm)
    · exact illTyped_calm
  case assign =>
    dsimp only [applyFn, withNTN]
    split
    · exact outR_calm (assign_calm)
    · exact illTyped_calm
  case opAssign =>
    dsimp only [applyFn, withNTN]
    split
    · exact outB_calm (opAssign_calm (h.2.1.text rfl))
    · exact illTyped_calm
  case defEndless =>
    dsimp only [applyFn, withTTPTP]
    split
    · exact outB_calm (defEndlessMethod_calm (h.2.1.text rfl))
    · exact illTyped_calm
  case defEndlessSingleton =>
    dsimp only [applyFn, withTNTTPTP]
    split
    · exact outB_calm (defEndlessSingleton_calm (h.2.2.2.1.text rfl))
    · exact illTyped_calm
  case undefMethod =>
    dsimp only [applyFn, withTL]
    split
    · exact outp_calm
    · exact illTyped_calm
  case kwarg =>
    dsimp only [applyFn, withT]
    split
    · exact outB_calm (kwarg_calm (h.1.text rfl) (h.1.label rfl).1 (h.1.label rfl).2)
    · exact illTyped_calm
  case kwoptarg =>
    dsimp only [applyFn, withTN]
    split
    · exact outB_calm (kwoptarg_calm (h.1.text rfl) (h.1.label rfl).1 (h.1.label rfl).2)
    · exact illTyped_calm
  case procargs =>
    dsimp only [applyFn, withLL]
    split
    · exact outR_calm (procargs_calm)
    · exact illTyped_calm
  case callDot =>
    dsimp only [applyFn, withNTTL]
    split
    · exact outR_calm (callMethod_calm (fun t e => by cases e; exact h.2.2.1.text rfl) (fun e => by first | rfl | cases e))
    · exact illTyped_calm
  case callFn =>
    dsimp only [applyFn, withTL]
    split
    · exact outR_calm (callMethod_calm (fun t e => by cases e; exact h.1.text rfl) (fun e => by first | rfl | cases e))
    · exact illTyped_calm
  case callFnParen =>
    dsimp only [applyFn, withTTLT]
    split
    · exact outR_calm (callMethod_calm (fun t e => by cases e; exact h.1.text rfl) (fun e => by first | rfl | cases e))
    · exact illTyped_calm
  case callDotParen =>
    dsimp only [applyFn, withNTTTLT]
    split
    · exact outR_calm (callMethod_calm (fun t e => by cases e; exact h.2.2.1.text rfl) (fun e => by first | rfl | cases e))
    · exact illTyped_calm
  case callDotOpt =>
    dsimp only [applyFn, withNTTG]
    split
    · exact outR_calm (callMethod_calm (fun t e => by cases e; exact h.2.2.1.text rfl) (fun e => by first | rfl | cases e))
    · exact illTyped_calm
  case callParen =>
    dsimp only [applyFn, withNTTLT]
    split
    · exact outR_calm (callMethod_calm (fun t e => by cases e) (fun e => by cases e))
    · exact illTyped_calm
  case block =>
    dsimp only [applyFn, withNTAPT]
    split
    · exact outB_calm (block_calm (hb _ rfl _ rfl).1 (hb _ rfl _ rfl).2.1 (hb _ rfl _ rfl).2.2)
    · exact illTyped_calm
  case lambda =>
    dsimp only [applyFn, withTATPT]
    split
    · exact outB_calm (block_calm (fun _ _ _ e => by cases e) (fun _ _ _ e => by cases e) (fun _ _ _ e => by cases e))
    · exact illTyped_calm
  case attrAsgn =>
    dsimp only [applyFn, withNTT]
    split
    · exact outR_calm (attrAsgn_calm (h.2.2.1.text rfl))
    · exact illTyped_calm
  case attrAsgnMasgn =>
    dsimp only [applyFn, withNTT]
    split
    · exact outB_calm (attrAsgnMasgn_calm (h.2.2.1.text rfl))
    · exact illTyped_calm
  case index =>
    dsimp only [applyFn, withNTLT]
    split
    · exact outR_calm (index_calm)
    · exact illTyped_calm
  case keyword k =>
    dsimp only [applyFn, withTL]
    split
    · exact outB_calm (keywordCmd_calm fun e => hk (by rw [e]; exact .inl rfl) _ (by simp))
    · exact illTyped_calm
  case keywordParen k =>
    dsimp only [applyFn, withTTLT]
    split
    · exact outB_calm (keywordCmd_calm fun e => hk (by rw [e]; exact .inr rfl) _ (by simp))
    · exact illTyped_calm
  case mlhsInner =>
    dsimp only [applyFn, withTNT]
    split
    · exact outR_calm (mlhsInner_calm)
    · exact illTyped_calm
  case strings =>
    dsimp only [applyFn, withL]
    split
    · exact outR_calm (strings_calm)
    · exact illTyped_calm
  case string1 =>
    dsimp only [applyFn, withTLT]
    split
    · exact outR_calm (string1_calm hi)
    · exact illTyped_calm
  case xstring =>
    dsimp only [applyFn, withTLT]
    split
    · exact outR_calm (heredocDedent_calm hi)
    · exact illTyped_calm
  case regexp =>
    dsimp only [applyFn, withTLT]
    split
    · exact outM_calm (regexp_calm (h.2.2.1.text rfl) (h.2.2.1.opts rfl).1 (h.2.2.1.opts rfl).2)
    · exact illTyped_calm
  case word =>
    dsimp only [applyFn, withL]
    split
    · exact outR_calm (word_calm)
    · exact illTyped_calm
  case symbolsCompose =>
    dsimp only [applyFn, withTLT]
    split
    · exact outM_calm (symbolsCompose_calm)
    · exact illTyped_calm
  case symbolCompose =>
    dsimp only [applyFn, withTLT]
    split
    · exact outM_calm (symbolCompose_calm)
    · exact illTyped_calm
  case pairKeyword =>
    dsimp only [applyFn, withTN]
    split
    · exact outM_calm (pairKeyword_calm (h.1.label rfl).1 (h.1.label rfl).2)
    · exact illTyped_calm
  case pairLabel =>
    dsimp only [applyFn, withT]
    split
    · exact outM_calm (pairLabel_calm (h.1.text rfl) (h.1.name rfl) (h.1.label rfl).1 (h.1.label rfl).2)
    · exact illTyped_calm
  case pairQuoted =>
    dsimp only [applyFn, withTLTN]
    split
    · exact outM_calm (pairQuoted_calm (h.2.2.1.quote rfl))
    · exact illTyped_calm
  case matchRest =>
    dsimp only [applyFn, withTO]
    split
    · exact outB_calm (matchRest_calm (fun t e => ⟨(h.2.1 t e).text rfl, (h.2.1 t e).name rfl⟩))
    · exact illTyped_calm
  case matchPair =>
    dsimp only [applyFn, withKN]
    split
    · exact outB_calm (matchPair_calm (fun t e => by subst e; exact h.1.label rfl) (fun a l t e => by subst e; exact h.1.quote rfl))
    · exact illTyped_calm
  case matchLabel =>
    dsimp only [applyFn, withK]
    split
    · next x0 =>
      cases x0 with
      | PlainLabel t => exact outB_calm (matchHashVar_calm (h.1.text rfl) (h.1.name rfl) (h.1.label rfl).1 (h.1.label rfl).2)
      | QuotedLabel a l t => exact absurd rfl (hm rfl a l t)
    · exact illTyped_calm
  case constPatternEmpty =>
    dsimp only [applyFn, withNTT]
    split
    · exact outR_calm (constPatternEmpty_calm)
    · exact illTyped_calm
end Verif
