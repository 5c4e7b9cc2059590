import Verif.Lemmas.CalmBuild
/-!
The functions of the builder are `Calm` on tokens that are well read, second part.
-/
namespace Verif
open Builder Grammar

variable {i : Prop} {p : Bool}

/-- The value is UTF-8. -/
abbrev IsText (t : Token) : Prop := Utf8.valid t.tokenValue = true

/-! ### Literals -/

theorem integer_calm (h : IsText t) : Res.Calm i (integer t) Any := by unfold integer; calm
theorem float_calm (h : IsText t) : Res.Calm i (Builder.float t) Any := by unfold Builder.float; calm
theorem rational_calm (h : IsText t) : Res.Calm i (rational t) Any := by unfold rational; calm
theorem complex_calm (h : IsText t) : Res.Calm i (complex t) Any := by unfold complex; calm
theorem unaryNum_calm (h : IsText t) : Res.Calm i (unaryNum t n) Any := by unfold unaryNum; calm
theorem strNode_calm : Res.Calm i (strNode (some b) v l (some e)) Any := by unfold strNode; calm
theorem stringComposeMany_calm : Res.Calm i (stringComposeMany (some b) l (some e)) Any := by unfold stringComposeMany; calm
theorem stringCompose_calm : Res.Calm i (stringCompose (some b) l (some e)) Any := by
  unfold stringCompose
  repeat' first | calm1 | exact strNode_calm | exact stringComposeMany_calm | split
theorem strings_calm : Res.Calm i (stringCompose none l none) Any := by
  unfold stringCompose strNode stringComposeMany isHeredoc
  calm
theorem symbol_calm : BldM.Calm i p (symbol a b) Any := BldM.calm_bind validateSymValue_calm fun _ _ => BldM.calm_pure trivial
theorem symbolInternal_calm : BldM.Calm i p (symbolInternal a) Any := BldM.calm_bind validateSymValue_calm fun _ _ => BldM.calm_pure trivial
theorem symbolCompose_calm : BldM.Calm i p (symbolCompose a l b) Any := by
  unfold symbolCompose
  repeat' first | calm1 | (refine BldM.calm_bind validateSymValue_calm fun _ _ => ?_) | split
theorem dedentHeredocParts_calm : Res.Calm i (dedentHeredocParts w l) Any := by
  induction l with
  | nil => trivial
  | cons n l ih =>
    unfold dedentHeredocParts
    split
    case h_8 => exact Res.calm_error
    all_goals exact Res.calm_bind ih fun _ _ => trivial
theorem heredocDedent_calm (h : 0 ≤ k) : Res.Calm i (heredocDedent n k) Any := by
  unfold heredocDedent
  split
  · trivial
  · split
    · omega
    · split
      · exact Res.calm_bind dedentHeredocParts_calm fun _ _ => trivial
      · exact Res.calm_bind dedentHeredocParts_calm fun _ _ => trivial
      · exact Res.calm_error
theorem string1_calm (h : 0 ≤ k) : Res.Calm i (string1 k a l b) Any :=
  Res.calm_bind stringCompose_calm fun _ _ => heredocDedent_calm h
theorem regexpOptions_calm (h : IsText t) (h1 : t.loc.begin ≤ t.loc.stop) (h2 : t.loc.begin + 1 < 2 ^ 31) :
    Res.Calm i (regexpOptions t) Any := by
  unfold regexpOptions
  refine Res.calm_bind (csub_calm h1).any fun _ _ => ?_
  split
  · calm
  · exact Res.calm_bind (adjustBegin_calm h2) fun _ _ => Res.calm_bind (value_calm h).any fun _ _ => Res.calm_pure trivial
theorem regexpCompose_calm : BldM.Calm i p (regexpCompose ext a l b o) Any := by
  unfold regexpCompose
  dsimp only
  split
  · exact BldM.calm_bind validateStaticRegexp_calm fun _ _ => BldM.calm_pure trivial
  · exact BldM.calm_bind validateStaticRegexp_calm fun _ _ => BldM.calm_pure trivial
  · exact BldM.calm_bind (P := Any) BldM.calm_panic fun _ _ => BldM.calm_pure trivial
theorem regexp_calm (h : IsText t) (h1 : t.loc.begin ≤ t.loc.stop) (h2 : t.loc.begin + 1 < 2 ^ 31) :
    BldM.Calm i p (do { let o ← liftR (regexpOptions t); regexpCompose ext a l t o }) Any :=
  BldM.calm_bind (BldM.calm_liftR (regexpOptions_calm h h1 h2)) fun _ _ => regexpCompose_calm

/-! ### Arrays and hashes -/

theorem array_calm : Res.Calm i (array b l e) Any := by unfold array; calm
theorem word_calm : Res.Calm i (word l) Any := by unfold word; calm
theorem symbolPart_calm : BldM.Calm i p (symbolPart n) Any := by
  unfold symbolPart
  repeat' first | calm1 | (refine BldM.calm_bind validateSymValue_calm fun _ _ => ?_) | split
theorem symbolParts_calm {l : List Node} : BldM.Calm i p (l.mapM symbolPart) Any := by
  induction l with
  | nil => exact BldM.calm_pure trivial
  | cons n l ih =>
    rw [List.mapM_cons]
    exact BldM.calm_bind symbolPart_calm fun _ _ => BldM.calm_bind ih fun _ _ => BldM.calm_pure trivial
theorem symbolsCompose_calm : BldM.Calm i p (symbolsCompose a l b) Any := BldM.calm_bind symbolParts_calm fun _ _ => BldM.calm_pure trivial
theorem pairKeyword_calm (h1 : 1 ≤ t.loc.stop) (h2 : t.loc.stop < 2 ^ 31) : BldM.Calm i p (pairKeyword t n) Any := by
  unfold pairKeyword
  refine BldM.calm_bind (BldM.calm_liftR (adjustEnd_calm h1 h2)) fun _ _ => ?_
  refine BldM.calm_bind (BldM.calm_liftR (csub_calm h1)) fun _ _ => ?_
  exact BldM.calm_bind validateSymValue_calm fun _ _ => BldM.calm_pure trivial
theorem pairQuoted_calm (h : 2 ≤ t.loc.stop) : BldM.Calm i p (pairQuoted a l t n) Any := by
  unfold pairQuoted
  refine BldM.calm_bind (BldM.calm_liftR (csub_calm h)) fun _ _ => ?_
  refine BldM.calm_bind (BldM.calm_liftR (csub_calm (by omega))) fun _ _ => ?_
  refine BldM.calm_bind (BldM.calm_liftR (csub_calm (by omega))) fun _ _ => ?_
  exact BldM.calm_bind symbolCompose_calm fun _ _ => BldM.calm_pure trivial
theorem accessible_calm : BldM.Calm i p (accessible n) Any := by
  unfold accessible
  split
  · have rest : ∀ (name : Text) (x : Loc), BldM.Calm i p (do
        if ← tryDeclareNumparam name x then return .Lvar name x
        let s ← get
        if !s.staticEnv.isDeclared name then
          return .Send none name [] none (some x) none none none x
        if s.currentArg.top = some name then error (.CircularArgumentReference name) x
        return .Lvar name x : BldM Node) Any := by
      intro name x
      refine BldM.calm_bind tryDeclareNumparam_calm fun _ _ => ?_
      calm
    split
    · exact BldM.calm_bind BldM.calm_error fun _ _ => rest _ _
    · exact rest _ _
  · calm
theorem pairLabel_calm (h : IsText t) (h0 : t.tokenValue ≠ []) (h1 : 1 ≤ t.loc.stop) (h2 : t.loc.stop < 2 ^ 31) :
    BldM.Calm i p (pairLabel ext t) Any := by
  unfold pairLabel
  refine BldM.calm_bind (BldM.calm_liftR (adjustEnd_calm h1 h2)) fun _ _ => ?_
  refine BldM.calm_bind (BldM.calm_liftR (value_calm h)) fun v hv => ?_
  split
  · exact absurd hv.symm (lossy_ne h0)
  · exact BldM.calm_bind accessible_calm fun _ _ => pairKeyword_calm h1 h2
theorem associate_calm : BldM.Calm i p (associate b l e) Any :=
  BldM.calm_bind warnAllDuplicateKeys_calm fun _ _ => BldM.calm_bind (BldM.calm_liftR collectionMap_calm) fun _ _ => BldM.calm_pure trivial

/-! ### Access and assignments -/

theorem lvar_calm (h : IsText t) : Res.Calm i (lvar t) Any := by unfold lvar; calm
theorem ivar_calm (h : IsText t) : Res.Calm i (ivar t) Any := by unfold ivar; calm
theorem gvar_calm (h : IsText t) : Res.Calm i (gvar t) Any := by unfold gvar; calm
theorem cvar_calm (h : IsText t) : Res.Calm i (cvar t) Any := by unfold cvar; calm
theorem backRef_calm (h : IsText t) : Res.Calm i (backRef t) Any := by unfold backRef; calm
theorem nthRef_calm (h : IsText t) (h1 : ∃ c rest, t.tokenValue = c :: rest ∧ c < 128) : BldM.Calm i p (nthRef t) Any := by
  unfold nthRef
  refine BldM.calm_bind (BldM.calm_liftR (value_calm h)) fun v hv => ?_
  obtain ⟨c, rest, h2, h3⟩ := h1
  rw [h2, Utf8.lossy_cons_ascii (by simpa [UInt8.lt_iff_toNat_lt] using h3)] at hv
  subst hv
  refine BldM.calm_bind (P := Any) (BldM.calm_liftR ?_) fun _ _ => ?_
  · unfold dropFirstByte
    dsimp only
    rw [if_pos (by simpa [UInt8.lt_iff_toNat_lt] using h3)]
    trivial
  · dsimp only
    calm
theorem const_calm (h : IsText t) : Res.Calm i (const_ t) Any := by unfold const_; calm
theorem constGlobal_calm (h : IsText t) : Res.Calm i (constGlobal a t) Any := by unfold constGlobal; calm
theorem constFetch_calm (h : IsText t) : Res.Calm i (constFetch n a t) Any := by unfold constFetch; calm
theorem assignable_calm : BldR.Calm i p (assignable n) Any := by
  unfold assignable
  repeat' first
    | calm1
    | (refine BldR.calm_bind checkAssignmentToNumparam_calm fun _ _ => ?_)
    | (refine BldR.calm_bind checkReservedForNumparam_calm fun _ _ => ?_)
    | (refine BldR.calm_bind (BldR.calm_modify fun s h => h) fun _ _ => ?_)
    | split
theorem constOpAssignable_calm : Res.Calm i (constOpAssignable n) Any := by unfold constOpAssignable; calm
theorem assign_calm : Res.Calm i (assign n t m) Any := by unfold assign; dsimp only; calm
theorem opAssignLhs_calm : BldR.Calm i p (opAssignLhs n) Any := by unfold opAssignLhs; calm
theorem opAssign_calm (h : IsText t) : BldR.Calm i p (opAssign n t m) Any := by
  unfold opAssign
  refine BldR.calm_bind (BldR.calm_lift (BldM.calm_liftR (value_calm h).any)) fun _ _ => ?_
  refine BldR.calm_bind opAssignLhs_calm fun _ _ => ?_
  calm
theorem multiLhs_calm : Res.Calm i (multiLhs b l e) Any := by unfold multiLhs; calm

/-! ### Definitions and parameters -/

theorem named_calm {f : Text → BldR Node} (h : IsText t) (hf : ∀ v, BldR.Calm i p (f v) Any) :
    BldR.Calm i p (do { let name ← (liftR (value t) : BldM Text); checkReservedForNumparam name l; f name }) Any :=
  BldR.calm_bind (BldR.calm_lift (BldM.calm_liftR (value_calm h).any)) fun _ _ =>
    BldR.calm_bind checkReservedForNumparam_calm fun _ _ => hf _
theorem defMethod_calm (h : IsText t) : BldR.Calm i p (defMethod a t b c d) Any := named_calm h fun _ => BldR.calm_pure trivial
theorem defSingleton_calm (h : IsText t) : BldR.Calm i p (defSingleton a n b t c d e) Any := named_calm h fun _ => BldR.calm_pure trivial
theorem defEndlessMethod_calm (h : IsText t) : BldR.Calm i p (defEndlessMethod a t b c d) Any := by
  unfold defEndlessMethod
  split
  · calm
  · exact named_calm h fun _ => BldR.calm_pure trivial
theorem defEndlessSingleton_calm (h : IsText t) : BldR.Calm i p (defEndlessSingleton a n b t c d e) Any := by
  unfold defEndlessSingleton
  split
  · calm
  · exact named_calm h fun _ => BldR.calm_pure trivial
theorem arg_calm (h : IsText t) : BldR.Calm i p (arg t) Any := named_calm h fun _ => BldR.calm_pure trivial
theorem optarg_calm (h : IsText t) : BldR.Calm i p (optarg t a n) Any := named_calm h fun _ => BldR.calm_pure trivial
theorem shadowarg_calm (h : IsText t) : BldR.Calm i p (shadowarg t) Any := named_calm h fun _ => BldR.calm_pure trivial
theorem kwarg_calm (h : IsText t) (h1 : 1 ≤ t.loc.stop) (h2 : t.loc.stop < 2 ^ 31) : BldR.Calm i p (kwarg t) Any :=
  named_calm h fun _ => BldR.calm_bind (BldR.calm_lift (BldM.calm_liftR (adjustEnd_calm h1 h2))) fun _ _ => BldR.calm_pure trivial
theorem kwoptarg_calm (h : IsText t) (h1 : 1 ≤ t.loc.stop) (h2 : t.loc.stop < 2 ^ 31) : BldR.Calm i p (kwoptarg t n) Any :=
  named_calm h fun _ => BldR.calm_bind (BldR.calm_lift (BldM.calm_liftR (adjustEnd_calm h1 h2))) fun _ _ => BldR.calm_pure trivial
theorem checkedName_calm {o : Option Token} (h : ∀ t, o = some t → IsText t) : BldR.Calm i p (checkedName o) Any := by
  unfold checkedName
  split
  · calm
  · exact BldR.calm_bind (BldR.calm_lift (BldM.calm_liftR (value_calm (h _ rfl)).any)) fun _ _ =>
      BldR.calm_bind checkReservedForNumparam_calm fun _ _ => BldR.calm_pure trivial
theorem restarg_calm {o : Option Token} (h : ∀ t, o = some t → IsText t) : BldR.Calm i p (restarg a o) Any :=
  BldR.calm_bind (checkedName_calm h) fun _ _ => BldR.calm_pure trivial
theorem kwrestarg_calm {o : Option Token} (h : ∀ t, o = some t → IsText t) : BldR.Calm i p (kwrestarg a o) Any :=
  BldR.calm_bind (checkedName_calm h) fun _ _ => BldR.calm_pure trivial
theorem blockarg_calm {o : Option Token} (h : ∀ t, o = some t → IsText t) : BldR.Calm i p (blockarg a o) Any := by
  unfold blockarg
  refine BldR.calm_bind (BldR.calm_lift (BldM.calm_liftR (maybeValue_calm h))) fun _ _ => ?_
  dsimp only
  split
  · exact BldR.calm_bind checkReservedForNumparam_calm fun _ _ => BldR.calm_pure trivial
  · calm
theorem procarg0_calm : Res.Calm i (procarg0 n) Any := by unfold procarg0; calm
theorem procargs_calm : Res.Calm i (procargs l m) Any := by
  unfold procargs
  split
  · exact Res.calm_bind procarg0_calm fun _ _ => trivial
  · trivial

/-! ### Calls -/

theorem callMethod_calm {r : Option Node} {d s : Option Token} (h : ∀ t, s = some t → IsText t) (hr : r = none → d = none) :
    Res.Calm i (callMethod r d s a l b) Any := by
  unfold callMethod
  refine Res.calm_bind orUnreachable_calm fun _ _ => ?_
  refine Res.calm_bind orUnreachable_calm fun _ _ => ?_
  refine Res.calm_bind (maybeValue_calm h) fun _ _ => ?_
  refine Res.calm_bind rewriteHashArgsToKwargs_calm fun _ _ => ?_
  split
  · trivial
  · next e =>
    cases d with
    | none => simp [callTypeForDot] at e
    | some d =>
      cases r with
      | none => exact absurd (hr rfl) nofun
      | some r => trivial
theorem validateBlockAndBlockArg_calm : BldR.Calm i p (validateBlockAndBlockArg l) Any := by
  unfold validateBlockAndBlockArg; calm
theorem blockChecks_calm : BldR.Calm i p (blockChecks n) Any := by
  unfold blockChecks
  repeat' first | calm1 | exact validateBlockAndBlockArg_calm | split
theorem rewriteArgsAndLoc_calm (h : l ≠ []) : Res.Calm i (rewriteArgsAndLoc l x b a n e) Any := by
  cases l with
  | nil => exact absurd rfl h
  | cons => trivial
theorem block_calm (h1 : ∀ as k x, n = .Return as k x → as ≠ []) (h2 : ∀ as k x, n = .Next as k x → as ≠ [])
    (h3 : ∀ as k x, n = .Break as k x → as ≠ []) : BldR.Calm i p (block n b a o e) Any := by
  unfold block
  refine BldR.calm_bind blockChecks_calm fun _ _ => ?_
  split
  case h_7 =>
    exact BldR.calm_bind (BldR.calm_lift (BldM.calm_liftR (rewriteArgsAndLoc_calm (h1 _ _ _ rfl)))) fun _ _ => BldR.calm_pure trivial
  case h_8 =>
    exact BldR.calm_bind (BldR.calm_lift (BldM.calm_liftR (rewriteArgsAndLoc_calm (h2 _ _ _ rfl)))) fun _ _ => BldR.calm_pure trivial
  case h_9 =>
    exact BldR.calm_bind (BldR.calm_lift (BldM.calm_liftR (rewriteArgsAndLoc_calm (h3 _ _ _ rfl)))) fun _ _ => BldR.calm_pure trivial
  all_goals calm
theorem attrAsgn_calm (h : IsText t) : Res.Calm i (attrAsgn n d t) Any := by unfold attrAsgn; calm
theorem attrAsgnMasgn_calm (h : IsText t) : BldR.Calm i p (attrAsgnMasgn n d t) Any := by
  unfold attrAsgnMasgn
  split
  · calm
  · exact BldR.calm_lift (BldM.calm_liftR (attrAsgn_calm h))
theorem index_calm : Res.Calm i (index n a l b) Any := Res.calm_bind rewriteHashArgsToKwargs_calm fun _ _ => trivial
theorem binaryOp_calm (h : IsText t) : BldR.Calm i p (binaryOp n t m) Any :=
  BldR.calm_bind valueExpr_calm fun _ _ => BldR.calm_bind valueExpr_calm fun _ _ =>
    BldR.calm_bind (BldR.calm_lift (BldM.calm_liftR (value_calm h).any)) fun _ _ => BldR.calm_pure trivial
theorem matchOp_calm : BldR.Calm i p (matchOp ext n t m) Any := by
  unfold matchOp
  refine BldR.calm_bind valueExpr_calm fun _ _ => BldR.calm_bind valueExpr_calm fun _ _ => ?_
  refine BldR.calm_bind (BldR.calm_lift staticRegexpCaptures_calm) fun _ _ => ?_
  split
  · exact BldR.calm_bind (BldR.calm_modify fun s h => h) fun _ _ => BldR.calm_pure trivial
  · calm
theorem unaryOp_calm (h : IsText t) : BldR.Calm i p (unaryOp t n) Any :=
  BldR.calm_bind valueExpr_calm fun _ _ =>
    BldR.calm_bind (BldR.calm_lift (BldM.calm_liftR (value_calm h).any)) fun _ _ => BldR.calm_pure trivial
theorem notOp_calm : BldR.Calm i p (notOp t b n e) Any := by
  unfold notOp
  split
  · exact BldR.calm_bind valueExpr_calm fun _ _ => BldR.calm_pure trivial
  · calm

/-! ### Control flow -/

theorem logicalOp_calm : BldR.Calm i p (logicalOp o n t m) Any := by
  unfold logicalOp
  refine BldR.calm_bind valueExpr_calm fun _ _ => ?_
  calm
theorem conditionMod_calm : Res.Calm i (conditionMod a b t c) Any := by unfold conditionMod; calm
theorem keywordCmd_calm {o : KeywordCmd} {l : List Node} (h : o = .Defined → l ≠ []) : BldR.Calm i p (keywordCmd o t b l e) Any := by
  unfold keywordCmd
  dsimp only
  split
  · calm
  · rename_i o _ _ _
    refine BldR.calm_bind (P := fun l' => o = .Defined → l' ≠ []) (BldR.calm_lift (BldM.calm_liftR ?_)) fun l' hl => ?_
    · split
      · next h' => exact rewriteHashArgsToKwargs_calm.imp fun _ _ e => by rw [e] at h'; rcases h' with h' | h' <;> cases h'
      · exact h
    · cases o
      case Defined =>
        cases l' with
        | nil => exact absurd rfl (hl rfl)
        | cons => exact BldR.calm_pure trivial
      all_goals exact BldR.calm_pure trivial
theorem beginBodyRescue_calm : Res.Calm i (beginBodyRescue a l o) Any := by unfold beginBodyRescue; calm
theorem beginBody_calm : Res.Calm i (beginBody a l o e) Any := by
  unfold beginBody
  refine Res.calm_bind beginBodyRescue_calm fun _ _ => ?_
  calm
theorem compstmt_calm : Res.Calm i (compstmt l) Any := by unfold compstmt; calm
theorem rescueClause_calm : Res.Calm i (rescueClause a l e t b) Any := by
  unfold rescueClause
  split
  · trivial
  · exact Res.calm_bind array_calm fun _ _ => trivial
theorem rescueMod_calm : Res.Calm i (rescueMod a t b) Any := beginBody_calm
theorem rescueMod!_calm : Res.Calm i (rescueMod! a t b) Any := trivial
theorem bodystmtElse_calm : BldR.Calm i p (bodystmtElse a l t b o c) Any := by
  unfold bodystmtElse
  split
  · calm
  · exact BldR.calm_lift (BldM.calm_liftR beginBody_calm)

/-! ### Patterns -/

theorem matchVar_calm (h : IsText t) (h0 : t.tokenValue ≠ []) : BldR.Calm i true (matchVar ext t) Any :=
  BldR.calm_bind (BldR.calm_lift (BldM.calm_liftR (value_calm h))) fun _ e =>
    BldR.calm_bind (declarePatternVar_calm (e ▸ lossy_ne h0)) fun _ _ => BldR.calm_pure trivial
theorem matchHashVar_calm (h : IsText t) (h0 : t.tokenValue ≠ []) (h1 : 1 ≤ t.loc.stop) (h2 : t.loc.stop < 2 ^ 31) :
    BldR.Calm i true (matchHashVar ext t) Any :=
  BldR.calm_bind (BldR.calm_lift (BldM.calm_liftR (adjustEnd_calm h1 h2))) fun _ _ =>
    BldR.calm_bind (BldR.calm_lift (BldM.calm_liftR (value_calm h))) fun _ e =>
      BldR.calm_bind (declarePatternVar_calm (e ▸ lossy_ne h0)) fun _ _ => BldR.calm_pure trivial
theorem matchRest_calm {o : Option Token} (h : ∀ t, o = some t → IsText t ∧ t.tokenValue ≠ []) : BldR.Calm i true (matchRest ext a o) Any := by
  unfold matchRest
  split
  · refine BldR.calm_bind (P := Any) ?_ fun _ _ => BldR.calm_pure trivial
    rw [map_eq_pure_bind]
    exact BldR.calm_bind (matchVar_calm (h _ rfl).1 (h _ rfl).2) fun _ _ => BldR.calm_pure trivial
  · calm
theorem hashPattern_calm : Res.Calm i (hashPattern b l e) Any := by unfold hashPattern; calm
theorem arrayPattern_calm : Res.Calm i (arrayPattern b l t e) Any := by unfold arrayPattern; calm
theorem findPattern_calm : Res.Calm i (findPattern b l e) Any := by unfold findPattern; calm
theorem constPatternEmpty_calm : Res.Calm i (constPatternEmpty n a b) Any := Res.calm_bind arrayPattern_calm fun _ _ => trivial
theorem mlhsInner_calm : Res.Calm i (mlhsInner a n b) Any := by
  unfold mlhsInner
  split
  · exact multiLhs_calm
  · calm
theorem matchPair_calm {k : PKwLabel} (h : ∀ t, k = .PlainLabel t → 1 ≤ t.loc.stop ∧ t.loc.stop < 2 ^ 31)
    (hq : ∀ a l t, k = .QuotedLabel a l t → 2 ≤ t.loc.stop) : BldR.Calm i true (matchPair k n) Any := by
  unfold matchPair
  split
  · exact BldR.calm_bind checkDuplicatePatternKey_calm fun _ _ => BldR.calm_lift (pairKeyword_calm (h _ rfl).1 (h _ rfl).2)
  · dsimp only
    split
    · exact BldR.calm_bind checkDuplicatePatternKey_calm fun _ _ => BldR.calm_lift (pairQuoted_calm (hq _ _ _ rfl))
    · calm
theorem endlessName_calm : BldR.Calm i p (endlessName t) fun u => u = t := by
  unfold endlessName
  dsimp only
  repeat' first | exact BldR.calm_pure rfl | exact BldR.calm_err | split
theorem kwargName_calm (h : t.tokenValue ≠ []) : BldR.Calm i p (kwargName ext t) fun u => u = t := by
  unfold kwargName
  split
  · next e => exact absurd e (lossy_ne h)
  · repeat' first | exact BldR.calm_pure rfl | exact BldR.calm_err | split
theorem singletonExpr_calm : BldR.Calm i p (singletonExpr n) Any := by
  unfold singletonExpr
  repeat' first | calm1 | (refine BldR.calm_bind valueExpr_calm fun _ _ => ?_) | split
theorem argsType_calm : BldR.Calm i p (argsType n) Any := by
  unfold argsType
  calm
end Verif
