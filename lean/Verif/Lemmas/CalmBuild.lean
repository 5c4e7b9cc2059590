import Verif.Lemmas.CalmSteps
/-!
The functions of the builder are `Calm` on tokens that are well read.
-/
namespace Verif
open Builder Grammar

variable {i : Prop} {p : Bool}

/-- Steps that need nothing, or what is at hand. -/
macro "calms" : tactic => `(tactic| first
  | exact (value_calm (by assumption)).any
  | exact maybeValue_calm (by assumption)
  | exact collectionMap_calm | exact heredocMap_calm | exact orUnreachable_calm
  | exact adjustEnd_calm (by assumption) (by assumption)
  | exact BldM.calm_error | exact BldM.calm_warn | exact BldM.calm_get.any | exact BldR.calm_get.any
  | exact BldM.calm_liftR (value_calm (by assumption)).any
  | exact BldM.calm_liftR (maybeValue_calm (by assumption))
  | exact BldM.calm_liftR collectionMap_calm
  | exact BldM.calm_liftR (adjustEnd_calm (by assumption) (by assumption)))
/-- An end, or a bind whose first part is such a step. -/
macro "calm1" : tactic => `(tactic| first
  | exact Res.calm_error
  | exact BldM.calm_panic
  | exact BldR.calm_err
  | exact BldR.calm_lift BldM.calm_panic
  | exact Res.calm_ok trivial
  | exact Res.calm_pure trivial
  | exact BldM.calm_pure trivial
  | exact BldR.calm_pure trivial
  | calms
  | exact BldR.calm_lift (by calms)
  | (refine Res.calm_bind (P := Any) (by calms) fun _ _ => ?_)
  | (refine BldM.calm_bind (P := Any) (by calms) fun _ _ => ?_)
  | (refine BldR.calm_bind (P := Any) (by calms) fun _ _ => ?_)
  | (refine BldR.calm_bind (P := Any) (BldR.calm_lift (by calms)) fun _ _ => ?_))
macro "calm" : tactic => `(tactic| repeat' first | calm1 | split)

/-! ### The checks -/

theorem checkAssignmentToNumparam_calm : BldR.Calm i p (checkAssignmentToNumparam n l) Any := by
  unfold checkAssignmentToNumparam; calm
theorem checkReservedForNumparam_calm : BldR.Calm i p (checkReservedForNumparam n l) Any := by
  unfold checkReservedForNumparam; calm
theorem checkLvarName_calm (h : n ≠ []) : BldR.Calm i p (checkLvarName ext n l) Any := by
  unfold checkLvarName
  split
  · exact absurd rfl h
  · calm
theorem isDeclared_calm {v : VarStack} (h : v.stack ≠ []) : Res.Calm i (v.isDeclared n) Any := by
  unfold VarStack.isDeclared; split
  · next e => exact absurd e h
  · trivial
theorem declare_calm {v : VarStack} (h : v.stack ≠ []) : Res.Calm i (v.declare n) fun w => w.stack ≠ [] := by
  unfold VarStack.declare; split
  · next e => exact absurd e h
  · exact List.cons_ne_nil _ _
theorem register_calm {v : NumStack} (h : v.stack ≠ []) : Res.Calm i (v.register n) fun w => w.stack ≠ [] := by
  unfold NumStack.register NumStack.set; split
  · next e => exact absurd e h
  · exact List.cons_ne_nil _ _
theorem checkDuplicatePatternVariable_calm : BldR.Calm i true (checkDuplicatePatternVariable n l) Any := by
  unfold checkDuplicatePatternVariable
  split
  · calm
  · refine BldR.calm_bind BldR.calm_get fun s hs => ?_
    refine BldR.calm_bind (BldR.calm_lift (BldM.calm_liftR (isDeclared_calm (hs.1 rfl).1))) fun _ _ => ?_
    split
    · calm
    · refine BldR.calm_bind (BldR.calm_lift (BldM.calm_liftR (declare_calm (hs.1 rfl).1))) fun w hw => ?_
      exact BldR.calm_set ⟨fun _ => ⟨hw, (hs.1 rfl).2⟩, hs.2⟩
theorem checkDuplicatePatternKey_calm : BldR.Calm i true (checkDuplicatePatternKey n l) Any := by
  unfold checkDuplicatePatternKey
  refine BldR.calm_bind BldR.calm_get fun s hs => ?_
  refine BldR.calm_bind (BldR.calm_lift (BldM.calm_liftR (isDeclared_calm (hs.1 rfl).2))) fun _ _ => ?_
  split
  · calm
  · refine BldR.calm_bind (BldR.calm_lift (BldM.calm_liftR (declare_calm (hs.1 rfl).2))) fun w hw => ?_
    exact BldR.calm_set ⟨fun _ => ⟨(hs.1 rfl).1, hw⟩, hs.2⟩
theorem declarePatternVar_calm (h : n ≠ []) : BldR.Calm i true (declarePatternVar ext n l) Any :=
  BldR.calm_bind (checkLvarName_calm h) fun _ _ => BldR.calm_bind checkDuplicatePatternVariable_calm fun _ _ =>
    BldR.calm_modify fun _ h => h
theorem numparamErrors_calm : BldM.Calm i p (numparamErrors l is) Any := by
  induction is with
  | nil => exact BldM.calm_pure trivial
  | cons j is ih =>
    unfold numparamErrors
    calm <;> exact ih
theorem tryDeclareNumparam_calm : BldM.Calm i p (tryDeclareNumparam n l) Any := by
  unfold tryDeclareNumparam
  refine BldM.calm_bind BldM.calm_get fun s hs => ?_
  split
  · split
    · next hd =>
      simp only [Bool.and_eq_true] at hd
      split
      all_goals try refine BldM.calm_bind BldM.calm_error fun _ _ => ?_
      all_goals
        refine BldM.calm_bind numparamErrors_calm fun _ _ => ?_
        refine BldM.calm_bind (BldM.calm_modify fun s h => h) fun _ _ => ?_
        refine BldM.calm_bind (BldM.calm_liftR (register_calm (hs.2 hd.2))) fun w hw => ?_
        refine BldM.calm_bind (BldM.calm_modify fun s h => ⟨h.1, fun _ => hw⟩) fun _ _ => ?_
        exact BldM.calm_pure trivial
    · calm
  · calm
theorem validateSymValue_calm : BldM.Calm i p (validateSymValue v l) Any := by
  unfold validateSymValue; calm
theorem buildStaticRegexp_calm : BldM.Calm i p (buildStaticRegexp rx q o l) Any := by
  unfold buildStaticRegexp; calm
theorem validateStaticRegexp_calm : BldM.Calm i p (validateStaticRegexp ext q o l) Any := by
  unfold validateStaticRegexp
  split
  · calm
  · exact BldM.calm_bind buildStaticRegexp_calm fun _ _ => BldM.calm_pure trivial
theorem staticRegexpCaptures_calm : BldM.Calm i p (staticRegexpCaptures ext n) Any := by
  unfold staticRegexpCaptures
  split
  · calm
  · split
    · exact buildStaticRegexp_calm
    · calm
theorem validateNoForwardArgAfterRestarg_calm : BldM.Calm i p (validateNoForwardArgAfterRestarg as) Any := by
  unfold validateNoForwardArgAfterRestarg; calm
theorem warnDuplicateKeys_calm : BldM.Calm i p (warnDuplicateKeys f ps) Any := by
  induction ps with
  | nil => exact BldM.calm_pure trivial
  | cons i is ih =>
    unfold warnDuplicateKeys
    dsimp only
    split
    · split
      · exact BldM.calm_bind BldM.calm_warn fun _ _ => ih
      · exact ih
    · exact ih
theorem warnAllDuplicateKeys_calm : BldM.Calm i p (warnAllDuplicateKeys ps) Any := by
  induction ps with
  | nil => exact BldM.calm_pure trivial
  | cons i is ih => exact BldM.calm_bind warnDuplicateKeys_calm fun _ _ => ih
theorem valueExpr_calm : BldR.Calm i p (valueExpr n) Any := by
  unfold valueExpr; calm
theorem hashToKwargs_calm : Res.Calm i (hashToKwargs n) Any := by
  unfold hashToKwargs; calm
theorem rewriteHashArgsToKwargs_calm : Res.Calm i (rewriteHashArgsToKwargs as) Any := by
  unfold rewriteHashArgsToKwargs
  repeat' first | calm1 | (refine Res.calm_bind hashToKwargs_calm fun _ _ => ?_) | split

/-! ### Duplicate parameters -/

theorem argName_calm : Res.Calm i (argName n) Any := by unfold argName; calm
theorem argNameLoc_calm : Res.Calm i (argNameLoc n) Any := by unfold argNameLoc; calm
theorem argNameCollides_calm : Res.Calm True (argNameCollides a b) Any := by
  refine Res.calm_bind (P := Any) ?_ fun _ _ => ?_
  · unfold firstByteStr
    split
    · exact .inr ⟨trivial, rfl⟩
    · split
      · trivial
      · exact .inr ⟨trivial, rfl⟩
  · split <;> trivial
theorem checkDuplicateArg_calm : BldM.Calm True p (checkDuplicateArg n m) Any := by
  unfold checkDuplicateArg
  refine BldM.calm_bind (BldM.calm_liftR argName_calm) fun a _ => ?_
  split
  · calm
  · split
    · calm
    · refine BldM.calm_bind (BldM.calm_liftR argName_calm) fun a _ => ?_
      split
      · calm
      · refine BldM.calm_bind (BldM.calm_liftR argNameCollides_calm) fun a _ => ?_
        split
        · exact BldM.calm_bind (BldM.calm_liftR argNameLoc_calm) fun _ _ => BldM.calm_bind BldM.calm_error fun _ _ => BldM.calm_pure trivial
        · calm
mutual
theorem checkDuplicateArgsNode_calm : ∀ (n : Node) (m : ArgMap), BldM.Calm True p (checkDuplicateArgsNode n m) Any
  | .Mlhs items _ _ _, m => by rw [checkDuplicateArgsNode]; exact checkDuplicateArgs_calm items m
  | .Procarg0 items _ _ _, m => by rw [checkDuplicateArgsNode]; exact checkDuplicateArgs_calm items m
  | n, m => by
    unfold checkDuplicateArgsNode
    split
    all_goals first
      | exact checkDuplicateArg_calm
      | calm1
      | exact checkDuplicateArgs_calm _ m
theorem checkDuplicateArgs_calm : ∀ (l : List Node) (m : ArgMap), BldM.Calm True p (checkDuplicateArgs l m) Any
  | [], m => by rw [checkDuplicateArgs]; exact BldM.calm_pure trivial
  | n :: l, m => by
    rw [checkDuplicateArgs]
    exact BldM.calm_bind (checkDuplicateArgsNode_calm n m) fun m _ => checkDuplicateArgs_calm l m
end
theorem args_calm : BldM.Calm True p (Builder.args b l e) Any := by
  unfold Builder.args
  refine BldM.calm_bind (checkDuplicateArgs_calm _ _) fun _ _ => ?_
  refine BldM.calm_bind validateNoForwardArgAfterRestarg_calm fun _ _ => ?_
  calm
end Verif
