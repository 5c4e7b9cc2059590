import Verif.Model.Grammar.Parse
import Verif.Lemmas.ShapeSafe
/-!
What the functions of the builder do to the tables: a relation between the tables before and after that is kept by every step.
-/
set_option linter.unusedSectionVars false
namespace Verif
open Builder Grammar

/-- A relation between tables that composes and does not mind further diagnostics. -/
class Frame (R : BState → BState → Prop) : Prop where
  refl : ∀ s, R s s
  trans : ∀ {a b c}, R a b → R b c → R a c
  diag : ∀ (s : BState) d, R s { s with diagnostics := s.diagnostics ++ d }

/-- The tables after are related to the tables before. -/
def BldM.Steps (R : BState → BState → Prop) (m : BldM α) : Prop := ∀ s a s', m s = .ok (a, s') → R s s'
/-- The same for `Result<_, ()>`. -/
def BldR.Steps (R : BState → BState → Prop) (m : BldR α) : Prop := ∀ s a s', m.run s = .ok (a, s') → R s s'

variable {R : BState → BState → Prop} [Frame R]

theorem BldM.steps_pure {a : α} : BldM.Steps R (pure a) := by
  intro s a s' h; cases h; exact Frame.refl s
theorem BldM.steps_panic {p : Panic} : BldM.Steps (α := α) R (panic p) := by
  intro s a s' h; cases h
theorem BldM.steps_liftR {r : Res α} : BldM.Steps R (liftR r) := by
  intro s a s' h
  cases r with
  | error e => cases h
  | ok a => cases h; exact Frame.refl s
theorem BldM.steps_error {m : BldMsg} {l : Loc} : BldM.Steps R (Builder.error m l) := by
  intro s a s' h; cases h; exact Frame.diag s _
theorem BldM.steps_warn {m : BldMsg} {l : Loc} : BldM.Steps R (Builder.warn m l) := by
  intro s a s' h; cases h; exact Frame.diag s _
theorem BldM.steps_get : BldM.Steps R (get : BldM BState) := by
  intro s a s' h; cases h; exact Frame.refl s
theorem BldM.steps_modify {f : BState → BState} (hf : ∀ s, R s (f s)) : BldM.Steps R (modify f : BldM PUnit) := by
  intro s a s' h; cases h; exact hf s
theorem BldM.steps_bind {m : BldM α} {f : α → BldM β} (h : BldM.Steps R m) (hf : ∀ a, BldM.Steps R (f a)) :
    BldM.Steps R (m >>= f) := by
  intro s b s' e
  rw [show (m >>= f) s = (m s >>= fun p => f p.1 p.2) from rfl] at e
  rcases hm : m s with x | ⟨a, s1⟩
  · rw [hm] at e; cases e
  · rw [hm] at e
    exact Frame.trans (h s a s1 hm) (hf a s1 b s' e)

theorem BldR.steps_pure {a : α} : BldR.Steps R (pure a) := by
  intro s a s' h; cases h; exact Frame.refl s
theorem BldR.steps_err : BldR.Steps (α := α) R err := by
  intro s a s' h; cases h; exact Frame.refl s
theorem BldR.steps_lift {m : BldM α} (h : BldM.Steps R m) : BldR.Steps R (m : BldR α) := by
  intro s b s' e
  rw [show ExceptT.run (m : BldR α) s = (m s >>= fun p => .ok (.ok p.1, p.2)) from rfl] at e
  rcases hm : m s with x | ⟨a, s1⟩
  · rw [hm] at e; cases e
  · rw [hm] at e; cases e; exact h s a s1 hm
theorem BldR.steps_get : BldR.Steps R (get : BldR BState) := by
  intro s a s' h; cases h; exact Frame.refl s
theorem BldR.steps_modify {f : BState → BState} (hf : ∀ s, R s (f s)) : BldR.Steps R (modify f : BldR PUnit) := by
  intro s a s' h; cases h; exact hf s
theorem BldR.run_bind {m : BldR α} {f : α → BldR β} (s : BState) : (m >>= f).run s = (m.run s >>= fun p => match p.1 with
    | .ok a => (f a).run p.2
    | .error e => pure (.error e, p.2)) := by
  show (ExceptT.bind m f) s = _
  unfold ExceptT.bind ExceptT.mk ExceptT.bindCont
  show (m.run s >>= fun p => _) = _
  congr; funext p; rcases p with ⟨p, s⟩; cases p <;> rfl
theorem BldR.steps_bind {m : BldR α} {f : α → BldR β} (h : BldR.Steps R m) (hf : ∀ a, BldR.Steps R (f a)) :
    BldR.Steps R (m >>= f) := by
  intro s b s' e
  rw [BldR.run_bind] at e
  rcases hm : m.run s with x | ⟨a, s1⟩
  · rw [hm] at e; cases e
  · rw [hm] at e
    cases a with
    | error x => cases e; exact h s _ s1 hm
    | ok a => exact Frame.trans (h s _ s1 hm) (hf a s1 b s' e)

/-- Steps that leave the tables alone. -/
macro "quiets" : tactic => `(tactic| first
  | exact BldM.steps_liftR | exact BldM.steps_error | exact BldM.steps_warn | exact BldM.steps_get | exact BldR.steps_get
  | exact BldM.steps_panic | exact BldM.steps_pure | exact BldR.steps_pure | exact BldR.steps_err
  | assumption)
macro "quiet1" : tactic => `(tactic| first
  | quiets
  | exact BldR.steps_lift (by quiets)
  | (refine BldM.steps_bind (by quiets) fun _ => ?_)
  | (refine BldR.steps_bind (by quiets) fun _ => ?_)
  | (refine BldR.steps_bind (BldR.steps_lift (by quiets)) fun _ => ?_))
macro "quiet" : tactic => `(tactic| repeat' first | quiet1 | split)

/-! ### Functions that leave the tables alone -/

theorem checkAssignmentToNumparam_steps : BldR.Steps R (checkAssignmentToNumparam n l) := by
  unfold checkAssignmentToNumparam; quiet
theorem checkReservedForNumparam_steps : BldR.Steps R (checkReservedForNumparam n l) := by
  unfold checkReservedForNumparam; quiet
theorem checkLvarName_steps : BldR.Steps R (checkLvarName ext n l) := by
  unfold checkLvarName; quiet
theorem numparamErrors_steps : BldM.Steps R (numparamErrors l is) := by
  induction is with
  | nil => exact BldM.steps_pure
  | cons j is ih => unfold numparamErrors; quiet
theorem validateSymValue_steps : BldM.Steps R (validateSymValue v l) := by
  unfold validateSymValue; quiet
theorem buildStaticRegexp_steps : BldM.Steps R (buildStaticRegexp rx q o l) := by
  unfold buildStaticRegexp; quiet
theorem validateStaticRegexp_steps : BldM.Steps R (validateStaticRegexp ext q o l) := by
  unfold validateStaticRegexp
  split
  · quiet
  · exact BldM.steps_bind buildStaticRegexp_steps fun _ => BldM.steps_pure
theorem staticRegexpCaptures_steps : BldM.Steps R (staticRegexpCaptures ext n) := by
  unfold staticRegexpCaptures
  split
  · quiet
  · split
    · exact buildStaticRegexp_steps
    · quiet
theorem validateNoForwardArgAfterRestarg_steps : BldM.Steps R (validateNoForwardArgAfterRestarg as) := by
  unfold validateNoForwardArgAfterRestarg; quiet
theorem warnDuplicateKeys_steps : BldM.Steps R (warnDuplicateKeys f ps) := by
  induction ps with
  | nil => exact BldM.steps_pure
  | cons i is ih => unfold warnDuplicateKeys; dsimp only; quiet
theorem warnAllDuplicateKeys_steps : BldM.Steps R (warnAllDuplicateKeys ps) := by
  induction ps with
  | nil => exact BldM.steps_pure
  | cons i is ih => exact BldM.steps_bind warnDuplicateKeys_steps fun _ => ih
theorem valueExpr_steps : BldR.Steps R (valueExpr n) := by
  unfold valueExpr; quiet
theorem checkDuplicateArg_steps : BldM.Steps R (checkDuplicateArg n m) := by
  unfold checkDuplicateArg; quiet
mutual
theorem checkDuplicateArgsNode_steps : ∀ (n : Node) (m : ArgMap), BldM.Steps R (checkDuplicateArgsNode n m)
  | .Mlhs items _ _ _, m => by rw [checkDuplicateArgsNode]; exact checkDuplicateArgs_steps items m
  | .Procarg0 items _ _ _, m => by rw [checkDuplicateArgsNode]; exact checkDuplicateArgs_steps items m
  | n, m => by
    unfold checkDuplicateArgsNode
    split
    all_goals first
      | exact checkDuplicateArg_steps
      | quiet1
      | exact checkDuplicateArgs_steps _ m
theorem checkDuplicateArgs_steps : ∀ (l : List Node) (m : ArgMap), BldM.Steps R (checkDuplicateArgs l m)
  | [], m => by rw [checkDuplicateArgs]; exact BldM.steps_pure
  | n :: l, m => by
    rw [checkDuplicateArgs]
    exact BldM.steps_bind (checkDuplicateArgsNode_steps n m) fun m => checkDuplicateArgs_steps l m
end
theorem args_steps : BldM.Steps R (Builder.args b l e) := by
  unfold Builder.args
  refine BldM.steps_bind (checkDuplicateArgs_steps _ _) fun _ => ?_
  refine BldM.steps_bind validateNoForwardArgAfterRestarg_steps fun _ => ?_
  quiet
theorem symbol_steps : BldM.Steps R (symbol a b) := BldM.steps_bind validateSymValue_steps fun _ => BldM.steps_pure
theorem symbolInternal_steps : BldM.Steps R (symbolInternal a) := BldM.steps_bind validateSymValue_steps fun _ => BldM.steps_pure
theorem symbolCompose_steps : BldM.Steps R (symbolCompose a l b) := by
  unfold symbolCompose
  split
  · exact BldM.steps_bind BldM.steps_liftR fun _ => BldM.steps_bind validateSymValue_steps fun _ => BldM.steps_pure
  · quiet
theorem regexpCompose_steps : BldM.Steps R (regexpCompose ext a l b o) := by
  unfold regexpCompose
  dsimp only
  split
  · exact BldM.steps_bind validateStaticRegexp_steps fun _ => BldM.steps_pure
  · exact BldM.steps_bind validateStaticRegexp_steps fun _ => BldM.steps_pure
  · quiet
theorem regexp_steps : BldM.Steps R (do { let o ← liftR (regexpOptions t); regexpCompose ext a l b o }) :=
  BldM.steps_bind BldM.steps_liftR fun _ => regexpCompose_steps
theorem symbolPart_steps : BldM.Steps R (symbolPart n) := by
  unfold symbolPart
  split
  · exact BldM.steps_bind validateSymValue_steps fun _ => BldM.steps_pure
  · quiet
  · quiet
theorem symbolParts_steps {l : List Node} : BldM.Steps R (l.mapM symbolPart) := by
  induction l with
  | nil => exact BldM.steps_pure
  | cons n l ih =>
    rw [List.mapM_cons]
    exact BldM.steps_bind symbolPart_steps fun _ => BldM.steps_bind ih fun _ => BldM.steps_pure
theorem symbolsCompose_steps : BldM.Steps R (symbolsCompose a l b) := BldM.steps_bind symbolParts_steps fun _ => BldM.steps_pure
theorem pairKeyword_steps : BldM.Steps R (pairKeyword t n) := by
  unfold pairKeyword
  refine BldM.steps_bind BldM.steps_liftR fun _ => ?_
  refine BldM.steps_bind BldM.steps_liftR fun _ => ?_
  exact BldM.steps_bind validateSymValue_steps fun _ => BldM.steps_pure
theorem pairQuoted_steps : BldM.Steps R (pairQuoted a l t n) := by
  unfold pairQuoted
  dsimp only
  refine BldM.steps_bind BldM.steps_liftR fun _ => BldM.steps_bind BldM.steps_liftR fun _ => BldM.steps_bind BldM.steps_liftR fun _ => ?_
  exact BldM.steps_bind symbolCompose_steps fun _ => BldM.steps_pure
theorem associate_steps : BldM.Steps R (associate b l e) :=
  BldM.steps_bind warnAllDuplicateKeys_steps fun _ => BldM.steps_bind BldM.steps_liftR fun _ => BldM.steps_pure
theorem nthRef_steps : BldM.Steps R (nthRef t) := by
  unfold nthRef; quiet
theorem opAssignLhs_steps : BldR.Steps R (opAssignLhs n) := by unfold opAssignLhs; quiet
theorem opAssign_steps : BldR.Steps R (opAssign n t m) := by
  unfold opAssign
  refine BldR.steps_bind (BldR.steps_lift BldM.steps_liftR) fun _ => ?_
  dsimp only
  refine BldR.steps_bind opAssignLhs_steps fun _ => ?_
  quiet
theorem named_steps {f : Text → BldR Node} (hf : ∀ v, BldR.Steps R (f v)) :
    BldR.Steps R (do
      let name ← (liftR (value t) : BldM Text)
      checkReservedForNumparam name l
      f name) :=
  BldR.steps_bind (BldR.steps_lift BldM.steps_liftR) fun _ => BldR.steps_bind checkReservedForNumparam_steps fun _ => hf _
theorem defMethod_steps : BldR.Steps R (defMethod a t b c d) := named_steps fun _ => BldR.steps_pure
theorem defSingleton_steps : BldR.Steps R (defSingleton a n b t c d e) := named_steps fun _ => BldR.steps_pure
theorem defEndlessMethod_steps : BldR.Steps R (defEndlessMethod a t b c d) := by
  unfold defEndlessMethod
  split
  · quiet
  · exact named_steps fun _ => BldR.steps_pure
theorem defEndlessSingleton_steps : BldR.Steps R (defEndlessSingleton a n b t c d e) := by
  unfold defEndlessSingleton
  split
  · quiet
  · exact named_steps fun _ => BldR.steps_pure
theorem arg_steps : BldR.Steps R (arg t) := named_steps fun _ => BldR.steps_pure
theorem optarg_steps : BldR.Steps R (optarg t a n) := named_steps fun _ => BldR.steps_pure
theorem shadowarg_steps : BldR.Steps R (shadowarg t) := named_steps fun _ => BldR.steps_pure
theorem kwarg_steps : BldR.Steps R (kwarg t) := named_steps fun _ => by quiet
theorem kwoptarg_steps : BldR.Steps R (kwoptarg t n) := named_steps fun _ => by quiet
theorem checkedName_steps {o : Option Token} : BldR.Steps R (checkedName o) := by
  cases o with
  | none => exact BldR.steps_pure
  | some t =>
    exact BldR.steps_bind (BldR.steps_lift BldM.steps_liftR) fun _ => BldR.steps_bind checkReservedForNumparam_steps fun _ => BldR.steps_pure
theorem restarg_steps {o : Option Token} : BldR.Steps R (restarg a o) := BldR.steps_bind checkedName_steps fun _ => BldR.steps_pure
theorem kwrestarg_steps {o : Option Token} : BldR.Steps R (kwrestarg a o) := BldR.steps_bind checkedName_steps fun _ => BldR.steps_pure
theorem blockarg_steps {o : Option Token} : BldR.Steps R (blockarg a o) := by
  unfold blockarg
  dsimp only
  refine BldR.steps_bind (BldR.steps_lift BldM.steps_liftR) fun _ => ?_
  split
  · exact BldR.steps_bind checkReservedForNumparam_steps fun _ => BldR.steps_pure
  · quiet
theorem validateBlockAndBlockArg_steps : BldR.Steps R (validateBlockAndBlockArg l) := by
  unfold validateBlockAndBlockArg; quiet
theorem blockChecks_steps : BldR.Steps R (blockChecks n) := by
  unfold blockChecks
  split
  · quiet
  · exact validateBlockAndBlockArg_steps
  · exact validateBlockAndBlockArg_steps
  · quiet
theorem block_steps : BldR.Steps R (block n b a m e) := by
  unfold block
  refine BldR.steps_bind blockChecks_steps fun _ => ?_
  quiet
theorem attrAsgnMasgn_steps : BldR.Steps R (attrAsgnMasgn n d t) := by
  unfold attrAsgnMasgn; quiet
theorem binaryOp_steps : BldR.Steps R (binaryOp n t m) :=
  BldR.steps_bind valueExpr_steps fun _ => BldR.steps_bind valueExpr_steps fun _ => by quiet
theorem unaryOp_steps : BldR.Steps R (unaryOp t n) := BldR.steps_bind valueExpr_steps fun _ => by quiet
theorem notOp_steps {n : Option Node} : BldR.Steps R (notOp t b n e) := by
  unfold notOp
  split
  · exact BldR.steps_bind valueExpr_steps fun _ => by quiet
  · quiet
theorem logicalOp_steps : BldR.Steps R (logicalOp o n t m) := BldR.steps_bind valueExpr_steps fun _ => by quiet
theorem keywordCmd_steps {o : KeywordCmd} {l : List Node} : BldR.Steps R (keywordCmd o t b l e) := by
  unfold keywordCmd
  dsimp only
  quiet
theorem bodystmtElse_steps : BldR.Steps R (bodystmtElse a l t b o c) := by
  unfold bodystmtElse; quiet
theorem endlessName_steps : BldR.Steps R (endlessName t) := by unfold endlessName; dsimp only; quiet
theorem kwargName_steps : BldR.Steps R (kwargName ext t) := by unfold kwargName; quiet
theorem singletonExpr_steps : BldR.Steps R (singletonExpr n) := by
  unfold singletonExpr
  split
  all_goals first | quiet1 | exact BldR.steps_bind valueExpr_steps fun _ => BldR.steps_pure
theorem argsType_steps : BldR.Steps R (argsType n) := by unfold argsType; quiet
theorem checked_steps : BldR.Steps R (valueExpr n *> pure n) := by
  rw [show (valueExpr n *> pure n : BldR Node) = (valueExpr n >>= fun _ => pure n) from rfl]
  exact BldR.steps_bind valueExpr_steps fun _ => BldR.steps_pure

/-! ### Functions that declare -/

theorem numparamErrors_run (l : Loc) (is : List NumItem) (s : BState) : ∃ d, numparamErrors l is s = .ok ((), { s with diagnostics := s.diagnostics ++ d }) := by
  induction is generalizing s with
  | nil => exact ⟨[], by rw [List.append_nil]; rfl⟩
  | cons j is ih =>
    unfold numparamErrors
    split
    · exact ⟨[], by rw [List.append_nil]; rfl⟩
    · split
      · obtain ⟨d, h⟩ := ih { s with diagnostics := s.diagnostics ++ [⟨.error, .NumparamUsed, l⟩] }
        rw [List.append_assoc] at h
        exact ⟨_, h⟩
      · exact ih s

/-- What `try_declare_numparam` does: nothing but reports, or it declares the parameter and notes its number. -/
theorem tryDeclareNumparam_run {n : Text} {l : Loc} {s s' : BState} {b : Bool} (h : tryDeclareNumparam n l s = .ok (b, s')) :
    (b = false ∧ s' = s) ∨ (b = true ∧ isNumparamName n = true ∧ s.staticEnv.isDeclared n = false ∧ s.context.isInDynamicBlock = true ∧
      ∃ k num d, s.numparams.register k = .ok num ∧ (s.numparams.hasOrdinaryParams = true → ⟨.error, .OrdinaryParamDefined, l⟩ ∈ d) ∧
        s' = { s with staticEnv := s.staticEnv.declare n, numparams := num, diagnostics := s.diagnostics ++ d }) := by
  unfold tryDeclareNumparam at h
  rw [show ((get : BldM BState) >>= _) s = _ from rfl] at h
  dsimp only at h
  split at h
  · rename_i u k
    change (if _ then _ else _ : BldM Bool) s = _ at h
    split at h
    · next hc =>
      simp only [Bool.and_eq_true, Bool.not_eq_true'] at hc
      obtain ⟨⟨⟨h1, h2⟩, h3⟩, h4⟩ := hc
      right
      have key : ∀ d0, (s.numparams.hasOrdinaryParams = true → ⟨.error, .OrdinaryParamDefined, l⟩ ∈ d0) → (do
          numparamErrors l s.numparams.innerClone.tail
          modify fun s => { s with staticEnv := s.staticEnv.declare [u, k] }
          let st ← liftR (s.numparams.register ((k : Int) - 48))
          modify fun s => { s with numparams := st }
          return true : BldM Bool) { s with diagnostics := s.diagnostics ++ d0 } = .ok (b, s') → b = true ∧ ∃ k' num d,
            s.numparams.register k' = .ok num ∧ (s.numparams.hasOrdinaryParams = true → ⟨.error, .OrdinaryParamDefined, l⟩ ∈ d) ∧
            s' = { s with staticEnv := s.staticEnv.declare [u, k], numparams := num, diagnostics := s.diagnostics ++ d } := by
        intro d0 e1 h
        obtain ⟨d, hd⟩ := numparamErrors_run l s.numparams.innerClone.tail { s with diagnostics := s.diagnostics ++ d0 }
        rw [List.append_assoc] at hd
        rw [show ((numparamErrors l s.numparams.innerClone.tail >>= _ : BldM Bool)) { s with diagnostics := s.diagnostics ++ d0 } =
          (numparamErrors l s.numparams.innerClone.tail { s with diagnostics := s.diagnostics ++ d0 } >>= _) from rfl, hd] at h
        rcases hr : s.numparams.register ((k : Int) - 48) with e | num
        · rw [hr] at h; cases h
        · rw [hr] at h
          cases h
          exact ⟨rfl, _, num, d0 ++ d, hr, fun h => List.mem_append_left _ (e1 h), rfl⟩
      have : b = true ∧ ∃ k' num d, s.numparams.register k' = .ok num ∧
            (s.numparams.hasOrdinaryParams = true → ⟨.error, .OrdinaryParamDefined, l⟩ ∈ d) ∧
            s' = { s with staticEnv := s.staticEnv.declare [u, k], numparams := num, diagnostics := s.diagnostics ++ d } := by
        split at h
        · exact key [⟨.error, .OrdinaryParamDefined, l⟩] (fun _ => List.mem_singleton.mpr rfl) h
        · next hn =>
          refine key [] (fun h => absurd h hn) ?_
          rw [List.append_nil]
          exact h
      exact ⟨this.1, by simpa [isNumparamName, and_assoc] using And.intro h1 h2, h3, h4, this.2⟩
    · cases h; exact .inl ⟨rfl, rfl⟩
  · cases h; exact .inl ⟨rfl, rfl⟩

/-- What a relation has to allow for numbered parameters. -/
def AllowsNum (R : BState → BState → Prop) : Prop :=
  ∀ (s : BState) n k num d l, isNumparamName n = true → s.staticEnv.isDeclared n = false → s.context.isInDynamicBlock = true →
    s.numparams.register k = .ok num → (s.numparams.hasOrdinaryParams = true → ⟨.error, .OrdinaryParamDefined, l⟩ ∈ d) →
    R s { s with staticEnv := s.staticEnv.declare n, numparams := num, diagnostics := s.diagnostics ++ d }
/-- What it has to allow for variables. -/
def AllowsEnv (R : BState → BState → Prop) : Prop :=
  ∀ (s : BState) n, R s { s with staticEnv := s.staticEnv.declare n }
/-- What it has to allow for variables of a pattern. -/
def AllowsPv (R : BState → BState → Prop) : Prop :=
  ∀ (s : BState) n v, s.patternVariables.declare n = .ok v → R s { s with patternVariables := v }
/-- What it has to allow for keys of a pattern. -/
def AllowsPk (R : BState → BState → Prop) : Prop :=
  ∀ (s : BState) n v, s.patternHashKeys.declare n = .ok v → R s { s with patternHashKeys := v }

theorem tryDeclareNumparam_steps (h : AllowsNum R) : BldM.Steps R (tryDeclareNumparam n l) := by
  intro s a s' e
  rcases tryDeclareNumparam_run e with ⟨-, rfl⟩ | ⟨-, h1, h2, h3, k, num, d, h4, h5, rfl⟩
  · exact Frame.refl _
  · exact h s n k num d _ h1 h2 h3 h4 h5
theorem accessible_steps (h : AllowsNum R) : BldM.Steps R (accessible n) := by
  unfold accessible
  split
  · split
    all_goals try refine BldM.steps_bind BldM.steps_error fun _ => ?_
    all_goals
      refine BldM.steps_bind (tryDeclareNumparam_steps h) fun _ => ?_
      quiet
  · exact BldM.steps_pure
theorem pairLabel_steps (h : AllowsNum R) : BldM.Steps R (pairLabel ext t) := by
  unfold pairLabel
  refine BldM.steps_bind BldM.steps_liftR fun _ => BldM.steps_bind BldM.steps_liftR fun _ => ?_
  split
  · quiet
  · exact BldM.steps_bind (accessible_steps h) fun _ => pairKeyword_steps
theorem assignable_steps (h : AllowsEnv R) : BldR.Steps R (assignable n) := by
  unfold assignable
  split
  all_goals first
    | (refine BldR.steps_bind checkAssignmentToNumparam_steps fun _ => BldR.steps_bind checkReservedForNumparam_steps fun _ => ?_
       first | exact BldR.steps_pure | exact BldR.steps_bind (BldR.steps_modify fun s => h s _) fun _ => BldR.steps_pure)
    | (quiet; done)
theorem matchOp_steps (h : AllowsEnv R) : BldR.Steps R (matchOp ext n t m) := by
  unfold matchOp
  refine BldR.steps_bind valueExpr_steps fun _ => BldR.steps_bind valueExpr_steps fun _ => ?_
  dsimp only
  refine BldR.steps_bind (BldR.steps_lift staticRegexpCaptures_steps) fun o => ?_
  split
  · rename_i cs
    refine BldR.steps_bind (BldR.steps_modify fun s => ?_) fun _ => BldR.steps_pure
    suffices hs : ∀ (cs : List Text) (s : BState), R s { s with staticEnv := cs.foldl StaticEnv.declare s.staticEnv } from hs cs s
    intro cs
    induction cs with
    | nil => exact fun s => Frame.refl s
    | cons c cs ih => exact fun s => Frame.trans (h s c) (ih { s with staticEnv := s.staticEnv.declare c })
  · quiet
theorem checkDuplicatePatternVariable_steps (h : AllowsPv R) : BldR.Steps R (checkDuplicatePatternVariable n l) := by
  unfold checkDuplicatePatternVariable
  split
  · quiet
  · intro s a s' e
    rw [BldR.run_bind] at e
    change (((liftR (s.patternVariables.isDeclared n) : BldM Bool) : BldR Bool) >>= _ : BldR Unit).run s = _ at e
    rw [BldR.run_bind] at e
    rcases hd : s.patternVariables.isDeclared n with p | b
    · rw [hd] at e; cases e
    · rw [hd] at e
      cases b with
      | true => cases e; exact Frame.diag _ _
      | false =>
        change (((liftR (s.patternVariables.declare n) : BldM VarStack) : BldR VarStack) >>= _ : BldR Unit).run s = _ at e
        rw [BldR.run_bind] at e
        rcases hv : s.patternVariables.declare n with p | v
        · rw [hv] at e; cases e
        · rw [hv] at e; cases e; exact h s n v hv
theorem checkDuplicatePatternKey_steps (h : AllowsPk R) : BldR.Steps R (checkDuplicatePatternKey n l) := by
  unfold checkDuplicatePatternKey
  intro s a s' e
  rw [BldR.run_bind] at e
  change (((liftR (s.patternHashKeys.isDeclared n) : BldM Bool) : BldR Bool) >>= _ : BldR Unit).run s = _ at e
  rw [BldR.run_bind] at e
  rcases hd : s.patternHashKeys.isDeclared n with p | b
  · rw [hd] at e; cases e
  · rw [hd] at e
    cases b with
    | true => cases e; exact Frame.diag _ _
    | false =>
      change (((liftR (s.patternHashKeys.declare n) : BldM VarStack) : BldR VarStack) >>= _ : BldR Unit).run s = _ at e
      rw [BldR.run_bind] at e
      rcases hv : s.patternHashKeys.declare n with p | v
      · rw [hv] at e; cases e
      · rw [hv] at e; cases e; exact h s n v hv
theorem declarePatternVar_steps (h : AllowsEnv R) (hp : AllowsPv R) : BldR.Steps R (declarePatternVar ext n l) :=
  BldR.steps_bind checkLvarName_steps fun _ => BldR.steps_bind (checkDuplicatePatternVariable_steps hp) fun _ =>
    BldR.steps_modify fun s => h s n
theorem matchVar_steps (h : AllowsEnv R) (hp : AllowsPv R) : BldR.Steps R (matchVar ext t) :=
  BldR.steps_bind (BldR.steps_lift BldM.steps_liftR) fun _ => BldR.steps_bind (declarePatternVar_steps h hp) fun _ => BldR.steps_pure
theorem matchHashVar_steps (h : AllowsEnv R) (hp : AllowsPv R) : BldR.Steps R (matchHashVar ext t) :=
  BldR.steps_bind (BldR.steps_lift BldM.steps_liftR) fun _ => BldR.steps_bind (BldR.steps_lift BldM.steps_liftR) fun _ =>
    BldR.steps_bind (declarePatternVar_steps h hp) fun _ => BldR.steps_pure
theorem matchRest_steps {o : Option Token} (h : AllowsEnv R) (hp : AllowsPv R) : BldR.Steps R (matchRest ext a o) := by
  unfold matchRest
  cases o with
  | none => quiet
  | some t =>
    dsimp only
    refine BldR.steps_bind ?_ fun _ => BldR.steps_pure
    rw [map_eq_pure_bind]
    exact BldR.steps_bind (matchVar_steps h hp) fun _ => BldR.steps_pure
theorem matchPair_steps {k : PKwLabel} (h : AllowsPk R) : BldR.Steps R (matchPair k n) := by
  unfold matchPair
  split
  · exact BldR.steps_bind (checkDuplicatePatternKey_steps h) fun _ => BldR.steps_lift pairKeyword_steps
  · dsimp only
    split
    · exact BldR.steps_bind (checkDuplicatePatternKey_steps h) fun _ => BldR.steps_lift pairQuoted_steps
    · exact BldR.steps_bind (BldR.steps_lift BldM.steps_error) fun _ => BldR.steps_bind BldR.steps_err fun _ => BldR.steps_lift pairQuoted_steps
mutual
theorem matchHashVarFromStr_steps (h : AllowsEnv R) (hp : AllowsPv R) : ∀ l, BldR.Steps R (matchHashVarFromStr ext a b l)
  | [] => by unfold matchHashVarFromStr; quiet
  | [n] => by unfold matchHashVarFromStr; exact matchHashVarFromNode_steps h hp n
  | _ :: _ :: _ => by unfold matchHashVarFromStr; quiet
theorem matchHashVarFromNode_steps (h : AllowsEnv R) (hp : AllowsPv R) : ∀ n, BldR.Steps R (matchHashVarFromNode ext a b n)
  | .Begin l _ _ _ => by rw [matchHashVarFromNode]; exact matchHashVarFromStr_steps h hp l
  | n => by
    unfold matchHashVarFromNode
    split
    · dsimp only
      exact BldR.steps_bind (declarePatternVar_steps h hp) fun _ => by quiet
    · exact matchHashVarFromStr_steps h hp _
    · quiet
end
theorem matchLabel_steps {k : PKwLabel} (h : AllowsEnv R) (hp : AllowsPv R) : BldR.Steps R (matchLabel ext k) := by
  unfold matchLabel
  split
  · exact matchHashVar_steps h hp
  · exact matchHashVarFromStr_steps h hp _

end Verif
