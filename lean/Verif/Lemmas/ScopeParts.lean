import Verif.Lemmas.ScopeAdd
import Verif.Lemmas.ParseFn
import Mathlib.Tactic.Tauto
/-!
The functions of the builder that only put nodes together: a result has what its parts have, for every additive predicate.
-/
namespace Verif
open Builder Grammar

variable {Q : Node → Prop}

theorem illTyped_yields {P : Atom → Prop} : BldR.Yields illTyped P := fun _ h => h.elim
theorem outp_yields {c : α → Atom} {a : α} {P : Atom → Prop} (h : P (c a)) : BldR.Yields (outp c a) P := BldR.safe_pure h
theorem outR_yields {c : α → Atom} {r : Res α} {P : Atom → Prop} (h : Res.Yields r fun a => P (c a)) : BldR.Yields (outR c r) P :=
  BldR.safe_bind (BldR.safe_lift (BldM.safe_liftR h)) fun _ h => BldR.safe_pure h
theorem outM_yields {c : α → Atom} {r : BldM α} {P : Atom → Prop} (h : BldM.Yields r fun a => P (c a)) : BldR.Yields (outM c r) P :=
  BldR.safe_bind (BldR.safe_lift h) fun _ h => BldR.safe_pure h
theorem outB_yields {c : α → Atom} {r : BldR α} {P : Atom → Prop} (h : BldR.Yields r fun a => P (c a)) : BldR.Yields (outB c r) P :=
  BldR.safe_bind h fun _ h => BldR.safe_pure h

/-- A result at the end. -/
macro "ends" h:term : tactic => `(tactic|
  ((first | refine Res.safe_pure ?_ | refine Res.safe_ok ?_ | refine BldM.safe_pure ?_ | refine BldR.safe_pure ?_);
   (try (adds $h)); (try tauto)))

mutual
theorem checkCondition_adds (h : Additive Q) (n : Node) : Q (checkCondition n) ↔ Q n := by
  cases n with
  | Begin ss b e x => unfold checkCondition; rw [h.Begin, h.Begin]; exact checkConditionSingle_adds h ss
  | And a b o x => unfold checkCondition; rw [h.And, h.And, checkCondition_adds h a, checkCondition_adds h b]
  | Or a b o x => unfold checkCondition; rw [h.Or, h.Or, checkCondition_adds h a, checkCondition_adds h b]
  | Irange a b o x => unfold checkCondition; rw [h.IFlipFlop, h.Irange, checkConditionOpt_adds h a, checkConditionOpt_adds h b]
  | Erange a b o x => unfold checkCondition; rw [h.EFlipFlop, h.Erange, checkConditionOpt_adds h a, checkConditionOpt_adds h b]
  | Regexp p o b e x => unfold checkCondition; rw [h.MatchCurrentLine]
  | _ => unfold checkCondition; exact Iff.rfl
theorem checkConditionSingle_adds (h : Additive Q) : ∀ l : List Node, Some_ Q (checkConditionSingle l) ↔ Some_ Q l
  | [] => by unfold checkConditionSingle; rfl
  | [n] => by unfold checkConditionSingle; simp only [some_cons, checkCondition_adds h n]
  | _ :: _ :: _ => by unfold checkConditionSingle; rfl
theorem checkConditionOpt_adds (h : Additive Q) : ∀ o : Option Node, Some_ Q (checkConditionOpt o).toList ↔ Some_ Q o.toList
  | none => by unfold checkConditionOpt; rfl
  | some n => by unfold checkConditionOpt; simp only [Option.toList_some, some_cons, checkCondition_adds h n]
end

theorem hashToKwargs_adds (h : Additive Q) (n : Node) : Res.Yields (hashToKwargs n) fun m => Q m ↔ Q n := by
  unfold hashToKwargs; split
  · ends h
  · skip1
theorem rewrite_adds (h : Additive Q) (l : List Node) : Res.Yields (rewriteHashArgsToKwargs l) fun m => Some_ Q m ↔ Some_ Q l := by
  unfold rewriteHashArgsToKwargs
  split
  · exact Iff.rfl
  · rename_i last rest e
    have el : Some_ Q l ↔ Q last ∨ Some_ Q rest := by rw [← some_reverse, e, some_cons]
    split
    · refine Res.safe_bind (hashToKwargs_adds h last) fun m hm => Res.safe_pure ?_
      simp only [some_append, some_reverse, some_cons, some_nil, el]; tauto
    · split
      · split
        · rename_i prev rest' _ _
          refine Res.safe_bind (hashToKwargs_adds h prev) fun m hm => Res.safe_pure ?_
          simp only [some_append, some_reverse, some_cons, some_nil, el]; tauto
        · exact Iff.rfl
      · exact Iff.rfl

theorem dedentParts_adds (h : Additive Q) {w : Nat} : ∀ l : List Node,
    Res.Yields (dedentHeredocParts w l) fun m => Some_ Q m ↔ Some_ Q l
  | [] => Iff.rfl
  | part :: rest => by
    unfold dedentHeredocParts
    split
    · refine Res.safe_bind (dedentParts_adds h rest) fun m hm => Res.safe_pure ?_
      split
      · rw [hm, some_cons, h.Str]; simp
      · rw [some_cons, hm, some_cons, h.Str, h.Str]
    all_goals first
      | exact Res.yields_error
      | exact Res.safe_bind (dedentParts_adds h rest) fun m hm => Res.safe_pure (by rw [some_cons, hm, some_cons])
theorem heredocDedent_adds (h : Additive Q) {n : Node} {level : Int} : Res.Yields (heredocDedent n level) fun m => Q m ↔ Q n := by
  unfold heredocDedent
  split
  · exact Iff.rfl
  split
  · skip1
  split
  · exact Res.safe_bind (dedentParts_adds h _) fun m hm => Res.safe_pure (by rw [h.Heredoc, h.Heredoc, hm])
  · exact Res.safe_bind (dedentParts_adds h _) fun m hm => Res.safe_pure (by rw [h.XHeredoc, h.XHeredoc, hm])
  · skip1

theorem strNode_adds (h : Additive Q) {v : Bytes} {parts : List Node} (hp : ¬ Some_ Q parts) :
    Res.Yields (strNode b v parts e) fun m => ¬ Q m := by
  unfold strNode; skips <;> refine Res.safe_pure ?_ <;> adds h <;> simpa using hp
theorem stringComposeMany_adds (h : Additive Q) {parts : List Node} :
    Res.Yields (stringComposeMany b parts e) fun m => Q m ↔ Some_ Q parts := by
  unfold stringComposeMany; skips <;> ends h
theorem stringCompose_adds (h : Additive Q) {parts : List Node} :
    Res.Yields (stringCompose b parts e) fun m => Q m ↔ Some_ Q parts := by
  unfold stringCompose
  split
  · exact (strNode_adds h (by simp)).imp fun m hm => by simpa using hm
  · split
    · ends h
    · exact (strNode_adds h (by adds h; simp)).imp fun m hm => by adds h; simpa using hm
  · split
    · ends h
    · skip1
  · split
    · ends h
    · skip1
  · exact stringComposeMany_adds h
theorem symbolCompose_adds (h : Additive Q) {parts : List Node} :
    BldM.Yields (symbolCompose b parts e) fun m => Q m ↔ Some_ Q parts := by
  unfold symbolCompose; skips <;> ends h
theorem pairQuoted_adds (h : Additive Q) {parts : List Node} {v : Node} :
    BldM.Yields (pairQuoted b parts e v) fun m => Q m ↔ Some_ Q parts ∨ Q v := by
  unfold pairQuoted
  skip1; skip1; skip1
  exact BldM.safe_bind (symbolCompose_adds h) fun m hm => by refine BldM.safe_pure ?_; rw [h.Pair, hm]
theorem pairKeyword_adds (h : Additive Q) {v : Node} : BldM.Yields (pairKeyword t v) fun m => Q m ↔ Q v := by
  unfold pairKeyword; skips <;> ends h
theorem symbolPart_adds (h : Additive Q) (n : Node) : BldM.Yields (symbolPart n) fun m => Q m ↔ Q n := by
  unfold symbolPart; skips <;> ends h
theorem symbolParts_adds (h : Additive Q) : ∀ l : List Node, BldM.Yields (l.mapM symbolPart) fun m => Some_ Q m ↔ Some_ Q l
  | [] => by rw [List.mapM_nil]; exact BldM.safe_pure Iff.rfl
  | n :: l => by
    rw [List.mapM_cons]
    exact BldM.safe_bind (symbolPart_adds h n) fun m hm => BldM.safe_bind (symbolParts_adds h l) fun m' hm' =>
      BldM.safe_pure (by rw [some_cons, some_cons, hm, hm'])
theorem symbolsCompose_adds (h : Additive Q) {l : List Node} : BldM.Yields (symbolsCompose b l e) fun m => Q m ↔ Some_ Q l := by
  unfold symbolsCompose
  exact BldM.safe_bind (symbolParts_adds h l) fun m hm => BldM.safe_pure (by rw [h.Array, hm])
theorem word_adds (h : Additive Q) {l : List Node} : Res.Yields (word l) fun m => Q m ↔ Some_ Q l := by
  unfold word; skips <;> ends h

theorem regOpt_adds (h : Additive Q) {t : Token} : Res.Yields (regexpOptions t) fun o => ¬ Some_ Q o.toList := by
  unfold regexpOptions; skips <;> refine Res.safe_pure ?_ <;> adds h <;> simp
theorem regexpCompose_adds (h : Additive Q) {l : List Node} {o : Option Node} :
    BldM.Yields (regexpCompose ext b l e o) fun m => Q m ↔ Some_ Q l ∨ Some_ Q o.toList := by
  unfold regexpCompose; skips <;> ends h

theorem opAssignLhs_adds (h : Additive Q) {n : Node} : BldR.Yields (opAssignLhs n) fun m => Q m ↔ Q n := by
  unfold opAssignLhs; skips <;> ends h
theorem opAssign_adds (h : Wide Q) {n v : Node} : BldR.Yields (opAssign n t v) fun m => Q m ↔ Q n ∨ Q v := by
  unfold opAssign
  skip1
  refine BldR.safe_bind (opAssignLhs_adds h.add) fun m hm => ?_
  skips <;> (refine BldR.safe_pure ?_) <;> (first | rw [h.OpAsgn] | rw [h.AndAsgn] | rw [h.OrAsgn]) <;> rw [hm]
theorem procarg0_adds (h : Additive Q) {n : Node} : Res.Yields (procarg0 n) fun m => Q m ↔ Q n := by
  unfold procarg0; skips <;> ends h
theorem procargs_adds (h : Additive Q) {l m : List Node} : Res.Yields (procargs l m) fun r => Some_ Q r ↔ Some_ Q l ∨ Some_ Q m := by
  unfold procargs; split
  · exact Res.safe_bind (procarg0_adds h) fun m hm => Res.safe_pure (by simp [hm])
  · exact Res.safe_ok some_append
theorem callMethod_adds (h : Additive Q) {r : Option Node} {l : List Node} :
    Res.Yields (callMethod r d s b l e) fun m => Q m ↔ Some_ Q r.toList ∨ Some_ Q l := by
  unfold callMethod
  skip1; skip1; skip1
  refine Res.safe_bind (rewrite_adds h l) fun l' hl => ?_
  split
  · refine Res.safe_pure ?_; adds h; rw [hl]
  · cases r with
    | none => exact Res.yields_error
    | some r =>
      refine Res.safe_bind (P := fun m => m = r) (Res.safe_ok rfl) fun m hm => ?_
      subst hm
      refine Res.safe_bind (P := Any) Res.yields_any fun _ _ => Res.safe_pure ?_
      adds h; rw [hl]

theorem rescueBody_adds (h : Additive Q) {l v b : Option Node} : Q (rescueBody t l a v c b) ↔ Some_ Q l.toList ∨ Some_ Q v.toList ∨ Some_ Q b.toList := by
  unfold rescueBody; adds h
theorem beginBodyRescue_adds (h : Additive Q) {c : Option Node} {l : List Node} {el : Option (Token × Option Node)} :
    Res.Yields (beginBodyRescue c l el) fun r => Some_ Q r.toList ↔
      Some_ Q c.toList ∨ Some_ Q l ∨ Some_ Q (el.bind (·.2)).toList := by
  unfold beginBodyRescue
  split
  · rcases el with - | ⟨t, e⟩ <;> simp only [Option.bind_some, Option.bind_none] <;> skips <;> ends h
  · rename_i hl
    obtain rfl : l = [] := by simpa using hl
    rcases el with - | ⟨t, e⟩ <;> simp only [Option.bind_some, Option.bind_none]
    · ends h
    · skips <;> ends h
theorem beginBody_adds (h : Additive Q) {c : Option Node} {l : List Node} {el en : Option (Token × Option Node)} :
    Res.Yields (beginBody c l el en) fun r => Some_ Q r.toList ↔
      Some_ Q c.toList ∨ Some_ Q l ∨ Some_ Q (el.bind (·.2)).toList ∨
      Some_ Q (en.bind (·.2)).toList := by
  unfold beginBody
  refine Res.safe_bind (beginBodyRescue_adds h) fun r hr => ?_
  split
  · refine Res.safe_pure ?_; adds h; rw [hr]; simp only [or_assoc, Option.bind_some]
  · refine Res.safe_pure ?_; rw [hr]; simp

theorem begin_adds (h : Additive Q) {o : Option Node} : Q (Builder.begin b o e) ↔ Some_ Q o.toList := by
  unfold Builder.begin; dsimp only
  repeat' split
  all_goals adds h
theorem beginKeyword_adds (h : Additive Q) {o : Option Node} : Q (beginKeyword b o e) ↔ Some_ Q o.toList := by
  unfold beginKeyword; dsimp only
  repeat' split
  all_goals adds h
theorem condition_adds (h : Additive Q) {n : Node} {a b : Option Node} :
    Q (condition t n u a v b w) ↔ Q n ∨ Some_ Q a.toList ∨ Some_ Q b.toList := by
  unfold condition; adds h; rw [checkCondition_adds h]
theorem loop_adds (h : Additive Q) {n : Node} {a : Option Node} : Q (loop_ k t n u a v) ↔ Q n ∨ Some_ Q a.toList := by
  unfold loop_; dsimp only
  split <;> adds h <;> rw [checkCondition_adds h]
theorem loopMod_adds (h : Additive Q) {n b : Node} : Q (loopMod k b t n) ↔ Q n ∨ Q b := by
  unfold loopMod; dsimp only
  split <;> adds h <;> rw [checkCondition_adds h]
theorem conditionMod_adds (h : Additive Q) {n : Node} {a b : Option Node} :
    Res.Yields (conditionMod a b t n) fun m => Q m ↔ Q n ∨ Some_ Q a.toList ∨ Some_ Q b.toList := by
  unfold conditionMod; skips <;> (refine Res.safe_ok ?_) <;> adds h <;> rw [checkCondition_adds h]
theorem notOp_adds (h : Additive Q) {o : Option Node} : BldR.Yields (notOp t b o e) fun m => Q m ↔ Some_ Q o.toList := by
  unfold notOp; skips <;> (refine BldR.safe_pure ?_) <;> adds h
  rw [checkCondition_adds h]
theorem caseMatch_adds (h : Additive Q) {n : Node} {l : List Node} {e : Option Node} :
    Q (caseMatch c n l t e u) ↔ Q n ∨ Some_ Q l ∨ Some_ Q e.toList := by
  unfold caseMatch; dsimp only; split <;> adds h
theorem matchPair_adds (h : Additive Q) {k : PKwLabel} {n : Node} :
    BldR.Yields (matchPair k n) fun m => Q m ↔ Some_ Q (Atom.trees (.label k)) ∨ Q n := by
  unfold matchPair
  split
  · skip1
    exact (BldR.safe_lift (pairKeyword_adds h)).imp fun m hm => by rw [hm]; simp [Atom.trees]
  · dsimp only
    split
    · skip1
      exact (BldR.safe_lift (pairQuoted_adds h)).imp fun m hm => by rw [hm]; simp [Atom.trees]
    · skips
theorem rescueMod_adds (h : Additive Q) {a b : Node} : Res.Yields (rescueMod a t b) fun m => Some_ Q m.toList ↔ Q a ∨ Q b := by
  unfold rescueMod
  exact (beginBody_adds h).imp fun m hm => by rw [hm]; simp [rescueBody_adds h]
theorem rescueMod!_adds (h : Additive Q) {a b : Node} : Res.Yields (rescueMod! a t b) fun m => Q m ↔ Q a ∨ Q b := by
  unfold rescueMod!
  refine Res.safe_bind (rescueMod_adds h) fun m hm => ?_
  split
  · exact Res.safe_pure (by simpa using hm)
  · skip1
theorem rescueClause_adds (h : Additive Q) {l : List Node} {p : Option Token × Option Node} {o : Option Node} :
    Res.Yields (rescueClause t l p u o) fun m => Q m ↔ Some_ Q l ∨ Some_ Q p.2.toList ∨ Some_ Q o.toList := by
  unfold rescueClause
  split
  · refine Res.safe_ok ?_; rw [rescueBody_adds h]; simp
  · refine Res.safe_bind (P := fun m => Q m ↔ Some_ Q l) ?_ fun m hm => Res.safe_pure ?_
    · unfold array; skips <;> ends h
    · rw [rescueBody_adds h]; simp [hm]
theorem attrAsgn_adds (h : Additive Q) {n : Node} : Res.Yields (attrAsgn n t u) fun m => Q m ↔ Q n := by
  unfold attrAsgn; skips <;> ends h
theorem mlhsInner_adds (h : Additive Q) {n : Node} : Res.Yields (mlhsInner t n u) fun m => Q m ↔ Q n := by
  unfold mlhsInner multiLhs; skips <;> ends h
theorem args_adds (h : Additive Q) {l : List Node} : BldM.Yields (Builder.args b l e) fun m => Some_ Q m.toList ↔ Some_ Q l := by
  unfold Builder.args
  skip1; skip1
  split
  · rename_i hh
    refine BldM.safe_pure ?_
    have : l = [] := by simp at hh; exact hh.1.2
    subst this; simp
  · skips <;> ends h
theorem arrayPattern_adds (h : Additive Q) {l : List Node} : Res.Yields (arrayPattern b l c e) fun m => Q m ↔ Some_ Q l := by
  unfold arrayPattern
  skip1
  split
  · rename_i hh
    obtain rfl : l = [] := by simpa using hh
    ends h
  · skips <;> ends h
theorem constPatternEmpty_adds (h : Additive Q) {n : Node} : Res.Yields (constPatternEmpty n t u) fun m => Q m ↔ Q n := by
  unfold constPatternEmpty
  refine Res.safe_bind (arrayPattern_adds h) fun m hm => Res.safe_pure ?_
  unfold constPattern; adds h; simp [hm]

end Verif
