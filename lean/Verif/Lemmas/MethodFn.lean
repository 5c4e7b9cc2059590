import Verif.Lemmas.MethodSum
/-!
The functions of the builder put nothing into a node that was not in the arguments, apart from the few that define and assign.
-/
set_option linter.unusedSimpArgs false
namespace Verif
open Builder Grammar MethodSpec

variable {Q : Node → Prop} {ext : BldExt} {indent : Int} {xs : List Atom}

/-- The result has nothing that the arguments do not have. -/
def From (Q : Node → Prop) (xs : List Atom) (a : Atom) : Prop := Some_ Q a.trees → Some_ Q (treesOf xs)

theorem from_empty {a : Atom} (h : ¬ Some_ Q a.trees) : From Q xs a := fun g => absurd g h

theorem matchHashVar_mono (h : Mono Q) {t : Token} : BldR.Yields (matchHashVar ext t) fun m => ¬ Q m := by
  unfold matchHashVar
  skips
  refine BldR.safe_pure ?_
  monos h
  exact id
theorem matchVar_mono (h : Mono Q) {t : Token} : BldR.Yields (matchVar ext t) fun m => ¬ Q m :=
  matchVar_gives.imp fun m hm => by
    obtain ⟨l, l', rfl⟩ := hm
    monos h
    exact id
mutual
theorem matchHashVarFromStr_mono (h : Mono Q) : ∀ l, BldR.Yields (matchHashVarFromStr ext a b l) fun m => ¬ Q m
  | [] => by unfold matchHashVarFromStr; skips
  | [n] => by unfold matchHashVarFromStr; exact matchHashVarFromNode_mono h n
  | _ :: _ :: _ => by unfold matchHashVarFromStr; skips
theorem matchHashVarFromNode_mono (h : Mono Q) : ∀ n, BldR.Yields (matchHashVarFromNode ext a b n) fun m => ¬ Q m
  | .Begin l _ _ _ => by
    rw [matchHashVarFromNode]
    exact matchHashVarFromStr_mono h l
  | n => by
    unfold matchHashVarFromNode
    split
    · dsimp only
      skip1
      skip1
      refine BldR.safe_pure ?_
      monos h
      exact id
    · exact matchHashVarFromStr_mono h _
    · skips
end
theorem matchRest_mono (h : Mono Q) {t : Token} {o : Option Token} : BldR.Yields (matchRest ext t o) fun m => ¬ Q m := by
  unfold matchRest
  cases o with
  | none =>
    refine BldR.safe_bind (P := fun n => n = none) (BldR.safe_pure rfl) fun n hn => ?_
    subst hn
    refine BldR.safe_pure ?_
    rw [h.add.MatchRest]; simp
  | some u =>
    refine BldR.safe_bind (P := fun n => ∃ m, n = some m ∧ ¬ Q m) ?_ fun n hn => ?_
    · exact BldR.safe_bind (matchVar_mono h) fun m hm => BldR.safe_pure ⟨m, rfl, hm⟩
    · obtain ⟨m, rfl, hm⟩ := hn
      refine BldR.safe_pure ?_
      rw [h.add.MatchRest]; simpa using hm
theorem matchLabel_mono (h : Mono Q) {k : PKwLabel} : BldR.Yields (matchLabel ext k) fun m => ¬ Q m := by
  unfold matchLabel
  split
  · exact matchHashVar_mono h
  · exact matchHashVarFromStr_mono h _
theorem matchOp_mono (h : Mono Q) {n o : Node} : BldR.Yields (matchOp ext n t o) fun m => Q m → Q n ∨ Q o := by
  unfold matchOp
  skip1; skip1
  dsimp only
  refine BldR.safe_bind (P := fun _ => True) (BldR.yields_iff.mpr fun _ _ _ _ => trivial) fun c _ => ?_
  split
  · skip1
    refine BldR.safe_pure ?_
    monos h
    exact id
  · refine BldR.safe_pure ?_
    adds h.add
    exact id
theorem blockNode_mono (h : Mono Q) {c : Node} {as : ArgsType} {body : Option Node} (g : Q (blockNode c b as body e)) :
    Q c ∨ Some_ Q (Atom.trees (.args as)) ∨ Some_ Q body.toList := by
  revert g
  unfold blockNode
  cases as with
  | Args as => monos h; tauto
  | Numargs n =>
    monos h
    cases body with
    | none => simp only [Option.getD_none, h.add.Nil]; tauto
    | some body => simp
theorem block_mono (h : Mono Q) {c : Node} {as : ArgsType} {body : Option Node} : BldR.Yields (block c b as body e) fun n =>
    Q n → Q c ∨ Some_ Q (Atom.trees (.args as)) ∨ Some_ Q body.toList := by
  unfold block
  skip1
  split
  all_goals first
    | exact BldR.safe_pure (blockNode_mono h)
    | exact BldR.safe_lift BldM.yields_panic
    | (rename_i as' _ _
       rcases as' with - | ⟨c', as'⟩
       · skips
       · refine BldR.safe_bind (P := fun p => p.1 = [blockNode c' b as body e]) ?_ fun p hp => ?_
         · exact BldR.safe_lift (BldM.safe_liftR (Res.safe_ok rfl))
         · obtain ⟨p1, p2⟩ := p
           subst hp
           refine BldR.safe_pure ?_
           adds h.add
           intro g
           rcases blockNode_mono h g with g | g
           · exact .inl (.inl g)
           · exact .inr g)
theorem assign_mono (h : Mono Q) {n m : Node} : Res.Yields (assign n t m) fun r => Q r → Q n ∨ Q m := by
  unfold assign
  dsimp only
  split
  all_goals first
    | (split
       · refine Res.safe_ok ?_
         adds h.add
         tauto
       · skip1)
    | exact Res.safe_ok h.casgn
    | (refine Res.safe_ok ?_
       first
         | (adds h.add; tauto)
         | (monos h; tauto))
    | skip1
theorem accessible_mono (h : Mono Q) {n : Node} : BldM.Yields (accessible n) fun m => Q m → Q n := by
  have hv : ∀ a b, ¬ Q (.Lvar a b) := fun a b => by monos h; exact id
  have hs : ∀ a b c, ¬ Q (.Send none a [] none b none none none c) := fun a b c => by adds h.add; exact id
  unfold accessible
  split
  · skips
    all_goals first
      | exact BldM.safe_pure fun g => absurd g (hv _ _)
      | exact BldM.safe_pure fun g => absurd g (hs _ _ _)
  · exact BldM.safe_pure id
theorem pairLabel_mono (h : Mono Q) {t : Token} : BldM.Yields (pairLabel ext t) fun m => ¬ Q m := by
  unfold pairLabel
  skip1
  skip1
  split
  · skips
  · refine BldM.safe_bind (accessible_mono h) fun v hv => (pairKeyword_adds h.add).imp fun m hm => fun g => ?_
    have g := hv (hm.mp g)
    revert g
    split
    · monos h; exact id
    · adds h.add; exact id
theorem beginBody_mono (h : Mono Q) {c : Option Node} {l : List Node} {el : Option (Token × Option Node)} {o : Option Token} {n : Option Node} :
    Res.Yields (beginBody c l el (o.map fun t => (t, n))) fun m => Some_ Q m.toList →
      Some_ Q c.toList ∨ Some_ Q l ∨ Some_ Q (el.bind (·.2)).toList ∨ Some_ Q n.toList :=
  (beginBody_adds h.add).imp fun m hm g => by
    rcases hm.mp g with g | g | g | g
    · exact .inl g
    · exact .inr (.inl g)
    · exact .inr (.inr (.inl g))
    · refine .inr (.inr (.inr ?_))
      cases o with
      | none => simp at g
      | some o => simpa using g
theorem keyword_mono (h : Mono Q) {k : KeywordCmd} {l : List Node} : BldR.Yields (keywordCmd k t b l e) fun r => Q r → Some_ Q l := by
  by_cases hk : k = .Redo ∨ k = .Retry ∨ k = .Zsuper
  · unfold keywordCmd
    dsimp only
    split
    · skips
    · refine BldR.safe_bind (BldR.safe_lift (BldM.safe_liftR Res.yields_any)) fun m _ => ?_
      rcases hk with rfl | rfl | rfl <;> (refine BldR.safe_pure ?_; adds h.add; exact False.elim)
  · simp only [not_or] at hk
    by_cases hd : k = .Defined
    · subst hd
      unfold keywordCmd
      dsimp only
      refine BldR.safe_bind (P := fun m => m = l) (BldR.safe_lift (BldM.safe_liftR (Res.safe_ok rfl))) fun m hm => ?_
      subst hm
      cases m with
      | nil => skips
      | cons n l =>
        refine BldR.safe_bind (P := fun m => m = n) (BldR.safe_lift (BldM.safe_liftR (Res.safe_ok rfl))) fun m hm => ?_
        subst hm
        exact BldR.safe_pure fun g => some_cons.mpr (.inl (h.add.Defined.mp g))
    · exact (keyword_plain h.add ⟨hk.1, hk.2.1, hk.2.2, hd⟩).imp fun m hm => hm.mp
theorem opAssign_mono (h : Mono Q) {n v : Node} : BldR.Yields (opAssign n t v) fun m => Q m → Q n ∨ Q v := by
  unfold opAssign
  skip1
  dsimp only
  refine BldR.safe_bind (opAssignLhs_adds h.add) fun m hm => ?_
  rw [← hm]
  split
  · exact BldR.safe_pure h.andAsgn
  · split
    · exact BldR.safe_pure h.orAsgn
    · exact BldR.safe_pure h.opAsgn

theorem from_node {n : Node} (h : Q n → Some_ Q (treesOf xs)) : From Q xs (.node n) := fun g => h (by simpa [Atom.trees] using g)
theorem from_no {n : Node} (h : ¬ Q n) : From Q xs (.node n) := from_node fun g => absurd g h

theorem fn_mono (h : Mono Q) {f : BFn} (hf : criticalFn f = false) : BldR.Yields (applyFn ext indent f xs) (From Q xs) := by
  by_cases hp : plainFn f = true
  · exact (fn_plain h.add hp xs).imp fun a ha => ha.mp
  cases f <;> first | (exact absurd rfl hp) | (cases hf; done) | skip
  case someT => dsimp only [applyFn, withT]; split <;> first | exact illTyped_yields | exact outp_yields (from_empty (by simp [Atom.trees]))
  case noneT => dsimp only [applyFn, withNone]; split <;> first | exact illTyped_yields | exact outp_yields (from_empty (by simp [Atom.trees]))
  case endlessName => dsimp only [applyFn, withT]; split <;> first | exact illTyped_yields | exact outB_yields (BldR.yields_iff.mpr fun _ _ _ _ => from_empty (by simp [Atom.trees]))
  case kwargName => dsimp only [applyFn, withT]; split <;> first | exact illTyped_yields | exact outB_yields (BldR.yields_iff.mpr fun _ _ _ _ => from_empty (by simp [Atom.trees]))
  case argsType =>
    dsimp only [applyFn, withP]
    split <;> try exact illTyped_yields
    refine outB_yields ?_
    unfold argsType
    skip1
    split
    · exact BldR.safe_pure (from_empty (by simp [Atom.trees]))
    · exact BldR.safe_pure (by unfold From; flat; exact id)
  case lvar =>
    dsimp only [applyFn, withT]
    split <;> try exact illTyped_yields
    refine outR_yields ?_
    unfold lvar
    skip1
    exact Res.safe_pure (from_no (by monos h; exact id))
  case arg =>
    dsimp only [applyFn, withT]
    split <;> try exact illTyped_yields
    refine outB_yields ?_
    unfold arg
    skips
    exact BldR.safe_pure (from_no (by monos h; exact id))
  case shadowarg =>
    dsimp only [applyFn, withT]
    split <;> try exact illTyped_yields
    refine outB_yields ?_
    unfold shadowarg
    skips
    exact BldR.safe_pure (from_no (by monos h; exact id))
  case kwarg =>
    dsimp only [applyFn, withT]
    split <;> try exact illTyped_yields
    refine outB_yields ?_
    unfold kwarg
    skips
    exact BldR.safe_pure (from_no (by monos h; exact id))
  case restarg =>
    dsimp only [applyFn, withTO]
    split <;> try exact illTyped_yields
    refine outB_yields ?_
    unfold restarg
    skips
    exact BldR.safe_pure (from_no (by monos h; exact id))
  case kwrestarg =>
    dsimp only [applyFn, withTO]
    split <;> try exact illTyped_yields
    refine outB_yields ?_
    unfold kwrestarg
    skips
    exact BldR.safe_pure (from_no (by monos h; exact id))
  case blockarg =>
    dsimp only [applyFn, withTO]
    split <;> try exact illTyped_yields
    refine outB_yields ?_
    unfold blockarg
    skips
    all_goals exact BldR.safe_pure (from_no (by monos h; exact id))
  case optarg =>
    dsimp only [applyFn, withTTN]
    split <;> try exact illTyped_yields
    refine outB_yields ?_
    unfold optarg
    skips
    exact BldR.safe_pure (from_node (by monos h; exact id))
  case kwoptarg =>
    dsimp only [applyFn, withTN]
    split <;> try exact illTyped_yields
    refine outB_yields ?_
    unfold kwoptarg
    skips
    exact BldR.safe_pure (from_node (by monos h; exact id))
  case matchVar =>
    dsimp only [applyFn, withT]
    split <;> try exact illTyped_yields
    exact outB_yields ((matchVar_mono h).imp fun m hm => from_no hm)
  case matchRest =>
    dsimp only [applyFn, withTO]
    split <;> try exact illTyped_yields
    exact outB_yields ((matchRest_mono h).imp fun m hm => from_no hm)
  case matchLabel =>
    dsimp only [applyFn, withK]
    split <;> try exact illTyped_yields
    exact outB_yields ((matchLabel_mono h).imp fun m hm => from_no hm)
  case matchOp =>
    dsimp only [applyFn, withNTN]
    split <;> try exact illTyped_yields
    exact outB_yields ((matchOp_mono h).imp fun m hm => from_node (by flat; exact hm))
  case bodystmtElse =>
    dsimp only [applyFn, withPLTPOP]
    split <;> try exact illTyped_yields
    refine outB_yields ?_
    unfold bodystmtElse
    split
    · skips
    · exact BldR.safe_lift (BldM.safe_liftR ((beginBody_mono h).imp fun m hm => by unfold From; flat; simpa using hm))
  case bodystmt =>
    dsimp only [applyFn, withPLOP]
    split <;> try exact illTyped_yields
    exact outR_yields ((beginBody_mono h).imp fun m hm => by unfold From; flat; simpa using hm)
  case accessible =>
    dsimp only [applyFn, withN]
    split <;> try exact illTyped_yields
    exact outM_yields ((accessible_mono h).imp fun m hm => from_node (by flat; exact hm))
  case assign =>
    dsimp only [applyFn, withNTN]
    split <;> try exact illTyped_yields
    exact outR_yields ((assign_mono h).imp fun m hm => from_node (by flat; exact hm))
  case opAssign =>
    dsimp only [applyFn, withNTN]
    split <;> try exact illTyped_yields
    exact outB_yields ((opAssign_mono h).imp fun m hm => from_node (by flat; exact hm))
  case block =>
    dsimp only [applyFn, withNTAPT]
    split <;> try exact illTyped_yields
    exact outB_yields ((block_mono h).imp fun m hm => from_node (by flat; exact hm))
  case lambda =>
    dsimp only [applyFn, withTATPT]
    split <;> try exact illTyped_yields
    refine outB_yields ((block_mono h).imp fun m hm => from_node (by unfold callLambda at hm; rw [h.add.Lambda] at hm; flat; exact fun g => (hm g).elim False.elim id))
  case keyword =>
    dsimp only [applyFn, withTL]
    split <;> try exact illTyped_yields
    exact outB_yields ((keyword_mono h).imp fun m hm => from_node (by flat; exact hm))
  case keywordParen =>
    dsimp only [applyFn, withTTLT]
    split <;> try exact illTyped_yields
    exact outB_yields ((keyword_mono h).imp fun m hm => from_node (by flat; exact hm))
  case pairLabel =>
    dsimp only [applyFn, withT]
    split <;> try exact illTyped_yields
    exact outM_yields ((pairLabel_mono h).imp fun m hm => from_no hm)

end Verif
