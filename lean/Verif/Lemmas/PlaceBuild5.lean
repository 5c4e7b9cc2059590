import Verif.Lemmas.PlaceBuild4
/-!
Where the nodes made by the builder's functions lie, given where their arguments lie: fifth part, assignments and parameters.
-/
namespace Verif
open Builder

macro "wider" : tactic => `(tactic| (
  (repeat' apply And.intro) <;> first
    | omega
    | assumption
    | (refine okid_within (by assumption) ?_ <;> simp only [Loc.Within] <;> omega)
    | (refine kid_within (by assumption) ?_ <;> simp only [Loc.Within] <;> omega)
    | (refine kids_within (by assumption) ?_ <;> simp only [Loc.Within] <;> omega)
    | (refine oloc_within (by assumption) ?_ <;> simp only [Loc.Within] <;> omega)
    | skip))

theorem expr_Cvasgn : (Node.Cvasgn a0 a1 a2 a3 x).expression = x := rfl

theorem expr_Ivasgn : (Node.Ivasgn a0 a1 a2 a3 x).expression = x := rfl

theorem expr_Gvasgn : (Node.Gvasgn a0 a1 a2 a3 x).expression = x := rfl

theorem expr_Lvasgn : (Node.Lvasgn a0 a1 a2 a3 x).expression = x := rfl

theorem expr_Casgn : (Node.Casgn a0 a1 a2 a3 a4 a5 x).expression = x := rfl

theorem expr_IndexAsgn : (Node.IndexAsgn a0 a1 a2 a3 a4 a5 x).expression = x := rfl

theorem expr_Send : (Node.Send a0 a1 a2 a3 a4 a5 a6 a7 x).expression = x := rfl

theorem expr_CSend : (Node.CSend a0 a1 a2 a3 a4 a5 a6 a7 x).expression = x := rfl

theorem expr_Index : (Node.Index a0 a1 a2 a3 x).expression = x := rfl

theorem accessible_at {x0 : Node} (h0 : x0.At p0 p1) : BldM.Gives (accessible x0) (·.At p0 p1) := by
  unfold accessible
  split
  · next name x =>
    have h1 : (Node.Send none name [] none (some x) none none none x).At p0 p1 := by
      rw [at_Lvar] at h0
      rw [at_Send]
      simp only [okid_none, oloc_none, oloc_some, kids_nil, Loc.Within, and_true, true_and]
      omega
    generalize hl : Node.Lvar name x = l at *
    dsimp only
    repeat' (first
      | exact BldM.gives_pure (by assumption)
      | exact BldM.gives_any fun _ => BldM.gives_pure (by assumption)
      | refine BldM.gives_any fun _ => ?_
      | split)
  · exact BldM.gives_pure h0

theorem assignable_at {x0 : Node} (h0 : x0.At p0 p1) : BldR.Gives (assignable x0) (·.At p0 p1) := by
  unfold assignable
  split
  all_goals first
    | exact BldR.gives_any fun _ => BldR.gives_err
    | exact BldR.gives_lift BldM.gives_panic
    | skip
  · refine BldR.gives_pure ?_; rw [at_Cvar] at h0; rw [at_Cvasgn]; simp only [okid_none, oloc_none, Loc.Within, and_true, true_and]; omega
  · refine BldR.gives_pure ?_; rw [at_Ivar] at h0; rw [at_Ivasgn]; simp only [okid_none, oloc_none, Loc.Within, and_true, true_and]; omega
  · refine BldR.gives_pure ?_; rw [at_Gvar] at h0; rw [at_Gvasgn]; simp only [okid_none, oloc_none, Loc.Within, and_true, true_and]; omega
  · refine BldR.gives_any fun s => ?_
    split
    · exact BldR.gives_any fun _ => BldR.gives_err
    · refine BldR.gives_pure ?_
      rw [at_Const] at h0; rw [at_Casgn]; simp only [okid_none, oloc_none]; tauto
  · refine BldR.gives_any fun _ => BldR.gives_any fun _ => BldR.gives_any fun _ => BldR.gives_pure ?_
    rw [at_Lvar] at h0; rw [at_Lvasgn]; simp only [okid_none, oloc_none, Loc.Within, and_true, true_and]; omega
  · exact BldR.gives_any fun _ => BldR.gives_any fun _ => BldR.gives_pure h0

theorem constOpAssignable_at {x0 : Node} (h0 : x0.At p0 p1) : Res.Gives (constOpAssignable x0) (·.At p0 p1) := by
  unfold constOpAssignable
  split
  · refine Res.gives_ok ?_
    rw [at_Const] at h0; rw [at_Casgn]; simp only [okid_none, oloc_none]; tauto
  · exact Res.gives_error

theorem assign_at {x0 : Node} {x1 : Token} {x2 : Node} (h0 : x0.At p0 p1) (h1 : x1.At p1 p2) (h2 : x2.At p2 p3) :
    Res.Gives (assign x0 x1 x2) (·.At p0 p3) := by
  unfold assign
  dsimp only
  simp only [Node.At] at h2
  simp only [Token.At] at h1
  split
  all_goals first
    | exact Res.gives_error
    | (split <;> first | exact Res.gives_error | skip)
    | skip
  all_goals (refine Res.gives_ok ?_)
  · rw [at_Cvasgn] at h0; rw [at_Cvasgn]
    simp only [okid_some, oloc_some, Kid, joinExprs, expr_Cvasgn, Loc.join, Loc.Within] at *; casesm* _ ∧ _; wider
  · rw [at_Ivasgn] at h0; rw [at_Ivasgn]
    simp only [okid_some, oloc_some, Kid, joinExprs, expr_Ivasgn, Loc.join, Loc.Within] at *; casesm* _ ∧ _; wider
  · rw [at_Gvasgn] at h0; rw [at_Gvasgn]
    simp only [okid_some, oloc_some, Kid, joinExprs, expr_Gvasgn, Loc.join, Loc.Within] at *; casesm* _ ∧ _; wider
  · rw [at_Lvasgn] at h0; rw [at_Lvasgn]
    simp only [okid_some, oloc_some, Kid, joinExprs, expr_Lvasgn, Loc.join, Loc.Within] at *; casesm* _ ∧ _; wider
  · rw [at_Casgn] at h0; rw [at_Casgn]
    simp only [okid_some, oloc_some, Kid, joinExprs, expr_Casgn, Loc.join, Loc.Within] at *; casesm* _ ∧ _; wider
  · rw [at_IndexAsgn] at h0; rw [at_IndexAsgn]
    simp only [okid_some, oloc_some, Kid, joinExprs, expr_IndexAsgn, Loc.join, Loc.Within] at *; casesm* _ ∧ _; wider
  · rw [at_Send] at h0; rw [at_Send]
    simp only [kids_one, okid_some, oloc_some, Kid, joinExprs, expr_Send, Loc.join, Loc.Within] at *; casesm* _ ∧ _; wider
  · rw [at_CSend] at h0; rw [at_CSend]
    simp only [kids_one, okid_some, oloc_some, Kid, joinExprs, expr_CSend, Loc.join, Loc.Within] at *; casesm* _ ∧ _; wider

theorem opAssignLhs_at {x0 : Node} (h0 : x0.At p0 p1) :
    BldR.Gives (opAssignLhs x0) (fun r => Nested r ∧ r.expression = x0.expression) := by
  unfold opAssignLhs
  split
  all_goals first
    | exact BldR.gives_any fun _ => BldR.gives_err
    | exact BldR.gives_lift BldM.gives_panic
    | exact BldR.gives_pure ⟨h0.1, rfl⟩
    | skip
  refine BldR.gives_pure ⟨?_, rfl⟩
  rw [at_Index] at h0
  rw [nested_IndexAsgn]; simp only [okid_none, oloc_none]; tauto

theorem opAssign_at {x0 : Node} {x1 : Token} {x2 : Node} (h0 : x0.At p0 p1) (h1 : x1.At p1 p2) (h2 : x2.At p2 p3) :
    BldR.Gives (opAssign x0 x1 x2) (·.At p0 p3) := by
  unfold opAssign
  refine BldR.gives_any fun _ => BldR.gives_bind (opAssignLhs_at h0) fun r ⟨g1, g2⟩ => ?_
  have hr : r.At p0 p1 := ⟨g1, by rw [g2]; exact h0.2⟩
  unfold joinExprs
  rw [← g2]
  clear g1 g2 h0
  split
  · exact BldR.gives_pure (by place at_AndAsgn)
  · split
    · exact BldR.gives_pure (by place at_OrAsgn)
    · exact BldR.gives_pure (by place at_OpAsgn)

theorem defEndlessMethod_at {x0 x1 : Token} {x2 : Option Node} {x3 : Token} {x4 : Option Node} (h0 : x0.At p0 p1) (h1 : x1.At p1 p2)
    (h2 : ONode.At x2 p2 p3) (h3 : x3.At p3 p4) (h4 : ONode.At x4 p4 p5) :
    BldR.Gives (defEndlessMethod x0 x1 x2 x3 x4) (·.At p0 p5) := by
  unfold defEndlessMethod
  rcases x4 with _ | x4
  · exact BldR.gives_lift BldM.gives_panic
  · exact BldR.gives_any fun _ => BldR.gives_any fun _ => BldR.gives_pure (by place at_Def)

theorem defEndlessSingleton_at {x0 : Token} {xn : Node} {xd x1 : Token} {x2 : Option Node} {x3 : Token} {x4 : Option Node}
    (h0 : x0.At p0 p1) (hn : xn.At p1 q) (hd : xd.At q r) (h1 : x1.At r p2)
    (h2 : ONode.At x2 p2 p3) (h3 : x3.At p3 p4) (h4 : ONode.At x4 p4 p5) :
    BldR.Gives (defEndlessSingleton x0 xn xd x1 x2 x3 x4) (·.At p0 p5) := by
  unfold defEndlessSingleton
  rcases x4 with _ | x4
  · exact BldR.gives_lift BldM.gives_panic
  · exact BldR.gives_any fun _ => BldR.gives_any fun _ => BldR.gives_pure (by place at_Defs)

theorem undefMethod_at {x0 : Token} {x1 : List Node} (h0 : x0.At p0 p1) (h1 : Nodes.At x1 p1 p2) : (undefMethod x0 x1).At p0 p2 := by
  unfold undefMethod
  have := h1.le
  rcases collectionExpr_at h1 with ⟨rfl, h⟩ | ⟨l, h, g1, g2, g3, g4⟩
  · rw [h]; place at_Undef
  · rw [h, at_Undef]
    simp only [Token.At] at h0
    simp only [Loc.maybeJoin, Loc.join, Loc.Within]
    casesm* _ ∧ _; wider

theorem adjustEnd_at {x0 : Token} (h0 : x0.At p0 p1) (hs : x0.loc.begin + 1 ≤ x0.loc.stop) :
    Res.Gives (x0.loc.adjustEnd (-1)) (fun l => l.begin = x0.loc.begin ∧ l.stop + 1 = x0.loc.stop) := by
  intro l hl
  simp only [Token.At] at h0
  unfold Loc.adjustEnd at hl
  cases ha : Loc.adjustNat x0.loc.stop (-1) with
  | error e => rw [ha] at hl; cases hl
  | ok n =>
    rw [ha] at hl
    cases hl
    refine ⟨rfl, ?_⟩
    unfold Loc.adjustNat at ha
    dsimp only at ha
    split at ha
    · split at ha
      · split at ha
        · cases ha; show Int.toNat (x0.loc.stop + -1) + 1 = x0.loc.stop; omega
        · cases ha
      · cases ha
    · cases ha

theorem kwarg_at {x0 : Token} (h0 : x0.At p0 p1) (hs : x0.loc.begin + 1 ≤ x0.loc.stop) : BldR.Gives (kwarg x0) (·.At p0 p1) := by
  unfold kwarg
  refine BldR.gives_any fun _ => BldR.gives_any fun _ => BldR.gives_bind (BldR.gives_lift (BldM.gives_liftR (adjustEnd_at h0 hs))) fun l hl => BldR.gives_pure ?_
  place at_Kwarg

theorem kwoptarg_at {x0 : Token} {x1 : Node} (h0 : x0.At p0 p1) (h1 : x1.At p1 p2) (hs : x0.loc.begin + 1 ≤ x0.loc.stop) :
    BldR.Gives (kwoptarg x0 x1) (·.At p0 p2) := by
  unfold kwoptarg
  refine BldR.gives_any fun _ => BldR.gives_any fun _ => BldR.gives_bind (BldR.gives_lift (BldM.gives_liftR (adjustEnd_at h0 hs))) fun l hl => BldR.gives_pure ?_
  place at_Kwoptarg

theorem procarg0_at {x0 : Node} (h0 : x0.At p0 p1) : Res.Gives (procarg0 x0) (·.At p0 p1) := by
  unfold procarg0
  split
  · refine Res.gives_ok ?_
    rw [at_Mlhs] at h0; rw [at_Procarg0]; exact h0
  · next name x =>
    refine Res.gives_ok ?_
    have h1 := h0.1
    rw [at_Arg] at h0; rw [at_Procarg0]
    simp only [kids_one, oloc_none, Kid, and_true]
    exact ⟨by omega, by omega, h1, by show x.begin ≤ x.begin ∧ x.begin ≤ x.stop ∧ x.stop ≤ x.stop; omega⟩
  · exact Res.gives_error

end Verif
