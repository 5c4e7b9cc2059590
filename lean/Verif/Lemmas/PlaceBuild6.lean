import Verif.Lemmas.PlaceBuild5
/-!
Where the nodes made by the builder's functions lie, given where their arguments lie: sixth part, calls and blocks.
-/
namespace Verif
open Builder

/-- What a call of `call_method` needs: where the receiver, the selector and the arguments lie. -/
theorem callMethod_cases {recv : Option Node} {dot sel lp : Option Token} {args : List Node} {rp : Option Token} {b e : Loc} {q q' : Nat}
    {P : Node → Prop}
    (hb : (maybeExpr recv).or (maybeLoc sel) = some b)
    (he : ((maybeLoc rp).or (maybeExpr args.getLast?)).or (maybeLoc sel) = some e)
    (ha : Nodes.At args q q')
    (h1 : ∀ name args', Nodes.At args' q q' → P (.Send recv name args' (maybeLoc dot) (maybeLoc sel) (maybeLoc lp) (maybeLoc rp) none (b.join e)))
    (h2 : ∀ r d name args', recv = some r → dot = some d → Nodes.At args' q q' →
      P (.CSend r name args' d.loc (maybeLoc sel) (maybeLoc lp) (maybeLoc rp) none (b.join e))) :
    Res.Gives (callMethod recv dot sel lp args rp) P := by
  unfold callMethod
  rw [hb, he]
  refine Res.gives_bind (P := (· = b)) (Res.gives_ok rfl) fun b' hb' => ?_
  subst hb'
  refine Res.gives_bind (P := (· = e)) (Res.gives_ok rfl) fun e' he' => ?_
  subst he'
  refine Res.gives_any fun name => Res.gives_bind (rewriteHashArgsToKwargs_at ha) fun args' ha' => ?_
  split
  · exact Res.gives_pure (h1 _ _ ha')
  · rcases recv with _ | r
    · exact Res.gives_bind (P := fun _ => False) Res.gives_error fun _ h => h.elim
    · refine Res.gives_bind (P := (· = r)) (Res.gives_ok rfl) fun r' hr' => ?_
      subst hr'
      rcases dot with _ | d
      · exact Res.gives_bind (P := fun _ => False) Res.gives_error fun _ h => h.elim
      · refine Res.gives_bind (P := (· = d.loc)) (Res.gives_ok rfl) fun d' hd' => ?_
        subst hd'
        exact Res.gives_pure (h2 _ _ _ _ rfl rfl ha')

/-- `recv.name args`. -/
theorem callDot_at {x0 : Node} {x1 x2 : Token} {x3 : List Node} (h0 : x0.At p0 p1) (h1 : x1.At p1 p2) (h2 : x2.At p2 p3)
    (h3 : Nodes.At x3 p3 p4) : Res.Gives (callMethod (some x0) (some x1) (some x2) none x3 none) (·.At p0 p4) := by
  by_cases hn : x3 = []
  · subst hn
    refine callMethod_cases (b := x0.expression) (e := x2.loc) (q := x2.loc.stop) (q' := x2.loc.stop) rfl rfl (Nat.le_refl _) (fun n as ha => ?_) (fun r d n as hr hd ha => ?_)
    · place at_Send
    · cases hr; cases hd
      place at_CSend
  · obtain ⟨l, hl, g1, g2⟩ := nodes_at_last h3 hn
    refine callMethod_cases (b := x0.expression) (e := l.expression) rfl (by rw [hl]; rfl) g2 (fun n as ha => ?_) (fun r d n as hr hd ha => ?_)
    · clear g2 h3 hl; place at_Send
    · clear g2 h3 hl; cases hr; cases hd; place at_CSend

/-- `name args`. -/
theorem callFn_at {x0 : Token} {x1 : List Node} (h0 : x0.At p0 p1) (h1 : Nodes.At x1 p1 p2) :
    Res.Gives (callMethod none none (some x0) none x1 none) (·.At p0 p2) := by
  by_cases hn : x1 = []
  · subst hn
    refine callMethod_cases (b := x0.loc) (e := x0.loc) (q := x0.loc.stop) (q' := x0.loc.stop) rfl rfl (Nat.le_refl _) (fun n as ha => ?_) (fun r d n as hr hd ha => nomatch hr)
    place at_Send
  · obtain ⟨l, hl, g1, g2⟩ := nodes_at_last h1 hn
    refine callMethod_cases (b := x0.loc) (e := l.expression) rfl (by rw [hl]; rfl) g2 (fun n as ha => ?_) (fun r d n as hr hd ha => nomatch hr)
    clear g2 h1 hl; place at_Send

/-- `name(args)`. -/
theorem callFnParen_at {x0 x1 : Token} {x2 : List Node} {x3 : Token} (h0 : x0.At p0 p1) (h1 : x1.At p1 p2) (h2 : Nodes.At x2 p2 p3)
    (h3 : x3.At p3 p4) : Res.Gives (callMethod none none (some x0) (some x1) x2 (some x3)) (·.At p0 p4) := by
  refine callMethod_cases (b := x0.loc) (e := x3.loc) rfl rfl h2 (fun n as ha => ?_) (fun r d n as hr hd ha => nomatch hr)
  clear h2; place at_Send

/-- `recv.name(args)`. -/
theorem callDotParen_at {x0 : Node} {x1 x2 x3 : Token} {x4 : List Node} {x5 : Token} (h0 : x0.At p0 p1) (h1 : x1.At p1 p2)
    (h2 : x2.At p2 p3) (h3 : x3.At p3 p4) (h4 : Nodes.At x4 p4 p5) (h5 : x5.At p5 p6) :
    Res.Gives (callMethod (some x0) (some x1) (some x2) (some x3) x4 (some x5)) (·.At p0 p6) := by
  refine callMethod_cases (b := x0.expression) (e := x5.loc) rfl rfl h4 (fun n as ha => ?_) (fun r d n as hr hd ha => ?_)
  · clear h4; place at_Send
  · cases hr; cases hd; clear h4; place at_CSend

/-- `recv.(args)`. -/
theorem callParen_at {x0 : Node} {x1 x3 : Token} {x4 : List Node} {x5 : Token} (h0 : x0.At p0 p1) (h1 : x1.At p1 p3)
    (h3 : x3.At p3 p4) (h4 : Nodes.At x4 p4 p5) (h5 : x5.At p5 p6) :
    Res.Gives (callMethod (some x0) (some x1) none (some x3) x4 (some x5)) (·.At p0 p6) := by
  refine callMethod_cases (b := x0.expression) (e := x5.loc) rfl rfl h4 (fun n as ha => ?_) (fun r d n as hr hd ha => ?_)
  · clear h4; place at_Send
  · cases hr; cases hd; clear h4; place at_CSend

/-- Where the parameters of a block lie. -/
def ArgsAt : ArgsType → Nat → Nat → Prop
  | .Args a, p, q => ONode.At a p q
  | .Numargs _, p, q => p ≤ q

theorem ArgsAt.le {a : ArgsType} (h : ArgsAt a p q) : p ≤ q := by
  cases a with
  | Args a => exact ONode.At.le h
  | Numargs n => exact h

theorem blockNode_at {x0 : Node} {x1 : Token} {x2 : ArgsType} {x3 : Option Node} {x4 : Token} (h0 : x0.At p0 p1) (h1 : x1.At p1 p2)
    (h2 : ArgsAt x2 p2 p3) (h3 : ONode.At x3 p3 p4) (h4 : x4.At p4 p5) : (blockNode x0 x1 x2 x3 x4).At p0 p5 := by
  unfold blockNode
  rcases x2 with a | n
  · simp only [ArgsAt] at h2
    dsimp only
    place at_Block
  · simp only [ArgsAt] at h2
    rcases x3 with _ | x3
    · place at_Numblock
      · rw [nested_Nil]; exact Nat.le_refl _
      · exact Or.inl rfl
    · place at_Numblock
      exact Or.inr (by simp only [Loc.Within]; omega)

theorem blockNode_expr : (blockNode x0 x1 x2 x3 x4).expression = x0.expression.join x4.loc := by
  unfold blockNode; cases x2 <;> rfl

theorem rewriteArgsAndLoc_at {args : List Node} {x : Loc} {x1 : Token} {x2 : ArgsType} {x3 : Option Node} {x4 : Token}
    (h0 : p0 ≤ x.begin ∧ x.begin ≤ x.stop ∧ x.stop ≤ p1) (ha : Kids args x) (h1 : x1.At p1 p2)
    (h2 : ArgsAt x2 p2 p3) (h3 : ONode.At x3 p3 p4) (h4 : x4.At p4 p5) :
    Res.Gives (rewriteArgsAndLoc args x x1 x2 x3 x4) (fun r => x.Within r.2 ∧ Kids r.1 r.2 ∧ p0 ≤ r.2.begin ∧ r.2.begin ≤ r.2.stop ∧
      r.2.stop ≤ p5) := by
  unfold rewriteArgsAndLoc
  rcases args with _ | ⟨n, args⟩
  · exact Res.gives_bind (P := fun _ => False) Res.gives_error fun _ h => h.elim
  · refine Res.gives_bind (P := (· = n)) (Res.gives_ok rfl) fun r' hr' => ?_
    subst hr'
    have hn : r'.At x.begin p1 := by
      have := ha r' (by simp)
      simp only [Kid, Loc.Within] at this
      exact ⟨this.1, by omega, by omega, by omega⟩
    have hb := blockNode_at hn h1 h2 h3 h4
    refine Res.gives_pure ?_
    dsimp only
    generalize blockNode r' x1 x2 x3 x4 = c at *
    have l1 := h1.le; have l2 := h2.le; have l3 := h3.le; have l4 := h4.le
    simp only [kids_one, Kid, Node.At, Loc.join, Loc.Within] at *
    refine ⟨?_, ⟨hb.1, ?_⟩, ?_⟩ <;> omega

theorem block_at {x0 : Node} {x1 : Token} {x2 : ArgsType} {x3 : Option Node} {x4 : Token} (h0 : x0.At p0 p1) (h1 : x1.At p1 p2)
    (h2 : ArgsAt x2 p2 p3) (h3 : ONode.At x3 p3 p4) (h4 : x4.At p4 p5) : BldR.Gives (block x0 x1 x2 x3 x4) (·.At p0 p5) := by
  unfold block
  refine BldR.gives_any fun _ => ?_
  split
  all_goals first
    | exact BldR.gives_pure (blockNode_at h0 h1 h2 h3 h4)
    | exact BldR.gives_lift BldM.gives_panic
    | skip
  · rw [at_Return] at h0
    refine BldR.gives_bind (BldR.gives_lift (BldM.gives_liftR (rewriteArgsAndLoc_at (p0 := p0) (p1 := p1) ⟨h0.1.1, h0.2.1, h0.1.2⟩ h0.2.2.1 h1 h2 h3 h4))) fun r hr => ?_
    refine BldR.gives_pure ?_
    rw [at_Return]
    exact ⟨⟨hr.2.2.1, hr.2.2.2.2⟩, hr.2.2.2.1, hr.2.1, within_trans h0.2.2.2 hr.1⟩
  · rw [at_Next] at h0
    refine BldR.gives_bind (BldR.gives_lift (BldM.gives_liftR (rewriteArgsAndLoc_at (p0 := p0) (p1 := p1) ⟨h0.1.1, h0.2.1, h0.1.2⟩ h0.2.2.1 h1 h2 h3 h4))) fun r hr => ?_
    refine BldR.gives_pure ?_
    rw [at_Next]
    exact ⟨⟨hr.2.2.1, hr.2.2.2.2⟩, hr.2.2.2.1, hr.2.1, within_trans h0.2.2.2 hr.1⟩
  · rw [at_Break] at h0
    refine BldR.gives_bind (BldR.gives_lift (BldM.gives_liftR (rewriteArgsAndLoc_at (p0 := p0) (p1 := p1) ⟨h0.1.1, h0.2.1, h0.1.2⟩ h0.2.2.1 h1 h2 h3 h4))) fun r hr => ?_
    refine BldR.gives_pure ?_
    rw [at_Break]
    exact ⟨⟨hr.2.2.1, hr.2.2.2.2⟩, hr.2.2.2.1, hr.2.1, within_trans h0.2.2.2 hr.1⟩

/-- `-> (a) { … }`: the arguments come before the opening brace. -/
theorem lambda_at {x0 : Token} {x2 : ArgsType} {x1 : Token} {x3 : Option Node} {x4 : Token} (h0 : x0.At p0 p1)
    (h2 : ArgsAt x2 p1 p2) (h1 : x1.At p2 p3) (h3 : ONode.At x3 p3 p4) (h4 : x4.At p4 p5) :
    BldR.Gives (block (callLambda x0) x1 x2 x3 x4) (·.At p0 p5) := by
  unfold block callLambda
  refine BldR.gives_any fun _ => BldR.gives_pure ?_
  unfold blockNode
  have h5 : (Node.Lambda x0.loc).At p0 p1 := by place at_Lambda
  generalize Node.Lambda x0.loc = c at *
  clear h0
  rcases x2 with a | n
  · simp only [ArgsAt] at h2
    dsimp only
    place at_Block
  · simp only [ArgsAt] at h2
    rcases x3 with _ | x3
    · place at_Numblock
      · rw [nested_Nil]; exact Nat.le_refl _
      · exact Or.inl rfl
    · place at_Numblock
      exact Or.inr (by simp only [Loc.Within]; omega)

theorem attrAsgn_at {x0 : Node} {x1 x2 : Token} (h0 : x0.At p0 p1) (h1 : x1.At p1 p2) (h2 : x2.At p2 p3) :
    Res.Gives (attrAsgn x0 x1 x2) (·.At p0 p3) := by
  unfold attrAsgn
  refine Res.gives_any fun _ => ?_
  split
  · exact Res.gives_pure (by place at_Send)
  · exact Res.gives_pure (by place at_CSend)

theorem index_at {x0 : Node} {x1 : Token} {x2 : List Node} {x3 : Token} (h0 : x0.At p0 p1) (h1 : x1.At p1 p2) (h2 : Nodes.At x2 p2 p3)
    (h3 : x3.At p3 p4) : Res.Gives (index x0 x1 x2 x3) (·.At p0 p4) := by
  unfold index
  refine Res.gives_bind (rewriteHashArgsToKwargs_at h2) fun as ha => Res.gives_pure ?_
  clear h2
  place at_Index

/-- `keyword args`. -/
theorem keywordCmd_at {x0 : Token} {x1 : List Node} (h0 : x0.At p0 p1) (h1 : Nodes.At x1 p1 p2) :
    BldR.Gives (keywordCmd ty x0 none x1 none) (·.At p0 p2) := by
  unfold keywordCmd
  dsimp only
  have key : ∀ as, Nodes.At as p1 p2 → ∃ x : Loc, x0.loc.join (((maybeLoc none).or (maybeExpr as.getLast?)).getD x0.loc) = x ∧
      p0 ≤ x.begin ∧ x.begin ≤ x.stop ∧ x.stop ≤ p2 ∧ x0.loc.Within x ∧ Kids as x := by
    intro as ha
    have := ha.le
    simp only [Token.At] at h0
    by_cases hn : as = []
    · subst hn
      refine ⟨_, rfl, ?_⟩
      simp only [List.getLast?_nil, maybeLoc, maybeExpr, Option.map_none, Option.or_none, Option.getD_none, Loc.join, kids_nil, Loc.Within, and_true]
      omega
    · obtain ⟨l, hl, g1, g2⟩ := nodes_at_last ha hn
      refine ⟨_, rfl, ?_⟩
      rw [hl]
      simp only [Node.At] at g1
      simp only [maybeLoc, maybeExpr, Option.map_none, Option.map_some, Option.none_or, Option.getD_some, Loc.join, Loc.Within]
      refine ⟨?_, ?_, ?_, ?_, kids_of g2 ?_ ?_⟩ <;> (try simp only []) <;> omega
  have main : BldR.Gives (do
      let args ← (liftR (if ty = .Yield ∨ ty = .Super then rewriteHashArgsToKwargs x1 else .ok x1) : BldM (List Node))
      match ty with
      | .Break => return Node.Break args x0.loc (x0.loc.join (((maybeLoc none).or (maybeExpr args.getLast?)).getD x0.loc))
      | .Defined => do
        let v ← (liftR (orExpect args.head?) : BldM Node)
        return .Defined v x0.loc none none (x0.loc.join (((maybeLoc none).or (maybeExpr args.getLast?)).getD x0.loc))
      | .Next => return .Next args x0.loc (x0.loc.join (((maybeLoc none).or (maybeExpr args.getLast?)).getD x0.loc))
      | .Redo => return .Redo (x0.loc.join (((maybeLoc none).or (maybeExpr args.getLast?)).getD x0.loc))
      | .Retry => return .Retry (x0.loc.join (((maybeLoc none).or (maybeExpr args.getLast?)).getD x0.loc))
      | .Return => return .Return args x0.loc (x0.loc.join (((maybeLoc none).or (maybeExpr args.getLast?)).getD x0.loc))
      | .Super => return .Super args x0.loc none none (x0.loc.join (((maybeLoc none).or (maybeExpr args.getLast?)).getD x0.loc))
      | .Yield => return .Yield args x0.loc none none (x0.loc.join (((maybeLoc none).or (maybeExpr args.getLast?)).getD x0.loc))
      | .Zsuper => return .ZSuper (x0.loc.join (((maybeLoc none).or (maybeExpr args.getLast?)).getD x0.loc)) : BldR Node) (·.At p0 p2) := by
    refine BldR.gives_bind (P := (Nodes.At · p1 p2)) (BldR.gives_lift (BldM.gives_liftR ?_)) fun as ha => ?_
    · split
      · exact rewriteHashArgsToKwargs_at h1
      · exact Res.gives_ok h1
    · obtain ⟨x, e, g1, g2, g3, g4, g5⟩ := key as ha
      rw [e]
      cases ty
      case Defined =>
        rcases as with _ | ⟨v, as⟩
        · exact BldR.gives_bind (P := fun _ => False) (BldR.gives_lift (BldM.gives_liftR Res.gives_error)) fun _ h => h.elim
        · refine BldR.gives_bind (P := (· = v)) (BldR.gives_lift (BldM.gives_liftR (Res.gives_ok rfl))) fun v' hv => BldR.gives_pure ?_
          subst hv
          rw [at_Defined]
          exact ⟨⟨g1, g3⟩, g2, g5 v' (by simp), g4, oloc_none.2 trivial, oloc_none.2 trivial⟩
      all_goals refine BldR.gives_pure ?_
      · rw [at_Break]; exact ⟨⟨g1, g3⟩, g2, g5, g4⟩
      · rw [at_Next]; exact ⟨⟨g1, g3⟩, g2, g5, g4⟩
      · rw [at_Redo]; exact ⟨⟨g1, g3⟩, g2⟩
      · rw [at_Retry]; exact ⟨⟨g1, g3⟩, g2⟩
      · rw [at_Return]; exact ⟨⟨g1, g3⟩, g2, g5, g4⟩
      · rw [at_Super]; exact ⟨⟨g1, g3⟩, g2, g5, g4, oloc_none.2 trivial, oloc_none.2 trivial⟩
      · rw [at_Yield]; exact ⟨⟨g1, g3⟩, g2, g5, g4, oloc_none.2 trivial, oloc_none.2 trivial⟩
      · rw [at_ZSuper]; exact ⟨⟨g1, g3⟩, g2⟩
  split
  · exact BldR.gives_any fun _ => BldR.gives_bind (P := fun _ => False) BldR.gives_err fun _ h => h.elim
  · exact main

/-- `keyword(args)`. -/
theorem keywordCmd_paren_at {x0 x1 : Token} {x2 : List Node} {x3 : Token} (h0 : x0.At p0 p1) (h1 : x1.At p1 p2) (h2 : Nodes.At x2 p2 p3)
    (h3 : x3.At p3 p4) : BldR.Gives (keywordCmd ty x0 (some x1) x2 (some x3)) (·.At p0 p4) := by
  unfold keywordCmd
  dsimp only
  have main : BldR.Gives (do
      let args ← (liftR (if ty = .Yield ∨ ty = .Super then rewriteHashArgsToKwargs x2 else .ok x2) : BldM (List Node))
      match ty with
      | .Break => return Node.Break args x0.loc (x0.loc.join x3.loc)
      | .Defined => do
        let v ← (liftR (orExpect args.head?) : BldM Node)
        return .Defined v x0.loc (some x1.loc) (some x3.loc) (x0.loc.join x3.loc)
      | .Next => return .Next args x0.loc (x0.loc.join x3.loc)
      | .Redo => return .Redo (x0.loc.join x3.loc)
      | .Retry => return .Retry (x0.loc.join x3.loc)
      | .Return => return .Return args x0.loc (x0.loc.join x3.loc)
      | .Super => return .Super args x0.loc (some x1.loc) (some x3.loc) (x0.loc.join x3.loc)
      | .Yield => return .Yield args x0.loc (some x1.loc) (some x3.loc) (x0.loc.join x3.loc)
      | .Zsuper => return .ZSuper (x0.loc.join x3.loc) : BldR Node) (·.At p0 p4) := by
    refine BldR.gives_bind (P := (Nodes.At · p2 p3)) (BldR.gives_lift (BldM.gives_liftR ?_)) fun as ha => ?_
    · split
      · exact rewriteHashArgsToKwargs_at h2
      · exact Res.gives_ok h2
    · clear h2
      cases ty
      case Defined =>
        rcases as with _ | ⟨v, as⟩
        · exact BldR.gives_bind (P := fun _ => False) (BldR.gives_lift (BldM.gives_liftR Res.gives_error)) fun _ h => h.elim
        · refine BldR.gives_bind (P := (· = v)) (BldR.gives_lift (BldM.gives_liftR (Res.gives_ok rfl))) fun v' hv => BldR.gives_pure ?_
          subst hv
          have hv := ha.mem (n := v') (by simp)
          place at_Defined
      all_goals refine BldR.gives_pure ?_
      · place at_Break
      · place at_Next
      · place at_Redo
      · place at_Retry
      · place at_Return
      · place at_Super
      · place at_Yield
      · place at_ZSuper
  split
  · exact BldR.gives_any fun _ => BldR.gives_bind (P := fun _ => False) BldR.gives_err fun _ h => h.elim
  · exact main

end Verif
