import Verif.Lemmas.PlaceBuild2
import Verif.Props.BuilderChecks
/-!
Where the nodes made by the builder's functions lie, given where their arguments lie: third part.
-/
namespace Verif
open Builder

theorem checkCondition_expr (n : Node) : (checkCondition n).expression = n.expression := (Props.C34_condition_rewriting n).1

theorem checkCondition_nested (n : Node) (h : Nested n) : Nested (checkCondition n) := by
  induction n using Props.cond_induction with
  | paren st b e x ih =>
    rw [show checkCondition (.Begin [st] b e x) = .Begin [checkCondition st] b e x from by simp [checkCondition, checkConditionSingle]]
    rw [nested_Begin] at *
    simp only [kids_one, Kid, checkCondition_expr] at *
    exact ⟨h.1, ⟨ih h.2.1.1, h.2.1.2⟩, h.2.2⟩
  | and l r o x ihl ihr =>
    rw [show checkCondition (.And l r o x) = .And (checkCondition l) (checkCondition r) o x from by simp [checkCondition]]
    rw [nested_And] at *
    simp only [Kid, checkCondition_expr] at *
    exact ⟨h.1, ⟨ihl h.2.1.1, h.2.1.2⟩, ⟨ihr h.2.2.1.1, h.2.2.1.2⟩, h.2.2.2⟩
  | or l r o x ihl ihr =>
    rw [show checkCondition (.Or l r o x) = .Or (checkCondition l) (checkCondition r) o x from by simp [checkCondition]]
    rw [nested_Or] at *
    simp only [Kid, checkCondition_expr] at *
    exact ⟨h.1, ⟨ihl h.2.1.1, h.2.1.2⟩, ⟨ihr h.2.2.1.1, h.2.2.1.2⟩, h.2.2.2⟩
  | irange l r o x ihl ihr =>
    rw [show checkCondition (.Irange l r o x) = .IFlipFlop (checkConditionOpt l) (checkConditionOpt r) o x from by simp [checkCondition]]
    rw [nested_Irange] at h
    rw [nested_IFlipFlop]
    rcases l with _ | l <;> rcases r with _ | r <;>
      simp only [okid_none, okid_some, checkConditionOpt, Kid, checkCondition_expr, Option.mem_some_iff, forall_eq'] at * <;> tauto
  | erange l r o x ihl ihr =>
    rw [show checkCondition (.Erange l r o x) = .EFlipFlop (checkConditionOpt l) (checkConditionOpt r) o x from by simp [checkCondition]]
    rw [nested_Erange] at h
    rw [nested_EFlipFlop]
    rcases l with _ | l <;> rcases r with _ | r <;>
      simp only [okid_none, okid_some, checkConditionOpt, Kid, checkCondition_expr, Option.mem_some_iff, forall_eq'] at * <;> tauto
  | regexp p opt b e x =>
    rw [show checkCondition (.Regexp p opt b e x) = .MatchCurrentLine (.Regexp p opt b e x) x from by simp [checkCondition]]
    rw [nested_MatchCurrentLine]
    have hx := (nested_iff.1 h).1
    exact ⟨hx, h, Nat.le_refl _, hx, Nat.le_refl _⟩
  | other n e => rw [e]; exact h

theorem checkCondition_at {n : Node} (h : n.At a b) : (checkCondition n).At a b := by
  refine ⟨checkCondition_nested n h.1, ?_⟩
  rw [checkCondition_expr]; exact h.2

theorem nodes_at_snoc {ns : List Node} {n : Node} : Nodes.At (ns ++ [n]) a c ↔ ∃ b, Nodes.At ns a b ∧ n.At b c := by
  constructor
  · intro h
    obtain ⟨b, h1, m, h2, h3⟩ := Nodes.at_append h
    exact ⟨b, h1, h2.mono (Nat.le_refl _) h3⟩
  · rintro ⟨b, h1, h2⟩
    exact h1.append (Nodes.at_singleton h2)

theorem hashToKwargs_at {n : Node} (h : n.At a b) : Res.Gives (hashToKwargs n) (·.At a b) := by
  unfold hashToKwargs
  split
  · rw [at_Hash] at h
    exact Res.gives_ok (by rw [at_Kwargs]; exact ⟨h.1, h.2.1, h.2.2.1⟩)
  · exact Res.gives_error

theorem rewriteHashArgsToKwargs_at {ns : List Node} (h : Nodes.At ns a b) :
    Res.Gives (rewriteHashArgsToKwargs ns) (Nodes.At · a b) := by
  unfold rewriteHashArgsToKwargs
  split
  · exact Res.gives_ok h
  · next last rest hr =>
    have e : ns = rest.reverse ++ [last] := by rw [← List.reverse_cons, ← hr, List.reverse_reverse]
    rw [e, nodes_at_snoc] at h
    obtain ⟨m, h1, h2⟩ := h
    split
    · exact Res.gives_bind (hashToKwargs_at h2) fun _ h3 => Res.gives_ok (nodes_at_snoc.2 ⟨m, h1, h3⟩)
    · split
      · split
        · rw [List.reverse_cons, nodes_at_snoc] at h1
          obtain ⟨k, h4, h5⟩ := h1
          exact Res.gives_bind (hashToKwargs_at h5) fun _ h6 => Res.gives_ok (by
            rw [show ∀ (l : List Node) (x y : Node), l ++ [x, y] = (l ++ [x]) ++ [y] from by simp]
            exact nodes_at_snoc.2 ⟨m, nodes_at_snoc.2 ⟨k, h4, h6⟩, h2⟩)
        · rw [e]; exact Res.gives_ok (nodes_at_snoc.2 ⟨m, h1, h2⟩)
      · rw [e]; exact Res.gives_ok (nodes_at_snoc.2 ⟨m, h1, h2⟩)

theorem logicalOp_at  {x0 : Node} {x1 : Token} {x2 : Node} {p0 p1 p2 p3 : Nat} (h0 : x0.At p0 p1) (h1 : x1.At p1 p2) (h2 : x2.At p2 p3)  :
    BldR.Gives (logicalOp ty x0 x1 x2) (·.At p0 p3) := by
  unfold logicalOp
  refine BldR.gives_any fun _ => ?_
  cases ty
  · exact BldR.gives_pure (by place at_And)
  · exact BldR.gives_pure (by place at_Or)

theorem binaryOp_at  {x0 : Node} {x1 : Token} {x2 : Node} {p0 p1 p2 p3 : Nat} (h0 : x0.At p0 p1) (h1 : x1.At p1 p2) (h2 : x2.At p2 p3)  :
    BldR.Gives (binaryOp x0 x1 x2) (·.At p0 p3) := by
  unfold binaryOp
  exact BldR.gives_any fun _ => BldR.gives_any fun _ => BldR.gives_any fun _ => BldR.gives_pure (by place at_Send)

theorem unaryOp_at  {x0 : Token} {x1 : Node} {p0 p1 p2 : Nat} (h0 : x0.At p0 p1) (h1 : x1.At p1 p2)  :
    BldR.Gives (unaryOp x0 x1) (·.At p0 p2) := by
  unfold unaryOp
  exact BldR.gives_any fun _ => BldR.gives_any fun _ => BldR.gives_pure (by place at_Send)

theorem matchOp_at  {x0 : Node} {x1 : Token} {x2 : Node} {p0 p1 p2 p3 : Nat} (h0 : x0.At p0 p1) (h1 : x1.At p1 p2) (h2 : x2.At p2 p3)  :
    BldR.Gives (matchOp ext x0 x1 x2) (·.At p0 p3) := by
  unfold matchOp
  refine BldR.gives_any fun _ => BldR.gives_any fun _ => BldR.gives_any fun c => ?_
  cases c
  · exact BldR.gives_pure (by place at_Send)
  · exact BldR.gives_any fun _ => BldR.gives_pure (by place at_MatchWithLvasgn)

theorem notOp_at {x0 : Token} {x1 : Node} (h0 : x0.At p0 p1) (h1 : x1.At p1 p2) :
    BldR.Gives (notOp x0 none (some x1) none) (·.At p0 p2) := by
  have h2 := checkCondition_at h1
  unfold notOp
  refine BldR.gives_any fun _ => BldR.gives_pure ?_
  rw [← checkCondition_expr x1]
  generalize checkCondition x1 = c at *
  place at_Send

theorem notOp_paren_at {x0 x1 : Token} {x2 : Node} {x3 : Token} (h0 : x0.At p0 p1) (h1 : x1.At p1 p2) (h2 : x2.At p2 p3)
    (h3 : x3.At p3 p4) : BldR.Gives (notOp x0 (some x1) (some x2) (some x3)) (·.At p0 p4) := by
  have h4 := checkCondition_at h2
  unfold notOp
  refine BldR.gives_any fun _ => BldR.gives_pure ?_
  generalize checkCondition x2 = c at *
  place at_Send

theorem notOp_empty_at {x0 x1 x2 : Token} (h0 : x0.At p0 p1) (h1 : x1.At p1 p2) (h2 : x2.At p2 p3) :
    BldR.Gives (notOp x0 (some x1) none (some x2)) (·.At p0 p3) := by
  unfold notOp
  refine BldR.gives_bind (P := fun m => (Node.Begin [] m.beginL m.endL m.expressionL).At p1 p3) ?_ fun m hm => ?_
  · refine BldR.gives_lift (BldM.gives_liftR ?_)
    refine (collectionMap_at (o := some x1) (ns := []) (e := some x2) h1 (Nat.le_refl _) h2).imp fun m hm => ?_
    obtain ⟨e1, e2, g1, g2, g3, g4, g5, g6⟩ := hm
    rw [at_Begin, e1, e2]; exact ⟨⟨g1, g3⟩, g2, g4, g5, g6⟩
  · refine BldR.gives_pure ?_
    generalize Node.Begin [] m.beginL m.endL m.expressionL = c at *
    place at_Send

theorem ifMod_at {x0 : Node} {x1 : Token} {x2 : Node} (h0 : x0.At p0 p1) (h1 : x1.At p1 p2) (h2 : x2.At p2 p3) :
    Res.Gives (conditionMod (some x0) none x1 x2) (·.At p0 p3) := by
  have h3 := checkCondition_at h2
  have e := checkCondition_expr x2
  unfold conditionMod
  refine Res.gives_ok ?_
  rw [← e]
  clear e
  generalize checkCondition x2 = c at *
  place at_IfMod

theorem unlessMod_at {x0 : Node} {x1 : Token} {x2 : Node} (h0 : x0.At p0 p1) (h1 : x1.At p1 p2) (h2 : x2.At p2 p3) :
    Res.Gives (conditionMod none (some x0) x1 x2) (·.At p0 p3) := by
  have h3 := checkCondition_at h2
  have e := checkCondition_expr x2
  unfold conditionMod
  refine Res.gives_ok ?_
  rw [← e]
  clear e
  generalize checkCondition x2 = c at *
  place at_IfMod

theorem loopMod_at {x0 : Node} {x1 : Token} {x2 : Node} (h0 : x0.At p0 p1) (h1 : x1.At p1 p2) (h2 : x2.At p2 p3) :
    (loopMod ty x0 x1 x2).At p0 p3 := by
  have h3 := checkCondition_at h2
  have e := checkCondition_expr x2
  unfold loopMod
  dsimp only
  rw [← e]
  clear e
  generalize checkCondition x2 = c at *
  split
  · place at_WhilePost
  · place at_While
  · place at_UntilPost
  · place at_Until

theorem loop_at {x0 : Token} {x1 : Node} {x2 : Token} {x3 : Option Node} {x4 : Token} (h0 : x0.At p0 p1) (h1 : x1.At p1 p2)
    (h2 : x2.At p2 p3) (h3 : ONode.At x3 p3 p4) (h4 : x4.At p4 p5) : (loop_ ty x0 x1 x2 x3 x4).At p0 p5 := by
  have h5 := checkCondition_at h1
  unfold loop_
  dsimp only
  generalize checkCondition x1 = c at *
  cases ty
  · place at_While
  · place at_Until

/-- Where an `else`/`elsif` tail lies: the node of an `elsif` begins with the keyword. -/
def TailAt (o : Option Token) (n : Option Node) (a b : Nat) : Prop :=
  OTok.At o a b ∧ ONode.At n a b ∧ ∀ t ∈ o, ∀ x ∈ n, t.loc.stop ≤ x.expression.stop

theorem condition_at {x0 : Token} {x1 : Node} {x2 : Token} {x3 : Option Node} {x4 : Option Token} {x5 : Option Node} {x6 : Option Token}
    (h0 : x0.At p0 p1) (h1 : x1.At p1 p2) (h2 : x2.At p2 p3) (h3 : ONode.At x3 p3 p4) (h4 : TailAt x4 x5 p4 p5)
    (h5 : OTok.At x6 p5 p6) : (condition x0 x1 x2 x3 x4 x5 x6).At p0 p6 := by
  have h7 := checkCondition_at h1
  obtain ⟨h8, h9, h10⟩ := h4
  unfold condition
  dsimp only
  generalize checkCondition x1 = c at *
  rcases x3 with _ | x3 <;> rcases x4 with _ | x4 <;> rcases x5 with _ | x5 <;> rcases x6 with _ | x6 <;>
    simp only [Option.mem_some_iff, forall_eq', reduceCtorEq, false_implies, implies_true, Option.not_mem_none] at h10 <;> place at_If

theorem unless_at {x0 : Token} {x1 : Node} {x2 : Token} {x3 : Option Node} {x4 : Option Token} {x5 : Option Node} {x6 : Token}
    (h0 : x0.At p0 p1) (h1 : x1.At p1 p2) (h2 : x2.At p2 p3) (h3 : ONode.At x3 p3 p4) (h4 : OTok.At x4 p4 p5) (h5 : ONode.At x5 p5 p6)
    (h6 : x6.At p6 p7) : (condition x0 x1 x2 x5 x4 x3 (some x6)).At p0 p7 := by
  have h7 := checkCondition_at h1
  unfold condition
  dsimp only
  generalize checkCondition x1 = c at *
  rcases x3 with _ | x3 <;> rcases x4 with _ | x4 <;> rcases x5 with _ | x5 <;> place at_If

theorem elsif_tail_at {x0 : Token} {x1 : Node} {x2 : Token} {x3 : Option Node} {x4 : Option Token} {x5 : Option Node}
    (h0 : x0.At p0 p1) (h1 : x1.At p1 p2) (h2 : x2.At p2 p3) (h3 : ONode.At x3 p3 p4) (h4 : TailAt x4 x5 p4 p5) :
    TailAt (some x0) (some (condition x0 x1 x2 x3 x4 x5 none)) p0 p5 := by
  have h := condition_at (x6 := none) h0 h1 h2 h3 h4 (Nat.le_refl _)
  have k := h
  have l1 := h1.le; have l2 := h2.le; have l3 := h3.le; have l4 := h4.1.le
  refine ⟨h0.mono (Nat.le_refl _) (by omega), h, fun t ht x hx => ?_⟩
  simp only [Option.mem_some_iff] at ht hx
  subst ht; subst hx
  unfold condition at k ⊢
  rw [at_If] at k
  exact k.2.2.2.2.2.1.2.2

theorem else_tail_at {x0 : Option Token} {x1 : Option Node} (h0 : OTok.At x0 p0 p1) (h1 : ONode.At x1 p1 p2) : TailAt x0 x1 p0 p2 := by
  have l0 := h0.le; have l1 := h1.le
  refine ⟨h0.mono (Nat.le_refl _) l1, h1.mono l0 (Nat.le_refl _), fun t ht x hx => ?_⟩
  simp only [Option.mem_def] at ht hx
  subst ht; subst hx
  simp only [OTok.At, ONode.At, Token.At, Node.At] at h0 h1
  omega

end Verif
