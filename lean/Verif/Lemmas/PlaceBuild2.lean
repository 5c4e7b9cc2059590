import Verif.Lemmas.PlaceBuild
/-!
Where the nodes made by the builder's functions lie, given where their arguments lie: second part.
-/
namespace Verif
open Builder

theorem within_trans {a b c : Loc} (h : a.Within b) (h' : b.Within c) : a.Within c := by
  simp only [Loc.Within] at *; omega
theorem kid_within {n : Node} {x y : Loc} (h : Kid n x) (w : x.Within y) : Kid n y := ⟨h.1, within_trans h.2 w⟩
theorem okid_within {n : Option Node} {x y : Loc} (h : OKid n x) (w : x.Within y) : OKid n y :=
  fun c hc => kid_within (h c hc) w
theorem kids_within {ns : List Node} {x y : Loc} (h : Kids ns x) (w : x.Within y) : Kids ns y :=
  fun c hc => kid_within (h c hc) w
theorem oloc_within {n : Option Loc} {x y : Loc} (h : OLoc.In n x) (w : x.Within y) : OLoc.In n y :=
  fun c hc => within_trans (h c hc) w

theorem constGlobal_at  {x0 : Token} {x1 : Token} {p0 p1 p2 : Nat} (h0 : x0.At p0 p1) (h1 : x1.At p1 p2)  :
    Res.Gives (constGlobal x0 x1) (·.At p0 p2) := by
  unfold constGlobal
  exact Res.gives_any fun _ => Res.gives_ok (by place at_Const; rw [nested_Cbase]; assumption)

theorem splat_at  {x0 : Token} {x1 : Option Node} {p0 p1 p2 : Nat} (h0 : x0.At p0 p1) (h1 : ONode.At x1 p1 p2)  :
    (splat x0 x1).At p0 p2 := by
  unfold splat
  rcases x1 with _ | x1 <;> place at_Splat

theorem blockPass_at  {x0 : Token} {x1 : Option Node} {p0 p1 p2 : Nat} (h0 : x0.At p0 p1) (h1 : ONode.At x1 p1 p2)  :
    (blockPass x0 x1).At p0 p2 := by
  unfold blockPass
  rcases x1 with _ | x1 <;> place at_BlockPass

theorem rangeInclusive_at  {x0 : Option Node} {x1 : Token} {x2 : Option Node} {p0 p1 p2 p3 : Nat} (h0 : ONode.At x0 p0 p1) (h1 : x1.At p1 p2) (h2 : ONode.At x2 p2 p3)  :
    (rangeInclusive x0 x1 x2).At p0 p3 := by
  unfold rangeInclusive
  rcases x0 with _ | x0 <;> rcases x2 with _ | x2 <;> place at_Irange

theorem rangeExclusive_at  {x0 : Option Node} {x1 : Token} {x2 : Option Node} {p0 p1 p2 p3 : Nat} (h0 : ONode.At x0 p0 p1) (h1 : x1.At p1 p2) (h2 : ONode.At x2 p2 p3)  :
    (rangeExclusive x0 x1 x2).At p0 p3 := by
  unfold rangeExclusive
  rcases x0 with _ | x0 <;> rcases x2 with _ | x2 <;> place at_Erange

theorem restarg_at  {x0 : Token} {x1 : Option Token} {p0 p1 p2 : Nat} (h0 : x0.At p0 p1) (h1 : OTok.At x1 p1 p2)  :
    BldR.Gives (restarg x0 x1) (·.At p0 p2) := by
  unfold restarg checkedName
  rcases x1 with _ | x1
  · exact BldR.gives_bind (P := fun p => p = (none, none)) (BldR.gives_pure rfl) fun _ h => by subst h; exact BldR.gives_pure (by place at_Restarg)
  · exact BldR.gives_bind (P := fun p => p.2 = some x1.loc) (BldR.gives_any fun _ => BldR.gives_any fun _ => BldR.gives_pure rfl) fun ⟨_, _⟩ h => by cases h; exact BldR.gives_pure (by place at_Restarg)

theorem kwrestarg_at  {x0 : Token} {x1 : Option Token} {p0 p1 p2 : Nat} (h0 : x0.At p0 p1) (h1 : OTok.At x1 p1 p2)  :
    BldR.Gives (kwrestarg x0 x1) (·.At p0 p2) := by
  unfold kwrestarg checkedName
  rcases x1 with _ | x1
  · exact BldR.gives_bind (P := fun p => p = (none, none)) (BldR.gives_pure rfl) fun _ h => by subst h; exact BldR.gives_pure (by place at_Kwrestarg)
  · exact BldR.gives_bind (P := fun p => p.2 = some x1.loc) (BldR.gives_any fun _ => BldR.gives_any fun _ => BldR.gives_pure rfl) fun ⟨_, _⟩ h => by cases h; exact BldR.gives_pure (by place at_Kwrestarg)

theorem blockarg_at  {x0 : Token} {x1 : Option Token} {p0 p1 p2 : Nat} (h0 : x0.At p0 p1) (h1 : OTok.At x1 p1 p2)  :
    BldR.Gives (blockarg x0 x1) (·.At p0 p2) := by
  unfold blockarg
  refine BldR.gives_any fun n => ?_
  have h : (Node.Blockarg n x0.loc (maybeLoc x1) (x0.loc.maybeJoin (maybeLoc x1))).At p0 p2 := by
    rcases x1 with _ | x1 <;> place at_Blockarg
  dsimp only
  split
  · exact BldR.gives_any fun _ => BldR.gives_pure h
  · exact BldR.gives_pure h

theorem unaryNum_at  {x0 : Token} {x1 : Node} {p0 p1 p2 : Nat} (h0 : x0.At p0 p1) (h1 : x1.At p1 p2)  :
    Res.Gives (unaryNum x0 x1) (·.At p0 p2) := by
  unfold unaryNum
  refine Res.gives_any fun _ => ?_
  split
  · rw [at_Int] at h1; exact Res.gives_ok (by place at_Int)
  · rw [at_Float] at h1; exact Res.gives_ok (by place at_Float)
  · rw [at_Rational] at h1; exact Res.gives_ok (by place at_Rational)
  · rw [at_Complex] at h1; exact Res.gives_ok (by place at_Complex)
  · exact Res.gives_error

theorem symbol_at  {x0 : Token} {x1 : Token} {p0 p1 p2 : Nat} (h0 : x0.At p0 p1) (h1 : x1.At p1 p2)  :
    BldM.Gives (symbol x0 x1) (·.At p0 p2) := by
  unfold symbol
  exact BldM.gives_any fun _ => BldM.gives_pure (by place at_Sym)

theorem symbolInternal_at  {x0 : Token} {p0 p1 : Nat} (h0 : x0.At p0 p1)  :
    BldM.Gives (symbolInternal x0) (·.At p0 p1) := by
  unfold symbolInternal
  exact BldM.gives_any fun _ => BldM.gives_pure (by place at_Sym)

theorem nthRef_at  {x0 : Token} {p0 p1 : Nat} (h0 : x0.At p0 p1)  :
    BldM.Gives (nthRef x0) (·.At p0 p1) := by
  unfold nthRef
  refine BldM.gives_any fun _ => BldM.gives_any fun _ => ?_
  dsimp only
  split
  · exact BldM.gives_any fun _ => BldM.gives_pure (by place at_NthRef)
  · split
    · exact BldM.gives_any fun _ => BldM.gives_pure (by place at_NthRef)
    · exact BldM.gives_pure (by place at_NthRef)

theorem matchVar_at  {x0 : Token} {p0 p1 : Nat} (h0 : x0.At p0 p1)  :
    BldR.Gives (matchVar ext x0) (·.At p0 p1) := by
  unfold matchVar
  exact BldR.gives_any fun _ => BldR.gives_any fun _ => BldR.gives_pure (by place at_MatchVar)

theorem array_at  {x0 : Option Token} {x1 : List Node} {x2 : Option Token} {p0 p1 p2 p3 : Nat} (h0 : OTok.At x0 p0 p1) (h1 : Nodes.At x1 p1 p2) (h2 : OTok.At x2 p2 p3)  :
    Res.Gives (array x0 x1 x2) (·.At p0 p3) := by
  unfold array
  exact Res.gives_bind (collectionMap_at h0 h1 h2) fun m hm => by
    obtain ⟨e1, e2, g1, g2, g3, g4, g5, g6⟩ := hm
    refine Res.gives_ok ?_
    rw [at_Array, e1, e2]
    exact ⟨⟨by simpa using g1, g3⟩, g2, g4, g5, g6⟩

theorem multiLhs_at  {x0 : Option Token} {x1 : List Node} {x2 : Option Token} {p0 p1 p2 p3 : Nat} (h0 : OTok.At x0 p0 p1) (h1 : Nodes.At x1 p1 p2) (h2 : OTok.At x2 p2 p3)  :
    Res.Gives (multiLhs x0 x1 x2) (·.At p0 p3) := by
  unfold multiLhs
  exact Res.gives_bind (collectionMap_at h0 h1 h2) fun m hm => by
    obtain ⟨e1, e2, g1, g2, g3, g4, g5, g6⟩ := hm
    refine Res.gives_ok ?_
    rw [at_Mlhs, e1, e2]
    exact ⟨⟨by simpa using g1, g3⟩, g2, g4, g5, g6⟩

theorem hashPattern_at  {x0 : Option Token} {x1 : List Node} {x2 : Option Token} {p0 p1 p2 p3 : Nat} (h0 : OTok.At x0 p0 p1) (h1 : Nodes.At x1 p1 p2) (h2 : OTok.At x2 p2 p3)  :
    Res.Gives (hashPattern x0 x1 x2) (·.At p0 p3) := by
  unfold hashPattern
  exact Res.gives_bind (collectionMap_at h0 h1 h2) fun m hm => by
    obtain ⟨e1, e2, g1, g2, g3, g4, g5, g6⟩ := hm
    refine Res.gives_ok ?_
    rw [at_HashPattern, e1, e2]
    exact ⟨⟨by simpa using g1, g3⟩, g2, g4, g5, g6⟩

theorem findPattern_at  {x0 : Option Token} {x1 : List Node} {x2 : Option Token} {p0 p1 p2 p3 : Nat} (h0 : OTok.At x0 p0 p1) (h1 : Nodes.At x1 p1 p2) (h2 : OTok.At x2 p2 p3)  :
    Res.Gives (findPattern x0 x1 x2) (·.At p0 p3) := by
  unfold findPattern
  exact Res.gives_bind (collectionMap_at h0 h1 h2) fun m hm => by
    obtain ⟨e1, e2, g1, g2, g3, g4, g5, g6⟩ := hm
    refine Res.gives_ok ?_
    rw [at_FindPattern, e1, e2]
    exact ⟨⟨by simpa using g1, g3⟩, g2, g4, g5, g6⟩

theorem associate_at  {x0 : Option Token} {x1 : List Node} {x2 : Option Token} {p0 p1 p2 p3 : Nat} (h0 : OTok.At x0 p0 p1) (h1 : Nodes.At x1 p1 p2) (h2 : OTok.At x2 p2 p3)  :
    BldM.Gives (associate x0 x1 x2) (·.At p0 p3) := by
  unfold associate
  refine BldM.gives_any fun _ => ?_
  exact BldM.gives_bind (BldM.gives_liftR (collectionMap_at h0 h1 h2)) fun m hm => by
    obtain ⟨e1, e2, g1, g2, g3, g4, g5, g6⟩ := hm
    refine BldM.gives_pure ?_
    rw [at_Hash, e1, e2]
    exact ⟨⟨g1, g3⟩, g2, g4, g5, g6⟩

theorem args_at  {x0 : Option Token} {x1 : List Node} {x2 : Option Token} {p0 p1 p2 p3 : Nat} (h0 : OTok.At x0 p0 p1) (h1 : Nodes.At x1 p1 p2) (h2 : OTok.At x2 p2 p3)  :
    BldM.Gives (Builder.args x0 x1 x2) (fun r => ONode.At r p0 p3) := by
  unfold Builder.args
  refine BldM.gives_any fun _ => BldM.gives_any fun _ => ?_
  split
  · have := h0.le; have := h1.le; have := h2.le
    exact BldM.gives_pure (by show p0 ≤ p3; omega)
  · exact BldM.gives_bind (BldM.gives_liftR (collectionMap_at h0 h1 h2)) fun m hm => by
      obtain ⟨e1, e2, g1, g2, g3, g4, g5, g6⟩ := hm
      refine BldM.gives_pure ?_
      show (Node.Args _ _ _ _).At _ _
      rw [at_Args, e1, e2]
      exact ⟨⟨g1, g3⟩, g2, g4, g5, g6⟩

theorem arrayPattern_at  {x0 : Option Token} {x1 : List Node} {x2 : Option Token} {x3 : Option Token} {p0 p1 p2 p3 p4 : Nat} (h0 : OTok.At x0 p0 p1) (h1 : Nodes.At x1 p1 p2) (h2 : OTok.At x2 p2 p3) (h3 : OTok.At x3 p3 p4)  :
    Res.Gives (arrayPattern x0 x1 x2 x3) (·.At p0 p4) := by
  unfold arrayPattern
  have l2 := h2.le
  exact Res.gives_bind (collectionMap_at h0 h1 (h3.mono l2 (Nat.le_refl _))) fun m hm => by
    obtain ⟨e1, e2, g1, g2, g3, g4, g5, g6⟩ := hm
    have l0 := h0.le; have l1 := h1.le; have l3 := h3.le
    obtain ⟨k1, k2, k3, k4, k5⟩ : (p0 ≤ (m.expressionL.maybeJoin (maybeLoc x2)).begin ∧ (m.expressionL.maybeJoin (maybeLoc x2)).stop ≤ p4) ∧
        (m.expressionL.maybeJoin (maybeLoc x2)).begin ≤ (m.expressionL.maybeJoin (maybeLoc x2)).stop ∧
        Kids x1 (m.expressionL.maybeJoin (maybeLoc x2)) ∧ OLoc.In (maybeLoc x0) (m.expressionL.maybeJoin (maybeLoc x2)) ∧
        OLoc.In (maybeLoc x3) (m.expressionL.maybeJoin (maybeLoc x2)) := by
      rcases x2 with _ | x2
      · exact ⟨⟨g1, g3⟩, g2, g4, g5, g6⟩
      · have w : Loc.Within m.expressionL (m.expressionL.join x2.loc) := by
          simp only [Loc.Within, Loc.join, OTok.At, Token.At] at *; omega
        refine ⟨?_, ?_, kids_within g4 w, oloc_within g5 w, oloc_within g6 w⟩ <;>
          simp only [maybeLoc, Option.map_some, Loc.maybeJoin, Loc.join, OTok.At, Token.At] at * <;> omega
    simp only [e1, e2]
    split
    · next h =>
      have : x1 = [] := by simpa using h
      subst this
      exact Res.gives_ok (by rw [at_ArrayPattern]; exact ⟨k1, k2, k3, k4, k5⟩)
    · split
      · exact Res.gives_ok (by rw [at_ArrayPatternWithTail]; exact ⟨k1, k2, k3, k4, k5⟩)
      · exact Res.gives_ok (by rw [at_ArrayPattern]; exact ⟨k1, k2, k3, k4, k5⟩)

end Verif
