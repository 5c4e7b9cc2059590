import Verif.Lemmas.PlaceBuild3
/-!
Where the nodes made by the builder's functions lie, given where their arguments lie: fourth part.
-/
namespace Verif
open Builder

/-- A list's elements lie up to the end of its last element. -/
theorem nodes_at_last {ns : List Node} (h : Nodes.At ns a b) (hn : ns ≠ []) : ∃ l, ns.getLast? = some l ∧ l.At a b ∧
    Nodes.At ns a l.expression.stop := by
  obtain ⟨l, hl⟩ : ∃ l, ns.getLast? = some l := ⟨_, List.getLast?_eq_some_getLast hn⟩
  exact ⟨l, hl, h.mem (List.mem_of_getLast? hl), h.last hl⟩

/-- A non-empty list lies between its first and last elements. -/
theorem nodes_at_bounds {ns : List Node} (h : Nodes.At ns a b) (hn : ns ≠ []) : ∃ f l, ns.head? = some f ∧ ns.getLast? = some l ∧
    f.At a b ∧ l.At a b ∧ Nodes.At ns f.expression.begin l.expression.stop := by
  obtain ⟨l, hl, g1, g2⟩ := nodes_at_last h hn
  obtain ⟨f, ns, rfl⟩ := List.exists_cons_of_ne_nil hn
  exact ⟨f, l, rfl, hl, h.mem (by simp), g1, g2.first⟩

theorem when_at {x0 : Token} {x1 : List Node} {x2 : Token} {x3 : Option Node} (h0 : x0.At p0 p1) (h1 : Nodes.At x1 p1 p2)
    (h2 : x2.At p2 p3) (h3 : ONode.At x3 p3 p4) : (when x0 x1 x2 x3).At p0 p4 := by
  unfold Builder.when
  rcases x3 with _ | x3
  · by_cases hn : x1 = []
    · subst hn; simp only [List.getLast?_nil, maybeExpr, Option.map_none, Option.none_or, Option.getD_none]; place at_When
    · obtain ⟨l, hl, h5, h6⟩ := nodes_at_last h1 hn
      rw [hl]
      clear h1 hl
      place at_When
  · place at_When

theorem inPattern_at  {x0 : Token} {x1 : Node} {x2 : Option Node} {x3 : Token} {x4 : Option Node} {p0 p1 p2 p3 p4 p5 : Nat} (h0 : x0.At p0 p1) (h1 : x1.At p1 p2) (h2 : ONode.At x2 p2 p3) (h3 : x3.At p3 p4) (h4 : ONode.At x4 p4 p5)  :
    (inPattern x0 x1 x2 x3 x4).At p0 p5 := by
  unfold inPattern
  rcases x2 with _ | x2 <;> rcases x4 with _ | x4 <;> place at_InPattern

theorem caseMatch_at {x0 : Token} {x1 : Node} {x2 : List Node} {x3 : Option Token} {x4 : Option Node} {x5 : Token} (h0 : x0.At p0 p1)
    (h1 : x1.At p1 p2) (h2 : Nodes.At x2 p2 p3) (h3 : OTok.At x3 p3 p4) (h4 : ONode.At x4 p4 p5) (h5 : x5.At p5 p6) :
    (caseMatch x0 x1 x2 x3 x4 x5).At p0 p6 := by
  unfold caseMatch
  rcases x3 with _ | x3 <;> rcases x4 with _ | x4
  · place at_CaseMatch
  · place at_CaseMatch
  · have h6 : (Node.EmptyElse x3.loc).At p3 p4 := by place at_EmptyElse
    dsimp only
    generalize Node.EmptyElse x3.loc = c at *
    place at_CaseMatch
  · place at_CaseMatch

theorem rescueBody_at  {x0 : Token} {x1 : Option Node} {x2 : Option Token} {x3 : Option Node} {x4 : Option Token} {x5 : Option Node} {p0 p1 p2 p3 p4 p5 p6 : Nat} (h0 : x0.At p0 p1) (h1 : ONode.At x1 p1 p2) (h2 : OTok.At x2 p2 p3) (h3 : ONode.At x3 p3 p4) (h4 : OTok.At x4 p4 p5) (h5 : ONode.At x5 p5 p6) (ha : x2 = none ∨ x3 ≠ none) :
    (rescueBody x0 x1 x2 x3 x4 x5).At p0 p6 := by
  unfold rescueBody
  rcases x1 with _ | x1 <;> rcases x2 with _ | x2 <;> rcases x3 with _ | x3 <;> rcases x4 with _ | x4 <;> rcases x5 with _ | x5 <;> (simp only [reduceCtorEq, ne_eq, not_true_eq_false, not_false_eq_true, or_self, or_true, true_or, or_false, false_or] at ha <;> place at_RescueBody)

theorem compstmt_at  {x0 : List Node} {p0 p1 : Nat} (h0 : Nodes.At x0 p0 p1)  :
    Res.Gives (compstmt x0) (fun r => ONode.At r p0 p1) := by
  unfold compstmt
  split
  · exact Res.gives_ok h0
  · obtain ⟨m, h1, h2⟩ := h0
    exact Res.gives_ok (h1.mono (Nat.le_refl _) h2)
  · exact Res.gives_bind (collectionMap_at (o := none) (e := none) (Nat.le_refl _) h0 (Nat.le_refl _)) fun m hm => by
      obtain ⟨e1, e2, g1, g2, g3, g4, g5, g6⟩ := hm
      refine Res.gives_ok ?_
      show (Node.Begin _ _ _ _).At _ _
      rw [at_Begin, e1, e2]
      exact ⟨⟨g1, g3⟩, g2, g4, g5, g6⟩

theorem begin_at {x0 : Token} {x1 : Option Node} {x2 : Token} (h0 : x0.At p0 p1) (h1 : ONode.At x1 p1 p2) (h2 : x2.At p2 p3) :
    (Builder.begin x0 x1 x2).At p0 p3 := by
  unfold Builder.begin
  dsimp only
  split
  · split
    · simp only [ONode.At] at h1
      rw [at_Mlhs] at h1
      have w : ∀ {x y : Loc}, Loc.Within x y → True := fun _ => trivial
      obtain ⟨⟨g1, g2⟩, g3, g4, -, -⟩ := h1
      rw [at_Mlhs]
      simp only [Token.At] at h0 h2
      simp only [oloc_some, Loc.join, Loc.Within]
      refine ⟨by omega, by omega, kids_within g4 ?_, by omega, by omega⟩
      simp only [Loc.Within]; omega
    · split
      · simp only [ONode.At] at h1
        rw [at_Begin] at h1
        obtain ⟨⟨g1, g2⟩, g3, g4, -, -⟩ := h1
        rw [at_Begin]
        simp only [Token.At] at h0 h2
        simp only [oloc_some, Loc.join, Loc.Within]
        refine ⟨by omega, by omega, kids_within g4 ?_, by omega, by omega⟩
        simp only [Loc.Within]; omega
      · place at_Begin
    · place at_Begin
  · place at_Begin

theorem beginKeyword_at {x0 : Token} {x1 : Option Node} {x2 : Token} (h0 : x0.At p0 p1) (h1 : ONode.At x1 p1 p2) (h2 : x2.At p2 p3) :
    (beginKeyword x0 x1 x2).At p0 p3 := by
  unfold beginKeyword
  dsimp only
  split
  · simp only [ONode.At] at h1
    rw [at_Begin] at h1
    obtain ⟨⟨g1, g2⟩, g3, g4, -, -⟩ := h1
    rw [at_KwBegin]
    simp only [Token.At] at h0 h2
    simp only [oloc_some, Loc.join, Loc.Within]
    refine ⟨by omega, by omega, kids_within g4 ?_, by omega, by omega⟩
    simp only [Loc.Within]; omega
  · place at_KwBegin
  · place at_KwBegin

/-- Body, `rescue` branches and `else` (which needs a `rescue`). -/
theorem beginBodyRescue_at {x0 : Option Node} {x1 : List Node} {x2 : Option Token} {x3 : Option Node} (h0 : ONode.At x0 p0 p1)
    (h1 : Nodes.At x1 p1 p2) (h2 : OTok.At x2 p2 p3) (h3 : ONode.At x3 p3 p4) (ha : x2 = none ∨ x1 ≠ []) :
    Res.Gives (beginBodyRescue x0 x1 (x2.map fun t => (t, x3))) (fun r => ONode.At r p0 p4) := by
  have l0 := h0.le; have l1 := h1.le; have l2 := h2.le; have l3 := h3.le
  unfold beginBodyRescue
  by_cases hn : x1 = []
  · subst hn
    have : x2 = none := by simpa using ha
    subst this
    exact Res.gives_ok (h0.mono (Nat.le_refl _) (by omega))
  · rw [if_pos (by simpa using hn)]
    obtain ⟨f, l, hf, hl, g1, g2, g3⟩ := nodes_at_bounds h1 hn
    rw [hf, hl]
    clear h1 hf hl hn ha
    rcases x0 with _ | x0 <;> rcases x2 with _ | x2 <;> rcases x3 with _ | x3 <;>
      refine Res.gives_ok (a := some _) (show (Node.Rescue _ _ _ _ _).At _ _ from ?_) <;> place at_Rescue

theorem beginBody_at {x0 : Option Node} {x1 : List Node} {x2 : Option Token} {x3 : Option Node} {x4 : Option Token} {x5 : Option Node}
    (h0 : ONode.At x0 p0 p1)
    (h1 : Nodes.At x1 p1 p2) (h2 : OTok.At x2 p2 p3) (h3 : ONode.At x3 p3 p4) (h4 : OTok.At x4 p4 p5) (h5 : ONode.At x5 p5 p6)
    (ha : x2 = none ∨ x1 ≠ []) :
    Res.Gives (beginBody x0 x1 (x2.map fun t => (t, x3)) (x4.map fun t => (t, x5))) (fun r => ONode.At r p0 p6) := by
  unfold beginBody
  refine Res.gives_bind (beginBodyRescue_at h0 h1 h2 h3 ha) fun r hr => ?_
  have l0 := hr.le
  clear h0 h1 h2 h3
  rcases x4 with _ | x4
  · have := h5.le; have := h4.le
    exact Res.gives_pure (hr.mono (Nat.le_refl _) (by omega))
  · rcases r with _ | r <;> rcases x5 with _ | x5 <;>
      refine Res.gives_pure (a := some _) (show (Node.Ensure _ _ _ _).At _ _ from ?_) <;> place at_Ensure

end Verif
