import Verif.Lemmas.PlaceKids
/-!
The tactic `place` for goals `(.C …).At a b`: it expands the positions of tokens and nodes and leaves inequalities to `omega`.
-/
namespace Verif
open Builder

theorem okid_none : OKid none x ↔ True := by simp [OKid]
theorem okid_some : OKid (some n) x ↔ Kid n x := by simp [OKid]
theorem oloc_none : OLoc.In none x ↔ True := by simp [OLoc.In]
theorem oloc_some : OLoc.In (some n) x ↔ n.Within x := by simp [OLoc.In]
theorem kids_nil : Kids [] x ↔ True := by simp [Kids]
theorem kids_one : Kids [n] x ↔ Kid n x := by simp [Kids]
theorem kids_append : Kids (ns ++ ms) x ↔ Kids ns x ∧ Kids ms x := by simp only [Kids, List.forall_mem_append]
theorem kids_cons : Kids (n :: ms) x ↔ Kid n x ∧ Kids ms x := by simp only [Kids, List.forall_mem_cons]
theorem kids_of_span {ns : List Node} (h : Span ns a b) (h1 : x.begin ≤ a) (h2 : b ≤ x.stop) : Kids ns x := fun c hc =>
  ⟨h.sub c hc, by have := h.mem c hc; unfold Loc.Within; omega⟩
theorem kids_of {ns : List Node} (h : Nodes.At ns a b) (h1 : x.begin ≤ a) (h2 : b ≤ x.stop) : Kids ns x :=
  kids_of_span h.span h1 h2
theorem kid_of {n : Node} (h : n.At a b) (h1 : x.begin ≤ a) (h2 : b ≤ x.stop) : Kid n x :=
  ⟨h.1, by have := h.2; unfold Loc.Within; omega⟩
theorem okid_of {o : Option Node} (h : ONode.At o a b) (h1 : x.begin ≤ a) (h2 : b ≤ x.stop) : OKid o x := by
  cases o with
  | none => exact okid_none.2 trivial
  | some n => exact okid_some.2 (kid_of h h1 h2)
theorem oloc_of {o : Option Token} (h : OTok.At o a b) (h1 : x.begin ≤ a) (h2 : b ≤ x.stop) : OLoc.In (maybeLoc o) x := by
  cases o with
  | none => exact oloc_none.2 trivial
  | some n =>
    refine oloc_some.2 ?_
    simp only [OTok.At, Token.At] at h
    show x.begin ≤ n.loc.begin ∧ n.loc.begin ≤ n.loc.stop ∧ n.loc.stop ≤ x.stop
    omega

theorem expr_cbase {x : Loc} : (Node.Cbase x).expression = x := rfl

open Lean Elab Tactic Meta in
/-- Adds `a ≤ b` for every value known to lie between `a` and `b`. -/
elab "les" : tactic => withMainContext do
  for d in ← getLCtx do
    if d.isImplementationDetail then continue
    let t ← instantiateMVars d.type
    let h := mkIdent d.userName
    if t.isAppOf ``OTok.At then evalTactic (← `(tactic| have := OTok.At.le $h))
    else if t.isAppOf ``ONode.At then evalTactic (← `(tactic| have := ONode.At.le $h))
    else if t.isAppOf ``Nodes.At then evalTactic (← `(tactic| have := Nodes.At.le $h))

macro "place" n:term : tactic => `(tactic| (
  les
  try simp only [Token.At] at *
  rw [$n:term]
  try simp only [Node.At, OTok.At, ONode.At, Token.At] at *
  casesm* _ ∧ _
  try simp only [okid_none, okid_some, oloc_none, oloc_some, kids_nil, kids_one, kids_cons, kids_append, Kid, Loc.Within, Loc.join, Loc.maybeJoin,
    maybeLoc, maybeExpr, joinExprs, Apart, expr_cbase, Loc.withBegin, Loc.withEnd, Option.map_none, Option.map_some, Option.or_none, Option.none_or, Option.some_or,
    Option.getD_none, Option.getD_some, true_and, and_true, Option.isSome, Bool.false_eq_true, false_implies, forall_const]
  repeat' apply And.intro
  all_goals first
    | assumption
    | omega
    | (refine okid_of (by assumption) ?_ ?_ <;> first | omega | (simp only []; omega))
    | (refine oloc_of (by assumption) ?_ ?_ <;> first | omega | (simp only []; omega))
    | (refine kids_of (by assumption) ?_ ?_ <;> first | omega | (simp only []; omega))
    | skip))

end Verif
