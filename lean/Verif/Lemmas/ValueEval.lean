import Verif.Model.Grammar.Eval
/-!
The computed value of a tree is one of its values.
-/
namespace Verif.Grammar
open Builder

mutual
theorem Ex.eval_gives {ext : BldExt} {indent : Int} {vals : List (List Atom)} : ∀ (e : Ex) {s : BState} {x : Atom} {s' : BState},
    e.eval ext indent vals s = some (x, s') → e.Gives ext vals x
  | .fld n i, s, x, s', h => by
    rw [Ex.eval, Option.map_eq_some_iff] at h
    obtain ⟨y, h1, h2⟩ := h
    cases h2
    rw [Ex.Gives]
    exact h1
  | .call f es, s, x, s', h => by
    rw [Ex.eval, Option.bind_eq_some_iff] at h
    obtain ⟨p, h1, h2⟩ := h
    rw [Ex.Gives]
    refine ⟨p.1, exEval_gives es h1, indent, p.2, ?_⟩
    split at h2
    · rename_i hr
      cases h2
      exact ⟨_, hr⟩
    · cases h2
theorem exEval_gives {ext : BldExt} {indent : Int} {vals : List (List Atom)} : ∀ (es : List Ex) {s : BState} {p : List Atom × BState},
    exEval ext indent vals es s = some p → exGives ext vals es p.1
  | [], s, p, h => by
    rw [exEval] at h
    cases h
    rw [exGives]
  | e :: es, s, p, h => by
    rw [exEval, Option.bind_eq_some_iff] at h
    obtain ⟨q, h1, h2⟩ := h
    rw [Option.map_eq_some_iff] at h2
    obtain ⟨q', h2, h3⟩ := h2
    subst h3
    rw [exGives]
    exact ⟨_, _, rfl, e.eval_gives h1, exEval_gives es h2⟩
end

theorem ValOut.eval_gives {ext : BldExt} {indent : Int} {vals : List (List Atom)} {o : ValOut} {s : BState} {p : List Atom × BState}
    (h : o.eval ext indent vals s = some p) : o.Gives ext vals p.1 := by
  cases o with
  | copy n =>
    rw [ValOut.eval, Option.map_eq_some_iff] at h
    obtain ⟨y, h1, h2⟩ := h
    subst h2
    exact h1
  | mk es => exact exEval_gives es h

mutual
theorem TTree.eval_evals {ext : BldExt} {indent : Int} : ∀ (t : TTree) {s : BState} {p : List Atom × BState},
    t.eval ext indent s = some p → Evals ext t p.1
  | .leaf t, s, p, h => by
    rw [TTree.eval] at h
    cases h
    rw [Evals]
  | .node r kids, s, p, h => by
    rw [TTree.eval] at h
    split at h
    · rename_i ρ o h1 h2
      split at h
      · rename_i h3
        rw [Option.bind_eq_some_iff] at h
        obtain ⟨q, h4, h5⟩ := h
        rw [Evals]
        exact ⟨ρ, o, h1, h2, h3, q.1, evalL_evals kids h4, ValOut.eval_gives h5⟩
      · cases h
    · cases h
theorem evalL_evals {ext : BldExt} {indent : Int} : ∀ (ts : List TTree) {s : BState} {p : List (List Atom) × BState},
    evalL ext indent ts s = some p → evalsL ext ts p.1
  | [], s, p, h => by
    rw [evalL] at h
    cases h
    rw [evalsL]
  | t :: ts, s, p, h => by
    rw [evalL, Option.bind_eq_some_iff] at h
    obtain ⟨q, h1, h2⟩ := h
    rw [Option.map_eq_some_iff] at h2
    obtain ⟨q', h2, h3⟩ := h2
    subst h3
    rw [evalsL]
    exact ⟨_, _, rfl, t.eval_evals h1, evalL_evals ts h2⟩
end

end Verif.Grammar
