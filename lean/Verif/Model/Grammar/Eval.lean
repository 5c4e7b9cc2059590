import Verif.Model.Grammar.Outs
/-!
The values of a derivation tree, computed: one way through the relation `Evals`, in which the builder's tables are carried from
left to right and the width by which here documents are dedented is always `indent`.
-/
namespace Verif.Grammar
open Builder

mutual
/-- The value of an expression. -/
def Ex.eval (ext : BldExt) (indent : Int) (vals : List (List Atom)) : Ex → BState → Option (Atom × BState)
  | .fld n i, s => ((vals[n - 1]?).bind (·[i]?)).map (·, s)
  | .call f es, s => (exEval ext indent vals es s).bind fun p =>
    match (applyFn ext indent f p.1).run p.2 with
    | .ok (.ok x, s) => some (x, s)
    | _ => none
/-- The same for a list. -/
def exEval (ext : BldExt) (indent : Int) (vals : List (List Atom)) : List Ex → BState → Option (List Atom × BState)
  | [], s => some ([], s)
  | e :: es, s => (e.eval ext indent vals s).bind fun p => (exEval ext indent vals es p.2).map fun q => (p.1 :: q.1, q.2)
end

/-- The value given to `$$`. -/
def ValOut.eval (ext : BldExt) (indent : Int) (vals : List (List Atom)) : ValOut → BState → Option (List Atom × BState)
  | .copy n, s => (vals[n - 1]?).map (·, s)
  | .mk es, s => exEval ext indent vals es s

mutual
/-- The value of a tree. -/
def TTree.eval (ext : BldExt) (indent : Int) : TTree → BState → Option (List Atom × BState)
  | .leaf t, s => some ([.tok t], s)
  | .node r kids, s =>
    match rules[r]?, outs[r]? with
    | some ρ, some o =>
      if ρ.rhs.all (fun i => !i.refuses) then
        (evalL ext indent kids s).bind fun p => o.2.eval ext indent (slots ρ.rhs p.1) p.2
      else none
    | _, _ => none
/-- The same for a list. -/
def evalL (ext : BldExt) (indent : Int) : List TTree → BState → Option (List (List Atom) × BState)
  | [], s => some ([], s)
  | t :: ts, s => (t.eval ext indent s).bind fun p => (evalL ext indent ts p.2).map fun q => (p.1 :: q.1, q.2)
end

end Verif.Grammar
