import Verif.Model.Grammar.Run
/-!
Summaries of the nonterminals (for each: how it moves the stacks, how it moves the context flags, which kinds its value has), in
the order of `NT`. They are only claims here: `Verif.Lemmas.GrammarSound` checks every production against them.
-/
namespace Verif.Grammar

/-- The flag relations that occur: (flag before, flag after, flag stored in the value). -/
def relTable : List (List (Bool × Bool × Option Bool)) := [
  [(false, false, none), (true, false, none), (true, true, none)],
  [(false, false, some false), (true, true, some true)],
  [(false, false, some false), (true, false, some false), (true, true, some true)],
  [(false, false, none), (true, true, none)],
  [],
  [(false, true, some true), (true, true, some true)],
  [(false, true, none), (true, true, none)],
  [(false, false, none), (true, false, none)],
  [(false, false, none), (false, true, none), (true, true, none)],
  [(false, true, some false), (true, true, some true)]]

/-- Relation (index in `relTable`) of each nonterminal for `inDefined`. -/
def relOf_inDefined : List Nat := [
  0, 0, 0, 0, 0, 0, 0, 0, 0, 0, 0, 0, 0, 1, 1, 2, 0, 0, 0, 0, 0, 3, 0, 0, 0, 0, 0, 0, 0, 0, 0, 3, 0, 3, 0, 0, 3, 3,
  0, 3, 0, 0, 0, 0, 0, 0, 0, 0, 0, 0, 0, 0, 0, 0, 0, 0, 3, 3, 3, 3, 3, 3, 3, 1, 1, 3, 3, 3, 3, 3, 3, 3, 3, 3, 3, 3,
  3, 0, 0, 0, 3, 3, 3, 3, 3, 3, 0, 0, 3, 0, 0, 0, 3, 3, 3, 0, 0, 0, 0, 0, 0, 0, 0, 0, 0, 0, 0, 0, 0, 0, 0, 0, 0, 0,
  3, 3, 0, 0, 0, 0, 0, 3, 0, 0, 0, 0, 0, 0, 3, 3, 3, 0, 0, 3, 3, 0, 3, 0, 0, 0, 0, 0, 0, 0, 0, 0, 0, 0, 0, 0, 0, 0,
  3, 3, 3, 3, 0, 0, 0, 0, 3, 0, 3, 3, 0, 3, 3, 3, 3, 3, 3, 3, 3, 0, 0, 0, 0, 0, 0, 0, 3, 4, 3, 3, 3, 3, 3, 0, 0, 0,
  0, 3, 3, 3, 0, 0, 0, 0, 3, 3, 3, 3, 3, 0, 0, 0, 0, 3, 3, 3, 3, 3, 3, 3, 3, 3, 3, 3, 3, 3, 3, 3]

/-- Relation (index in `relTable`) of each nonterminal for `inKwarg`. -/
def relOf_inKwarg : List Nat := [
  3, 3, 3, 3, 3, 3, 3, 3, 3, 3, 3, 3, 3, 1, 1, 1, 3, 3, 3, 3, 3, 3, 3, 3, 3, 3, 3, 3, 3, 3, 3, 3, 3, 3, 3, 3, 3, 3,
  3, 3, 3, 3, 3, 3, 3, 3, 3, 3, 3, 3, 3, 3, 3, 3, 3, 3, 3, 3, 3, 3, 3, 3, 3, 1, 1, 3, 3, 3, 3, 3, 3, 3, 3, 3, 3, 3,
  3, 3, 3, 3, 3, 3, 3, 3, 3, 3, 3, 3, 3, 3, 3, 3, 3, 3, 3, 3, 3, 3, 3, 3, 3, 3, 3, 3, 3, 3, 3, 3, 3, 3, 3, 3, 3, 3,
  3, 3, 3, 3, 3, 3, 3, 3, 3, 3, 3, 3, 3, 3, 3, 3, 3, 3, 3, 3, 3, 3, 3, 3, 3, 3, 3, 3, 3, 3, 3, 3, 3, 3, 3, 3, 3, 3,
  3, 3, 3, 3, 3, 3, 3, 3, 3, 3, 3, 3, 3, 3, 3, 3, 3, 3, 3, 3, 3, 3, 3, 3, 3, 3, 3, 3, 3, 4, 3, 3, 3, 3, 3, 3, 3, 3,
  3, 3, 3, 3, 3, 3, 3, 3, 3, 3, 3, 3, 3, 3, 3, 3, 3, 3, 3, 3, 3, 3, 3, 3, 3, 3, 3, 3, 3, 3, 3, 3]

/-- Relation (index in `relTable`) of each nonterminal for `inArgdef`. -/
def relOf_inArgdef : List Nat := [
  0, 0, 0, 0, 0, 0, 0, 0, 0, 0, 0, 0, 0, 1, 5, 5, 0, 0, 0, 0, 0, 3, 0, 0, 0, 0, 0, 0, 0, 0, 0, 3, 0, 3, 0, 0, 3, 3,
  0, 3, 0, 0, 0, 0, 0, 0, 0, 0, 0, 0, 0, 0, 0, 0, 0, 0, 3, 3, 3, 3, 3, 3, 3, 1, 1, 6, 3, 3, 3, 3, 3, 3, 3, 3, 3, 3,
  3, 0, 0, 0, 3, 3, 3, 3, 3, 7, 8, 8, 3, 8, 0, 7, 3, 3, 3, 7, 7, 0, 0, 0, 0, 0, 0, 0, 0, 0, 0, 0, 0, 0, 0, 0, 0, 0,
  3, 3, 0, 0, 0, 0, 0, 3, 0, 0, 0, 0, 0, 0, 3, 3, 3, 0, 0, 3, 3, 0, 3, 0, 0, 0, 0, 0, 0, 0, 0, 0, 0, 0, 0, 0, 0, 0,
  3, 3, 3, 3, 0, 0, 0, 0, 3, 0, 3, 3, 0, 3, 3, 3, 3, 3, 3, 3, 3, 0, 7, 7, 7, 8, 8, 8, 3, 4, 3, 3, 3, 3, 7, 6, 6, 6,
  6, 3, 3, 3, 6, 6, 6, 6, 3, 3, 3, 3, 3, 0, 0, 0, 0, 3, 3, 3, 3, 3, 3, 3, 3, 3, 3, 3, 3, 3, 3, 3]

/-- Relation (index in `relTable`) of each nonterminal for `inDef`. -/
def relOf_inDef : List Nat := [
  3, 3, 3, 3, 3, 3, 3, 3, 3, 3, 3, 3, 3, 9, 9, 9, 3, 3, 3, 3, 3, 3, 3, 3, 3, 3, 3, 3, 3, 3, 3, 3, 3, 3, 3, 3, 3, 3,
  3, 3, 3, 3, 3, 3, 3, 3, 3, 3, 3, 3, 3, 3, 3, 3, 3, 3, 3, 3, 3, 3, 3, 3, 3, 1, 1, 3, 3, 3, 3, 3, 3, 3, 3, 3, 3, 3,
  3, 3, 3, 3, 3, 3, 3, 3, 3, 3, 3, 3, 3, 3, 3, 3, 3, 3, 3, 3, 3, 3, 3, 3, 3, 3, 3, 3, 3, 3, 3, 3, 3, 3, 3, 3, 3, 3,
  3, 3, 3, 3, 3, 3, 3, 3, 3, 3, 3, 3, 3, 3, 3, 3, 3, 3, 3, 3, 3, 3, 3, 3, 3, 3, 3, 3, 3, 3, 3, 3, 3, 3, 3, 3, 3, 3,
  3, 3, 3, 3, 3, 3, 3, 3, 3, 3, 3, 3, 3, 3, 3, 3, 3, 3, 3, 3, 3, 3, 3, 3, 3, 3, 3, 3, 3, 4, 3, 3, 3, 3, 3, 3, 3, 3,
  3, 3, 3, 3, 3, 3, 3, 3, 3, 3, 3, 3, 3, 3, 3, 3, 3, 3, 3, 3, 3, 3, 3, 3, 3, 3, 3, 3, 3, 3, 3, 3]

/-- Relation (index in `relTable`) of each nonterminal for `inClass`. -/
def relOf_inClass : List Nat := [
  3, 3, 3, 3, 3, 3, 3, 3, 3, 3, 3, 3, 3, 1, 1, 1, 3, 3, 3, 3, 3, 3, 3, 3, 3, 3, 3, 3, 3, 3, 3, 3, 3, 3, 3, 3, 3, 3,
  3, 3, 3, 3, 3, 3, 3, 3, 3, 3, 3, 3, 3, 3, 3, 3, 3, 3, 3, 3, 3, 3, 3, 3, 3, 1, 1, 3, 3, 3, 3, 3, 3, 3, 3, 3, 3, 3,
  3, 3, 3, 3, 3, 3, 3, 3, 3, 3, 3, 3, 3, 3, 3, 3, 3, 3, 3, 3, 3, 3, 3, 3, 3, 3, 3, 3, 3, 3, 3, 3, 3, 3, 3, 3, 3, 3,
  3, 3, 3, 3, 3, 3, 3, 3, 3, 3, 3, 3, 3, 3, 3, 3, 3, 3, 3, 3, 3, 3, 3, 3, 3, 3, 3, 3, 3, 3, 3, 3, 3, 3, 3, 3, 3, 3,
  3, 3, 3, 3, 3, 3, 3, 3, 3, 3, 3, 3, 3, 3, 3, 3, 3, 3, 3, 3, 3, 3, 3, 3, 3, 3, 3, 3, 3, 4, 3, 3, 3, 3, 3, 3, 3, 3,
  3, 3, 3, 3, 3, 3, 3, 3, 3, 3, 3, 3, 3, 3, 3, 3, 3, 3, 3, 3, 3, 3, 3, 3, 3, 3, 3, 3, 3, 3, 3, 3]

/-- Relation (index in `relTable`) of each nonterminal for `inLambda`. -/
def relOf_inLambda : List Nat := [
  3, 3, 3, 3, 3, 3, 3, 3, 3, 3, 3, 3, 3, 1, 1, 1, 3, 3, 3, 3, 3, 3, 3, 3, 3, 3, 3, 3, 3, 3, 3, 3, 3, 3, 3, 3, 3, 3,
  3, 3, 3, 3, 3, 3, 3, 3, 3, 3, 3, 3, 3, 3, 3, 3, 3, 3, 3, 3, 3, 3, 3, 3, 3, 1, 1, 3, 3, 3, 3, 3, 3, 3, 3, 3, 3, 3,
  3, 3, 3, 3, 3, 3, 3, 3, 3, 3, 3, 3, 3, 3, 3, 3, 3, 3, 3, 3, 3, 3, 3, 3, 3, 3, 3, 3, 3, 3, 3, 3, 3, 3, 3, 3, 3, 3,
  3, 3, 3, 3, 3, 3, 3, 3, 3, 3, 3, 3, 3, 3, 3, 3, 3, 3, 3, 3, 3, 3, 3, 3, 3, 3, 3, 3, 3, 3, 3, 3, 3, 3, 3, 3, 3, 3,
  3, 3, 3, 3, 3, 3, 3, 3, 3, 3, 3, 3, 3, 3, 3, 3, 3, 3, 3, 3, 3, 3, 3, 3, 3, 3, 3, 3, 3, 4, 3, 3, 3, 3, 3, 3, 3, 3,
  3, 3, 3, 3, 3, 3, 3, 3, 3, 3, 3, 3, 3, 3, 3, 3, 3, 3, 3, 3, 3, 3, 3, 3, 3, 3, 3, 3, 3, 3, 3, 3]

/-- Relation (index in `relTable`) of each nonterminal for `inBlock`. -/
def relOf_inBlock : List Nat := [
  3, 3, 3, 3, 3, 3, 3, 3, 3, 3, 3, 3, 3, 1, 1, 1, 3, 3, 3, 3, 3, 3, 3, 3, 3, 3, 3, 3, 3, 3, 3, 3, 3, 3, 3, 3, 3, 3,
  3, 3, 3, 3, 3, 3, 3, 3, 3, 3, 3, 3, 3, 3, 3, 3, 3, 3, 3, 3, 3, 3, 3, 3, 3, 1, 1, 3, 3, 3, 3, 3, 3, 3, 3, 3, 3, 3,
  3, 3, 3, 3, 3, 3, 3, 3, 3, 3, 3, 3, 3, 3, 3, 3, 3, 3, 3, 3, 3, 3, 3, 3, 3, 3, 3, 3, 3, 3, 3, 3, 3, 3, 3, 3, 3, 3,
  3, 3, 3, 3, 3, 3, 3, 3, 3, 3, 3, 3, 3, 3, 3, 3, 3, 3, 3, 3, 3, 3, 3, 3, 3, 3, 3, 3, 3, 3, 3, 3, 3, 3, 3, 3, 3, 3,
  3, 3, 3, 3, 3, 3, 3, 3, 3, 3, 3, 3, 3, 3, 3, 3, 3, 3, 3, 3, 3, 3, 3, 3, 3, 3, 3, 3, 3, 4, 3, 3, 3, 3, 3, 3, 3, 3,
  3, 3, 3, 3, 3, 3, 3, 3, 3, 3, 3, 3, 3, 3, 3, 3, 3, 3, 3, 3, 3, 3, 3, 3, 3, 3, 3, 3, 3, 3, 3, 3]

/-- The relation of a nonterminal for a flag. -/
def rel (f : CtxFlag) (x : NT) : List (Bool × Bool × Option Bool) :=
  relTable.getD (match f with
    | .inDefined => relOf_inDefined.getD x 0
    | .inKwarg => relOf_inKwarg.getD x 0
    | .inArgdef => relOf_inArgdef.getD x 0
    | .inDef => relOf_inDef.getD x 0
    | .inClass => relOf_inClass.getD x 0
    | .inLambda => relOf_inLambda.getD x 0
    | .inBlock => relOf_inBlock.getD x 0) []

/-- A number for each of the five stacks. -/
structure D5 where
  env : Nat
  arg : Nat
  num : Nat
  pv : Nat
  pk : Nat
deriving DecidableEq, Repr

/-- Stack summaries that occur: how many entries (from the top) a nonterminal may look at, and how many it puts in their
place. `env` counts the current variables as an entry. -/
def stackTable : List (D5 × D5) := [
  (⟨1, 0, 0, 0, 0⟩, ⟨1, 0, 0, 0, 0⟩), (⟨1, 1, 1, 0, 0⟩, ⟨1, 1, 1, 0, 0⟩), (⟨0, 0, 0, 0, 0⟩, ⟨1, 1, 1, 0, 0⟩),
  (⟨1, 1, 1, 0, 0⟩, ⟨2, 2, 2, 0, 0⟩), (⟨1, 1, 0, 0, 0⟩, ⟨1, 1, 0, 0, 0⟩), (⟨0, 0, 0, 0, 0⟩, ⟨0, 0, 0, 0, 0⟩),
  (⟨1, 0, 1, 0, 0⟩, ⟨1, 0, 1, 0, 0⟩), (⟨1, 1, 1, 1, 1⟩, ⟨1, 1, 1, 1, 1⟩), (⟨1, 1, 1, 1, 0⟩, ⟨1, 1, 1, 1, 0⟩),
  (⟨0, 0, 0, 0, 0⟩, ⟨0, 0, 0, 0, 1⟩), (⟨1, 0, 0, 1, 0⟩, ⟨1, 0, 0, 1, 0⟩)]

/-- Stack summary (index in `stackTable`) of each nonterminal. -/
def stackIdx : List Nat := [
  0, 1, 1, 1, 1, 1, 1, 1, 1, 1, 1, 1, 1, 2, 2, 3, 1, 1, 1, 1, 4, 5, 1, 1, 1, 1, 1, 1, 1, 1, 1, 5, 1, 5, 1, 1, 5, 5,
  1, 5, 1, 1, 1, 1, 1, 1, 1, 1, 1, 1, 1, 1, 1, 1, 1, 1, 5, 5, 5, 5, 5, 5, 5, 5, 5, 5, 5, 5, 5, 5, 5, 5, 5, 5, 5, 5,
  5, 1, 1, 1, 6, 6, 6, 6, 0, 5, 1, 1, 5, 1, 1, 1, 0, 0, 0, 4, 1, 1, 4, 1, 1, 4, 4, 4, 1, 1, 1, 1, 1, 7, 7, 8, 8, 8,
  9, 9, 8, 8, 8, 8, 8, 10, 8, 8, 7, 7, 7, 1, 10, 5, 10, 1, 1, 10, 6, 1, 5, 1, 1, 1, 1, 1, 1, 1, 1, 1, 1, 1, 1, 1,
  1, 1, 5, 5, 5, 5, 1, 1, 1, 1, 5, 1, 5, 5, 1, 5, 5, 5, 5, 5, 6, 0, 5, 1, 1, 1, 1, 1, 1, 1, 5, 5, 6, 1, 1, 1, 1, 1,
  1, 1, 1, 5, 5, 0, 1, 1, 1, 1, 5, 0, 5, 0, 0, 1, 1, 1, 1, 5, 5, 5, 5, 5, 5, 5, 5, 5, 5, 5, 5, 5, 5, 5]

/-- The stack summary of a nonterminal. -/
def stackOf (x : NT) : D5 × D5 := stackTable.getD (stackIdx.getD x 0) (⟨0, 0, 0, 0, 0⟩, ⟨0, 0, 0, 0, 0⟩)

/-- The kinds of the value of each nonterminal. -/
def kindTable : List (List Kind) := [
  [.None], [.MaybeNode], [.NodeList], [.Node], [.BeginBlock], [.MaybeNode], [.MaybeNode], [.NodeList], [.Node],
  [.Node], [.Node], [.Node], [.Node], [.TokenWithContext], [.DefnHead], [.DefsHead], [.Node], [.ExprValueDo],
  [.Node], [.Node], [.CmdBraceBlock], [.Token], [.Node], [.Node], [.Node], [.NodeList], [.Node], [.NodeList],
  [.NodeList], [.Node], [.Node], [.Token], [.Node], [.Token], [.Node], [.NodeList], [.Token], [.Token], [.Node],
  [.Token], [.Node], [.Node], [.NodeList], [.Node], [.ParenArgs], [.OptParenArgs], [.NodeList], [.NodeList],
  [.NodeList], [.Node], [.NodeList], [.NodeList], [.Node], [.NodeList], [.Node], [.Node], [.Token], [.Token],
  [.Token], [.Token], [.Token], [.Token], [.Token], [.TokenWithContext], [.TokenWithContext], [.Token], [.Token],
  [.Token], [.Token], [.Token], [.Token], [.Token], [.Token], [.Token], [.Token], [.Token], [.Token], [.IfTail],
  [.OptElse], [.Node], [.Node], [.NodeList], [.NodeList], [.Node], [.NodeList], [.Token], [.NodeList], [.NodeList],
  [.Token], [.NodeList], [.MaybeNode], [.MaybeNode], [.NodeList], [.NodeList], [.Node], [.Node], [.MaybeNode],
  [.LambdaBody], [.DoBlock], [.Node], [.Node], [.BraceBlock], [.BraceBody], [.DoBody], [.NodeList], [.CaseBody],
  [.Cases], [.PCaseBody], [.PCases], [.PTopExpr], [.Node], [.Node], [.Node], [.Node], [.Token], [.Token], [.Node],
  [.MatchPatternWithTrailingComma], [.MatchPatternWithTrailingComma], [.NodeList], [.NodeList], [.Node],
  [.NodeList], [.Node], [.NodeList], [.NodeList], [.Node], [.PKwLabel], [.NodeList], [.NoKwRest], [.NodeList],
  [.Node], [.Node], [.Node], [.Node], [.Node], [.Node], [.NodeList], [.NodeList], [.ExcVar], [.OptEnsure], [.Node],
  [.Node], [.NodeList], [.Node], [.Node], [.Node], [.Node], [.NodeList], [.NodeList], [.Node], [.NodeList],
  [.Node], [.Node], [.NodeList], [.NodeList], [.NodeList], [.NodeList], [.NodeList], [.Node], [.Node], [.Node],
  [.Node], [.Token], [.Node], [.Node], [.Node], [.Node], [.Node], [.Node], [.Node], [.Node], [.Node],
  [.Superclass], [.MaybeNode], [.MaybeNode], [.MaybeNode], [.NodeList], [.NodeList], [.NodeList], [.Token], [],
  [.Token], [.Token], [.Node], [.NodeList], [.Token], [.Node], [.Node], [.NodeList], [.NodeList], [.Token],
  [.NodeList], [.NodeList], [.Node], [.Node], [.NodeList], [.NodeList], [.Token], [.NodeList], [.Token], [.Node],
  [.NodeList], [.Node], [.NodeList], [.NodeList], [.Node], [.Token], [.Token], [.Token], [.Token], [.Token],
  [.Token], [.None], [.None], [.Token], [.Token], [.Token], [.None], [.Token], [.None], [.None]]

/-- The kinds of the value of a nonterminal. -/
def kindsOf (x : NT) : List Kind := kindTable.getD x []

end Verif.Grammar
