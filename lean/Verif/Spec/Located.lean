import Verif.Model.Ast
/-!
What it means that the locations of a syntax tree nest: written down from the tree alone, without reference to the builder.
-/
namespace Verif

/-- `l` is a proper location (it does not end before it begins) inside `m`. -/
def Loc.Within (l m : Loc) : Prop := m.begin ≤ l.begin ∧ l.begin ≤ l.stop ∧ l.stop ≤ m.stop

instance (l m : Loc) : Decidable (Loc.Within l m) := by unfold Loc.Within; infer_instance

/-- The stand-in for the missing body of a block with numbered parameters: a `nil` located at `0..0`. -/
def Node.isAbsent : Node → Bool
  | .Nil x => x.begin == 0 && x.stop == 0
  | _ => false

/-- The sub-nodes that are to lie inside the expression of a node: all, except that
* the text of a here document is not where its node is (the node is located at `<<ID`, the text follows on later lines),
* the stand-in body of a block is nowhere. -/
def Node.inner : Node → List Node
  | .Heredoc .. => []
  | .XHeredoc .. => []
  | .Numblock call _ body _ _ _ => if body.isAbsent then [call] else [call, body]
  | n => n.children

/-- The location fields of a node that are to lie inside its expression: all but the two of a here document's text. -/
def Node.allMarks : Node → List Loc
  | .Heredoc .. => []
  | .XHeredoc .. => []
  | n => n.locs

/-- The same without `begin_l` of a `when` or `in` branch that has no body (the expression of such a branch ends before it), and
with the stretch between the delimiters of a string literal. -/
def Node.marks : Node → List Loc
  | .When _ none keyword_l _ _ => [keyword_l]
  | .InPattern _ _ none keyword_l _ _ => [keyword_l]
  | .Str _ (some b) (some e) _ => [b, e, ⟨b.stop, e.begin⟩]
  | n => n.allMarks

/-- The locations of a tree nest: the expression of every node is proper, contains the node's other locations (those given by
`marks`) and contains the expressions of its sub-nodes (those of `Node.inner`). -/
inductive Located (marks : Node → List Loc) : Node → Prop
  | mk (n : Node) (proper : n.expression.begin ≤ n.expression.stop)
      (marked : ∀ l ∈ marks n, Loc.Within l n.expression)
      (around : ∀ c ∈ n.inner, Loc.Within c.expression n.expression)
      (sub : ∀ c ∈ n.children, Located marks c) : Located marks n

end Verif
