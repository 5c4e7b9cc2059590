import Verif.Model.Grammar.Outs
/-!
What it means that the tokens of a derivation tree come in the order of their positions in the input.
-/
namespace Verif.Grammar

/-- The least number of bytes of the text of a token of the given type: a label ends with `:` (`tLABEL_END` is the closing
quote and the `:`), a `?x` literal starts with `?`, and a regular expression has a closing delimiter. -/
def minSize : Tok → Nat
  | .tLABEL => 1
  | .tREGEXP_END => 1
  | .tCHAR => 1
  | .tLABEL_END => 2
  | _ => 0

/-- The production is one of a string (or of backquotes) and its first token starts with `<<`. -/
def opensHeredoc (r : Nat) : List TTree → Bool
  | .leaf t :: _ => (rules[r]?).any (fun ρ => ρ.lhs == NT.string1 || ρ.lhs == NT.xstring) && t.tokenValue.take 2 == [60, 60]
  | _ => false

/-- The production is one of a sequence of pieces of a string (or of backquotes). -/
def isContents (r : Nat) : Bool :=
  (rules[r]?).any fun ρ => ρ.lhs == NT.string_contents || ρ.lhs == NT.xstring_contents

mutual
/-- All tokens of the tree lie between the positions `a` and `b`, each proper and of at least its least size, each token not before
the end of the token before it.  Exception: the pieces of the text of a here document and its end may each be anywhere (they follow
on later lines, and other tokens of its first line come before them; the piece before an interpolation overlaps it). -/
def Placed : TTree → Nat → Nat → Prop
  | .leaf t, a, b => a ≤ t.loc.begin ∧ t.loc.begin + minSize t.tokenType ≤ t.loc.stop ∧ t.loc.stop ≤ b
  | .node r kids, a, b => if opensHeredoc r kids then placedHeredoc kids a b else placedL kids a b
/-- The same for trees side by side. -/
def placedL : List TTree → Nat → Nat → Prop
  | [], a, b => a ≤ b
  | t :: ts, a, b => ∃ m, Placed t a m ∧ placedL ts m b
/-- The first between `a` and `b`, the others anywhere. -/
def placedHeredoc : List TTree → Nat → Nat → Prop
  | [], a, b => a ≤ b
  | t :: ts, a, b => Placed t a b ∧ anywhereL ts
/-- Somewhere; the parts of a sequence of pieces each somewhere. -/
def Anywhere : TTree → Prop
  | .leaf t => t.loc.begin + minSize t.tokenType ≤ t.loc.stop
  | .node r kids =>
    if isContents r then anywhereL kids
    else ∃ a b, if opensHeredoc r kids then placedHeredoc kids a b else placedL kids a b
/-- The same for each of a list. -/
def anywhereL : List TTree → Prop
  | [] => True
  | t :: ts => Anywhere t ∧ anywhereL ts
end

/-- The syntax trees in a component of a semantic value. -/
def Atom.trees : Atom → List Node
  | .tok _ => []
  | .otok _ => []
  | .node n => [n]
  | .onode n => n.toList
  | .nodes ns => ns
  | .args (.Args n) => n.toList
  | .args (.Numargs _) => []
  | .label (.PlainLabel _) => []
  | .label (.QuotedLabel _ ps _) => ps
  | .tail t => t.2.toList
  | .parens g => g.2.1
  | .exc e => e.2.toList

end Verif.Grammar
