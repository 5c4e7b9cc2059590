import Verif.Model.Ast
/-!
What may not be inside a method, read off the syntax tree alone.

A method is the parameters and the body of a `Def` or `Defs` node. In it there is no class, no module and no assignment of a constant,
at any depth; only the body of a singleton class (`class << self`) is not part of the method it is in.
-/
namespace Verif.MethodSpec

/-- What Ruby forbids in a method: defining a class or a module, assigning a constant. -/
def forbidden : Node → Bool
  | .Class .. | .Module .. | .Casgn .. => true
  | _ => false

/-- The target of an operator-assignment (`+=`, `||=`). One with a scope before the name, `A::B` or `::B`, is not an assignment for
the parser: what is left of it is the scope. -/
def target : Node → Node
  | .Casgn (some scope) _ _ _ _ _ _ => scope
  | n => n

/-- The parts of a node that belong to the method the node is in. -/
def parts : Node → List Node
  | .SClass expr _ _ _ _ _ => [expr]
  | .OpAsgn recv _ value _ _ => [target recv, value]
  | .AndAsgn recv value _ _ => [target recv, value]
  | .OrAsgn recv value _ _ => [target recv, value]
  | n => n.children

/-- `n` has something in it that is forbidden in a method. -/
inductive Holds : Node → Prop
  | here {n : Node} : forbidden n = true → Holds n
  | part {n c : Node} : c ∈ parts n → Holds c → Holds n

/-- The parameters and the body of a method. -/
def method : Node → List Node
  | .Def _ args body _ _ _ _ _ => args.toList ++ body.toList
  | .Defs _ _ args body _ _ _ _ _ _ => args.toList ++ body.toList
  | _ => []

/-- Somewhere in `n` there is a method with something forbidden in it. -/
inductive Breaks : Node → Prop
  | method {n c : Node} : c ∈ method n → Holds c → Breaks n
  | part {n c : Node} : c ∈ n.children → Breaks c → Breaks n

end Verif.MethodSpec
