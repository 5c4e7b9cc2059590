import Verif.Model.Builder.Core
/-!
Scopes of local variables, read off the syntax tree alone.

A method, class, module or singleton class body is a scope of its own (`walled`): nothing outside is visible in it. A block or
lambda body (`nested`) sees what is around it, but what it binds stays inside. All other parts belong to the scope of the node.
-/
namespace Verif.ScopeSpec

/-- The names of the groups of a regexp literal without interpolation, if a regexp compiler is present. -/
def groupNames (ext : BldExt) : Node → List Text
  | .Regexp parts options _ _ _ => match ext.regex, Builder.staticString parts with
    | some rx, some source =>
      match rx source (match options with | some (.RegOpt o _) => o | _ => none) with
      | .ok names => names
      | .error _ => []
    | _, _ => []
  | _ => []

/-- The names a node binds itself. -/
def ownNames (ext : BldExt) : Node → List Text
  | .Lvasgn name _ _ _ _ => [name]
  | .Arg name _ => [name]
  | .Optarg name _ _ _ _ => [name]
  | .Kwarg name _ _ => [name]
  | .Kwoptarg name _ _ _ => [name]
  | .Shadowarg name _ => [name]
  | .Restarg name _ _ _ => name.toList
  | .Kwrestarg name _ _ _ => name.toList
  | .Blockarg name _ _ _ => name.toList
  | .MatchVar name _ _ => [name]
  | .MatchWithLvasgn re _ _ _ => groupNames ext re
  | _ => []

/-- The parts from which nothing outside can be seen. -/
def walled : Node → List Node
  | .Def _ args body _ _ _ _ _ => args.toList ++ body.toList
  | .Defs _ _ args body _ _ _ _ _ _ => args.toList ++ body.toList
  | .Class _ _ body _ _ _ _ => body.toList
  | .Module _ body _ _ _ => body.toList
  | .SClass _ body _ _ _ _ => body.toList
  | _ => []

/-- The parts that see what is outside and keep to themselves what they bind. -/
def nested : Node → List Node
  | .Block _ args body _ _ _ => args.toList ++ body.toList
  | .Numblock _ _ body _ _ _ => [body]
  | _ => []

/-- The parts that belong to the scope of the node. -/
def open_ : Node → List Node
  | .Def _ _ _ _ _ _ _ _ => []
  | .Defs definee _ _ _ _ _ _ _ _ _ => [definee]
  | .Class name superclass _ _ _ _ _ => [name] ++ superclass.toList
  | .Module name _ _ _ _ => [name]
  | .SClass expr _ _ _ _ _ => [expr]
  | .Block call _ _ _ _ _ => [call]
  | .Numblock call _ _ _ _ _ => [call]
  | n => n.children

/-- `x` is bound in the scope `n` is in, somewhere in `n`. -/
inductive Binds (ext : BldExt) (x : Text) : Node → Prop
  | own {n : Node} : x ∈ ownNames ext n → Binds ext x n
  | part {n c : Node} : c ∈ open_ n → Binds ext x c → Binds ext x n

/-- `n` mentions the local variable `x` of the scope `n` is in. -/
inductive Uses (ext : BldExt) (x : Text) : Node → Prop
  | var {l : Loc} : Uses ext x (.Lvar x l)
  | part {n c : Node} : c ∈ open_ n → Uses ext x c → Uses ext x n
  | nested {n c : Node} : c ∈ nested n → Uses ext x c → (∀ d ∈ nested n, ¬ Binds ext x d) → Uses ext x n

/-- Somewhere in `n` there is a method, class or module that mentions a local variable `x` which it does not bind. -/
inductive Loose (ext : BldExt) (x : Text) : Node → Prop
  | walled {n c : Node} : c ∈ walled n → Uses ext x c → (∀ d ∈ walled n, ¬ Binds ext x d) → Loose ext x n
  | part {n c : Node} : c ∈ n.children → Loose ext x c → Loose ext x n

/-- Every mention of the local variable `x` in a whole program is in a scope that binds it. -/
def Scoped (ext : BldExt) (x : Text) (n : Node) : Prop := ¬ Loose ext x n ∧ (Uses ext x n → Binds ext x n)

end Verif.ScopeSpec
