import Verif.Lemmas.GrammarCheck
import Verif.Lemmas.GrammarSummary
import Verif.Model.Grammar.Parse
/-!
A checker of productions: what is built while the parser is in a method has nothing in it that is forbidden there.
-/
namespace Verif.Grammar
open Builder

/-- What is known of a part of a value. -/
inductive Lvl where
  /-- nothing forbidden -/
  | clean
  /-- the same, and a constant with a scope before it -/
  | qualified
  /-- an assignment of such a constant, the scope being clean -/
  | target
  /-- nothing is known -/
  | dirty
deriving DecidableEq, Repr

/-- Nothing forbidden. -/
def Lvl.ok : Lvl → Bool
  | .clean | .qualified => true
  | _ => false

/-- The level when some arguments are clean. -/
def cleanIf (b : Bool) : Lvl := if b then .clean else .dirty

/-- The arguments that are the method in a definition. -/
def methodArgs : BFn → List Nat
  | .defMethod => [2, 3]
  | .defSingleton => [4, 5]
  | .defEndless => [2, 4]
  | .defEndlessSingleton => [4, 6]
  | _ => []

/-- The result of a function, `c` being the flag `in_def`. Methods have to be clean. -/
def fnLvl (c : Bool) (f : BFn) (ls : List Lvl) : Option Lvl :=
  if (methodArgs f).all fun i => ls[i]?.all Lvl.ok then
    some (match f with
      | .constFetch | .constGlobal => if ls.all Lvl.ok then .qualified else .dirty
      | .constOpAssignable => if ls = [.qualified] then .target else .dirty
      | .opAssign => cleanIf ((ls[0]? == some .target && ls.tail.all Lvl.ok) || ls.all Lvl.ok)
      | .assignable => cleanIf (c && ls.all Lvl.ok)
      | .defClass | .defModule => .dirty
      | .defSclass => cleanIf (ls[2]? == some .clean)
      | _ => cleanIf (ls.all Lvl.ok))
  else none

mutual
/-- The level of an expression, from those of the values. -/
def Ex.lvl (c : Bool) (V : List Lvl) : Ex → Option Lvl
  | .fld n _ => V[n - 1]?
  | .call f es => match exLvl c V es with
    | some ls => fnLvl c f ls
    | none => none
/-- The same for a list. -/
def exLvl (c : Bool) (V : List Lvl) : List Ex → Option (List Lvl)
  | [] => some []
  | e :: es => match e.lvl c V, exLvl c V es with
    | some l, some ls => some (l :: ls)
    | _, _ => none
end
/-- Everything a production gives is clean, if that is asked for. -/
def ValOut.lvlOk (b c : Bool) (V : List Lvl) : ValOut → Bool
  | .copy n => !b || V[n - 1]?.all Lvl.ok
  | .mk es => match exLvl c V es with
    | some ls => !b || ls.all Lvl.ok
    | none => false

/-- A right-hand side: `b` is the flag at its start, `c` the flag now, `vs` the flags stored in the values, `V` their levels. -/
def checkM (o : ValOut) (b : Bool) (goal : List (Bool × Bool × Option Bool)) : List Item → Bool → List (Option Bool) → List Lvl → Bool
  | [.a act], c, vs, V =>
    act.fails || ((extra act.line).guards.contains .notInDef && c) || (match opsF .inDef vs act.ops c none with
      | some (c', reg) => goal.contains (b, c', outF vs reg act.outs.head?) && o.lvlOk b (if (extra act.line).opsLast then c else c') V
      | none => false)
  | .a act :: is, c, vs, V =>
    act.fails || (match opsF .inDef vs act.ops c none with
      | some (c', reg) => checkM o b goal is c' (stealF vs act.uses ++ [outF vs reg act.outs.head?]) (V ++ [.clean])
      | none => false)
  | .t _ :: is, c, vs, V => checkM o b goal is c (vs ++ [none]) (V ++ [.clean])
  | .n x :: is, c, vs, V => (rel .inDef x).all fun r => r.1 != c || checkM o b goal is r.2.1 (vs ++ [r.2.2]) (V ++ [cleanIf c])
  | .err :: _, _, _, _ => true
  | [], _, _, _ => false

end Verif.Grammar
