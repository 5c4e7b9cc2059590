import Verif.Lemmas.ParseFn
open Verif Verif.Grammar
mutual
partial def exT (K : List (List AK)) : Ex → Option AK
  | .fld n i => (K[n-1]?).bind (·[i]?)
  | .call f es => if es.all (fun e => (exT K e).isSome) then some f.res else none
end
def outT (K : List (List AK)) : ValOut → Option (List AK)
  | .copy n => K[n-1]?
  | .mk es => es.mapM (exT K)
def kOf (sg : Array (Option (List AK))) : List Item → Option (List (List AK))
  | [.a _] => some []
  | [] => some []
  | .a _ :: is => (kOf sg is).map ([] :: ·)
  | .t _ :: is => (kOf sg is).map ([.tok] :: ·)
  | .n x :: is => (sg[x]!).bind fun k => (kOf sg is).map (k :: ·)
  | .err :: _ => none
def refuses (ρ : Rule) : Bool := ρ.rhs.any (fun i => i.refuses)
def step (sg : Array (Option (List AK))) : Array (Option (List AK)) :=
  (rules.zip outs).foldl (fun sg (ρ, o) =>
    if refuses ρ then sg else
    match sg[ρ.lhs]! with
    | some _ => sg
    | none => match (kOf sg ρ.rhs).bind (outT · o.2) with
      | some k => sg.set! ρ.lhs (some k)
      | none => sg) sg
def fin := (List.range 30).foldl (fun sg _ => step sg) (Array.replicate 222 none)
def bad := (rules.zip outs).filter fun (ρ, o) => !refuses ρ && !ρ.rhs.contains .err && (kOf fin ρ.rhs).bind (outT · o.2) != fin[ρ.lhs]!
#eval (bad.map fun (ρ,o) => (ρ.lhs, o.1), (List.range 222).filter fun i => fin[i]!.isNone)
def show1 (l : Option (List AK)) : String := "[" ++ ", ".intercalate ((l.getD []).map fun k => "." ++ ((reprStr k).splitOn "." ).getLastD "") ++ "]"
#eval IO.println (", ".intercalate (fin.toList.map show1))
