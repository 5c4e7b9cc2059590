import Verif.Lemmas.ParseFn
import Verif.Lemmas.GrammarSound
import Verif.Spec.WellRead
/-!
Every production agrees with what its symbols need and give in a parse: a checker, run over the whole table.
-/
namespace Verif.Grammar
open Builder

/-- Heights needed and left, as in `GrammarSummary`, but with a level for numbered parameters wherever the builder may look for
one and with a level for keys wherever there is one for variables of a pattern. -/
def stackP (x : NT) : D5 × D5 :=
  let (a, b) := stackOf x
  let num := if a.num = 0 && x != NT.program then 1 else 0
  let pk := if a.pk = 0 && decide (1 ≤ a.pv) then 1 else 0
  ({ a with num := a.num + num, pk := a.pk + pk }, { b with num := b.num + num, pk := b.pk + pk })

/-- The levels a function relies on. -/
def BFn.dims (f : BFn) : List Dim := .num :: f.touches ++ (if f.declares then [.pv, .pk] else [])
mutual
/-- The levels an expression relies on. -/
def Ex.dims : Ex → List Dim
  | .fld _ _ => []
  | .call f es => f.dims ++ exDims es
/-- The same for a list. -/
def exDims : List Ex → List Dim
  | [] => []
  | e :: es => e.dims ++ exDims es
end
/-- The same for `$$`. -/
def ValOut.dims : ValOut → List Dim
  | .copy _ => []
  | .mk es => exDims es
/-- The level a write relies on. -/
def Write.dim : Write → Dim
  | .declare _ | .forward | .anonBlock => .env
  | .ordinary | .ordinaryIf _ => .num
  | .argName _ | .argNone => .arg

/-- Height after an action; `none` when a level is missing. -/
def actP (d : Dim) (act : Act) (o : ValOut) (m : Nat) : Option Nat :=
  if (extra act.line).writes.all (fun w => decide (w.dim ≠ d) || decide (1 ≤ m)) then
    if (extra act.line).opsLast then
      if decide (d ∉ o.dims) || decide (1 ≤ m) then opsS d act.ops m else none
    else match opsS d act.ops m with
      | some m' => if decide (d ∉ o.dims) || decide (1 ≤ m') then some m' else none
      | none => none
  else none

/-- Check of a right-hand side for one stack. -/
def checkP (d : Dim) (goal : Nat) (o : ValOut) : List Item → Nat → Bool
  | [.a act], m => act.fails || decide (actP d act o m = some goal)
  | .a act :: is, m => act.fails || (match actP d act (.mk []) m with
      | some m' => checkP d goal o is m'
      | none => false)
  | .t _ :: is, m => checkP d goal o is m
  | .n x :: is, m => decide ((stackP x).1.get d ≤ m) && checkP d goal o is (m - (stackP x).1.get d + (stackP x).2.get d)
  | .err :: _, _ => true
  | [], _ => false

/-! ### Kinds of the parts of a value -/

/-- The kinds of the parts of the value of a nonterminal; `none` when it never has one. -/
def sigs : List (Option (List AK)) := [
  some [.onode], some [.onode], some [.nodes], some [.node], some [.tok, .onode, .tok], some [.onode], some [.onode],
  some [.nodes], some [.node], some [.node], some [.node], some [.node], some [.node], some [.tok], some [.tok, .tok],
  some [.tok, .node, .tok, .tok], some [.node], some [.node, .tok], some [.node], some [.node],
  some [.tok, .args, .onode, .tok], some [.tok], some [.node], some [.node], some [.node], some [.nodes], some [.node],
  some [.nodes], some [.nodes], some [.node], some [.node], some [.tok], some [.node], some [.tok], some [.node],
  some [.nodes], some [.tok], some [.tok], some [.node], some [.tok], some [.node], some [.node], some [.nodes],
  some [.node], some [.tok, .nodes, .tok], some [.parens], some [.nodes], some [.nodes], some [.nodes], some [.node],
  some [.nodes], some [.nodes], some [.node], some [.nodes], some [.node], some [.node], some [.tok], some [.tok],
  some [.tok], some [.tok], some [.tok], some [.tok], some [.tok], some [.tok], some [.tok], some [.tok], some [.tok],
  some [.tok], some [.tok], some [.tok], some [.tok], some [.tok], some [.tok], some [.tok], some [.tok], some [.tok],
  some [.tok], some [.tail], some [.otok, .onode], some [.node], some [.node], some [.nodes], some [.nodes], some [.node],
  some [.nodes], some [.tok], some [.nodes], some [.nodes], some [.tok], some [.nodes], some [.onode], some [.onode],
  some [.nodes], some [.nodes], some [.node], some [.node], some [.onode], some [.tok, .onode, .tok],
  some [.tok, .args, .onode, .tok], some [.node], some [.node], some [.tok, .args, .onode, .tok], some [.args, .onode],
  some [.args, .onode], some [.nodes], some [.nodes, .otok, .onode], some [.nodes, .otok, .onode],
  some [.nodes, .otok, .onode], some [.nodes, .otok, .onode], some [.node, .onode], some [.node], some [.node],
  some [.node], some [.node], some [.tok], some [.tok], some [.node], some [.nodes, .otok], some [.nodes, .otok],
  some [.nodes], some [.nodes], some [.node], some [.nodes], some [.node], some [.nodes], some [.nodes], some [.node],
  some [.label], some [.nodes], some [.tok, .tok], some [.nodes], some [.node], some [.node], some [.node], some [.node],
  some [.node], some [.node], some [.nodes], some [.nodes], some [.exc], some [.otok, .onode], some [.node], some [.node],
  some [.nodes], some [.node], some [.node], some [.node], some [.node], some [.nodes], some [.nodes], some [.node],
  some [.nodes], some [.node], some [.node], some [.nodes], some [.nodes], some [.nodes], some [.nodes], some [.nodes],
  some [.node], some [.node], some [.node], some [.node], some [.tok], some [.node], some [.node], some [.node],
  some [.node], some [.node], some [.node], some [.node], some [.node], some [.node], some [.otok, .onode], some [.onode],
  some [.onode], some [.onode], some [.nodes], some [.nodes], some [.nodes], some [.tok], none, some [.tok], some [.tok],
  some [.node], some [.nodes], some [.tok], some [.node], some [.node], some [.nodes], some [.nodes], some [.tok],
  some [.nodes], some [.nodes], some [.node], some [.node], some [.nodes], some [.nodes], some [.tok], some [.nodes],
  some [.tok], some [.node], some [.nodes], some [.node], some [.nodes], some [.nodes], some [.node], some [.tok],
  some [.tok], some [.tok], some [.tok], some [.tok], some [.tok], some [], some [], some [.tok], some [.tok], some [.tok],
  some [], some [.tok], some [], some []]
/-- The entry of a nonterminal. -/
def sig (x : NT) : Option (List AK) := (sigs[x]?).join

mutual
/-- The kind of an expression. -/
def Ex.ty (K : List (List AK)) : Ex → Option AK
  | .fld n i => (K[n - 1]?).bind (·[i]?)
  | .call f es => if exTy K es then some f.res else none
/-- Every expression has one. -/
def exTy (K : List (List AK)) : List Ex → Bool
  | [] => true
  | e :: es => (e.ty K).isSome && exTy K es
end
/-- The kinds of a value. -/
def ValOut.ty (K : List (List AK)) : ValOut → Option (List AK)
  | .copy n => K[n - 1]?
  | .mk es => es.mapM (Ex.ty K)

/-- The first part of `$n` has this kind. -/
def headIs (K : List (List AK)) (n : Nat) (k : AK) : Bool := match K[n - 1]? with
  | some (k' :: _) => decide (k' = k)
  | _ => false
/-- A write finds what it looks for. -/
def Write.ty (K : List (List AK)) : Write → Bool
  | .declare n | .argName n => headIs K n .tok
  | .ordinaryIf n => headIs K n .nodes
  | _ => true
/-- A condition finds what it looks for. -/
def Guard.ty (K : List (List AK)) : Guard → Bool
  | .declared n => headIs K n .tok
  | .value n => headIs K n .node
  | _ => true

/-- Check of an action. -/
def actTy (K : List (List AK)) (act : Act) (o : ValOut) : Option (List AK) :=
  if (extra act.line).writes.all (Write.ty K) then o.ty K else none
/-- Check of a right-hand side. -/
def checkTy (goal : List AK) (o : ValOut) : List Item → List (List AK) → Bool
  | [.a act], K => (extra act.line).guards.all (Guard.ty K) && (act.fails || decide (actTy K act o = some goal))
  | .a act :: is, K => (extra act.line).guards.all (Guard.ty K) && (act.fails ||
      ((extra act.line).writes.all (Write.ty K) && checkTy goal o is (K ++ [[]])))
  | .t _ :: is, K => checkTy goal o is (K ++ [[.tok]])
  | .n x :: is, K => match sig x with
    | some k => checkTy goal o is (K ++ [k])
    | none => true
  | .err :: _, _ => true
  | [], _ => false

/-- All checks of one production. -/
def checkPRule (ρ : Rule) (o : ValOut) : Bool :=
  ([Dim.env, .arg, .num, .pv, .pk].all fun d => checkP d ((stackP ρ.lhs).2.get d) o ρ.rhs ((stackP ρ.lhs).1.get d)) &&
  checkTy ((sig ρ.lhs).getD []) o ρ.rhs [] && ((sig ρ.lhs).isSome || ρ.rhs.any (·.refuses))
/-- The same for lists of productions and values. -/
def checkPAll : List Rule → List (Nat × ValOut) → Bool
  | ρ :: rs, o :: os => checkPRule ρ o.2 && checkPAll rs os
  | [], [] => true
  | _, _ => false

theorem rules_parse_checked : checkPAll rules outs = true := by decide +kernel

theorem checkPAll_get : ∀ {rs : List Rule} {os : List (Nat × ValOut)} {r : Nat} {ρ : Rule} {o : Nat × ValOut},
    checkPAll rs os = true → rs[r]? = some ρ → os[r]? = some o → checkPRule ρ o.2 = true
  | ρ :: rs, o :: os, 0, _, _, h, h1, h2 => by
    simp only [checkPAll, Bool.and_eq_true] at h
    cases h1; cases h2; exact h.1
  | ρ :: rs, o :: os, r + 1, _, _, h, h1, h2 => by
    simp only [checkPAll, Bool.and_eq_true] at h
    exact checkPAll_get (r := r) h.2 (by simpa using h1) (by simpa using h2)
  | [], _, r, _, _, _, h1, _ => by simp at h1
  | _ :: _, [], r, _, _, _, _, h2 => by simp at h2

theorem rule_parse_checked {r : Nat} {ρ : Rule} {o : Nat × ValOut} (h : rules[r]? = some ρ) (h2 : outs[r]? = some o) :
    (∀ d, checkP d ((stackP ρ.lhs).2.get d) o.2 ρ.rhs ((stackP ρ.lhs).1.get d) = true) ∧
    checkTy ((sig ρ.lhs).getD []) o.2 ρ.rhs [] = true ∧ (sig ρ.lhs = none → ρ.rhs.all (fun i => !i.refuses) = false) := by
  have := checkPAll_get rules_parse_checked h h2
  simp only [checkPRule, Bool.and_eq_true, List.all_eq_true, Bool.or_eq_true] at this
  obtain ⟨⟨h1, h3⟩, h4⟩ := this
  refine ⟨fun d => h1 d (by cases d <;> simp), h3, fun hn => ?_⟩
  rcases h4 with h4 | h4
  · simp [hn] at h4
  · rw [List.any_eq_true] at h4
    obtain ⟨i, hi, hr⟩ := h4
    rw [List.all_eq_false]
    exact ⟨i, hi, by simp [hr]⟩

theorem outs_some {r : Nat} {ρ : Rule} (h : rules[r]? = some ρ) : ∃ o, outs[r]? = some o := by
  have : outs.length = rules.length := by decide +kernel
  have h1 : r < rules.length := (List.getElem?_eq_some_iff.mp h).1
  exact ⟨_, List.getElem?_eq_getElem (by omega)⟩

end Verif.Grammar
