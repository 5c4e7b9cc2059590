import Verif.Model.Grammar.Outs
/-!
The calls of the functions of the builder that are made for a derivation, and the derivations where `do` comes after a call.
-/
namespace Verif.Grammar
open Builder

/-- `block_call: command do_block` (src/parser/parse.y:4215). -/
def Rule.doBlockCall (ρ : Rule) : Bool := ρ.lhs == NT.block_call && syms ρ.rhs == some [.n NT.command, .n NT.do_block]
/-- The `command`s that end with their arguments: `foo 1`, `a.b 1`, `super 1`, `yield 1` (src/parser/parse.y:1217-1334). -/
def Rule.plainCommand (ρ : Rule) : Bool := ρ.lhs == NT.command && ρ.rhs.contains (.n NT.command_args) &&
  !ρ.rhs.contains (.n NT.cmd_brace_block)
/-- `return`, `break` and `next` with arguments (src/parser/parse.y:1346-1370). -/
def Rule.jumpCommand (ρ : Rule) : Bool := ρ.lhs == NT.command && ρ.rhs.contains (.n NT.call_args)
/-- `call_args: command` -/
def Rule.loneCommand (ρ : Rule) : Bool := ρ.lhs == NT.call_args && syms ρ.rhs == some [.n NT.command]

/-- The production at the root. -/
def TTree.rule : TTree → Option Rule
  | .leaf _ => none
  | .node r _ => rules[r]?
/-- The trees below the root. -/
def TTree.kids : TTree → List TTree
  | .leaf _ => []
  | .node _ ks => ks

/-- `foo 1` and the like. -/
def TTree.plain (t : TTree) : Bool := t.rule.any (·.plainCommand)
/-- The only argument is such a command. -/
def TTree.lone (t : TTree) : Bool := t.rule.any (·.loneCommand) && (match t.kids with
  | [c] => c.plain
  | _ => false)
/-- `return foo 1` and the like. -/
def TTree.jump (t : TTree) : Bool := t.rule.any (·.jumpCommand) && (match t.kids with
  | [_, a] => a.lone
  | _ => false)

mutual
/-- Wherever the block of a `block_call` is attached to a command, the command is `foo 1` or `return foo 1` or the like; not a
command that has a block already (`foo 1 { }`), nor a jump with other arguments (`return 1, 2`). -/
def TTree.blocksFit : TTree → Bool
  | .leaf _ => true
  | .node r kids =>
    (!(rules[r]?).any (·.doBlockCall) || kids.head?.any (fun c => c.plain || c.jump)) && blocksFitL kids
/-- The same for a list. -/
def blocksFitL : List TTree → Bool
  | [] => true
  | t :: ts => t.blocksFit && blocksFitL ts
end

mutual
/-- The calls made by an expression: those of functions whose arguments have values. -/
def Ex.Calls (ext : BldExt) (vals : List (List Atom)) : Ex → BFn → List Atom → Prop
  | .fld _ _, _, _ => False
  | .call g es, f, xs => (g = f ∧ exGives ext vals es xs) ∨ exCalls ext vals es f xs
/-- The same for a list. -/
def exCalls (ext : BldExt) (vals : List (List Atom)) : List Ex → BFn → List Atom → Prop
  | [], _, _ => False
  | e :: es, f, xs => e.Calls ext vals f xs ∨ exCalls ext vals es f xs
end
/-- The same for `$$`. -/
def ValOut.Calls (ext : BldExt) (vals : List (List Atom)) : ValOut → BFn → List Atom → Prop
  | .copy _, _, _ => False
  | .mk es, f, xs => exCalls ext vals es f xs

mutual
/-- The calls made for a derivation. -/
def TTree.Calls (ext : BldExt) : TTree → BFn → List Atom → Prop
  | .leaf _, _, _ => False
  | .node r kids, f, xs => (∃ ρ o, rules[r]? = some ρ ∧ outs[r]? = some o ∧ ρ.rhs.all (fun i => !i.refuses) = true ∧
      ∃ vss, evalsL ext kids vss ∧ o.2.Calls ext (slots ρ.rhs vss) f xs) ∨ callsL ext kids f xs
/-- The same for a list. -/
def callsL (ext : BldExt) : List TTree → BFn → List Atom → Prop
  | [], _, _ => False
  | t :: ts, f, xs => t.Calls ext f xs ∨ callsL ext ts f xs
end

/-- A string is dedented only when it is a here document: `heredoc_indent` is zero at other strings (src/parser/parse.y, rules
`string1` and `xstring`). -/
def BFn.Dedents (indent : Int) : BFn → List Atom → Prop
  | .string1, .tok t :: _ => indent = 0 ∨ startsHeredoc t.tokenValue = true
  | .xstring, .tok t :: _ => indent = 0 ∨ startsHeredoc t.tokenValue = true
  | _, _ => True

end Verif.Grammar
