import Verif.Model.Grammar.Outs
/-!
A whole parse: the semantic actions performed over a derivation tree from left to right, with one set of tables that the actions
and the functions of the builder share.

`Run.lean` has the effect of the actions on the tables and leaves open what the builder declares; `Outs.lean` has the values and
leaves open the tables.  Here both are done together, and what is left open there is made definite by `extras`: what an action
writes to the tables itself, when it refuses, and whether its pushes and pops come before or after its calls of the builder.

Not here: the casts (`Run.lean`, they never fail), the diagnostics the actions themselves emit, the lexer's fields, error recovery.
-/
namespace Verif.Grammar
open Builder

/-- A semantic value: the parts of `Outs.lean` and the saved context of `Run.lean`. -/
structure PVal where
  atoms : List Atom := []
  saved : Option Saved := none

/-- The fields of the parser that `Run.lean` is about. They are shared with the builder (src/parser/parse.y:6917-6935). -/
def _root_.Verif.BState.book (s : BState) : St :=
  ⟨s.staticEnv, s.currentArg, s.numparams, s.patternVariables, s.patternHashKeys, s.context, 0⟩
/-- Putting them back. -/
def _root_.Verif.BState.withBook (s : BState) (b : St) : BState :=
  ⟨b.env, b.ctx, b.arg, b.num, b.pv, b.pk, s.diagnostics⟩

/-- What an action writes to the tables without the builder; `$n` is a token or a list of nodes. -/
inductive Write where
  /-- `static_env.declare(clone_value($n))` -/
  | declare (n : Nat)
  /-- `static_env.declare_forward_args()` -/
  | forward
  /-- `static_env.declare_anonymous_blockarg()` -/
  | anonBlock
  /-- `max_numparam_stack.set_has_ordinary_params()` -/
  | ordinary
  /-- the same, when the list `$n` is not empty -/
  | ordinaryIf (n : Nat)
  /-- `current_arg_stack.set(Some(clone_value($n)))` -/
  | argName (n : Nat)
  /-- `current_arg_stack.set(None)` -/
  | argNone
deriving DecidableEq, Repr

/-- A condition without which an action returns `Err(())`. -/
inductive Guard where
  /-- `static_env.is_forward_args_declared()` -/
  | forward
  /-- `static_env.is_anonymous_blockarg_declared()` -/
  | anonBlock
  /-- `!context.in_def()` -/
  | notInDef
  /-- `!(context.in_class() && !context.in_def() && !(context.in_block() || context.in_lambda()))` -/
  | canReturn
  /-- `static_env.is_declared($n)` -/
  | declared (n : Nat)
  /-- `value_expr($n)` is `Ok` -/
  | value (n : Nat)
deriving DecidableEq, Repr

/-- What is left open about an action in the other tables. -/
structure Extra where
  guards : List Guard := []
  writes : List Write := []
  /-- the operations of `Run.lean` are performed after `$$` is built, not before -/
  opsLast : Bool := false
deriving DecidableEq, Repr

/-- By the line of the action in src/parser/parse.y.  In 4104 the pops come between the arguments and the block, and `block`
(src/builder.rs:2148-2219) does not look at the tables. -/
def extras : List (Nat × Extra) := [
  (809, { opsLast := true }), (829, { opsLast := true }), (865, { opsLast := true }), (887, { opsLast := true }),
  (1020, { guards := [.value 1] }), (1050, { guards := [.value 1] }),
  (2348, { opsLast := true }), (2368, { opsLast := true }), (2404, { opsLast := true }), (2426, { opsLast := true }),
  (2600, { guards := [.forward] }), (2621, { guards := [.forward] }), (2774, { guards := [.anonBlock] }),
  (3294, { guards := [.notInDef], opsLast := true }), (3326, { opsLast := true }),
  (3350, { guards := [.notInDef], opsLast := true }), (3369, { opsLast := true }), (3388, { opsLast := true }),
  (3592, { guards := [.canReturn] }),
  (4018, { writes := [.ordinary, .argNone] }), (4032, { writes := [.ordinary, .argNone] }), (4074, { writes := [.declare 1] }),
  (4104, { opsLast := true }), (4133, { writes := [.ordinary] }), (4149, { writes := [.ordinaryIf 1] }),
  (4462, { opsLast := true }), (4488, { opsLast := true }),
  (5364, { guards := [.declared 2] }),
  (6057, { opsLast := true }), (6125, { writes := [.forward] }),
  (6338, { writes := [.declare 1, .ordinary] }), (6348, { writes := [.argName 1] }), (6357, { writes := [.argNone] }),
  (6389, { writes := [.declare 1, .ordinary, .argName 1] }), (6406, { writes := [.argNone] }), (6414, { writes := [.argNone] }),
  (6491, { writes := [.declare 2] }), (6515, { writes := [.argNone] }), (6529, { writes := [.argNone] }),
  (6577, { writes := [.declare 2] }), (6612, { writes := [.declare 2] }), (6623, { writes := [.anonBlock] })]

/-- The entry of an action. -/
def extra (line : Nat) : Extra := (extras.lookup line).getD {}

/-- The name in the token `$n`. -/
def nameAt (vals : List PVal) (n : Nat) : Option Text :=
  match vals[n - 1]? with
  | some ⟨.tok t :: _, _⟩ => some (cloneValue t)
  | _ => none

/-- One write. -/
def Write.run (vals : List PVal) (s : BState) : Write → Run BState
  | .declare n => match nameAt vals n with
    | some name => .ok { s with staticEnv := s.staticEnv.declare name }
    | none => .error .badTree
  | .forward => .ok { s with staticEnv := s.staticEnv.declareForwardArgs }
  | .anonBlock => .ok { s with staticEnv := s.staticEnv.declareAnonymousBlockarg }
  | .ordinary => do let num ← lift s.numparams.setHasOrdinaryParams; pure { s with numparams := num }
  | .ordinaryIf n => match vals[n - 1]? with
    | some ⟨.nodes [] :: _, _⟩ => .ok s
    | some ⟨.nodes _ :: _, _⟩ => do let num ← lift s.numparams.setHasOrdinaryParams; pure { s with numparams := num }
    | _ => .error .badTree
  | .argName n => match nameAt vals n with
    | some name => .ok { s with currentArg := s.currentArg.set (some name) }
    | none => .error .badTree
  | .argNone => .ok { s with currentArg := s.currentArg.set none }
/-- The writes in order. -/
def writeAll (vals : List PVal) (s : BState) : List Write → Run BState
  | [] => .ok s
  | w :: ws => do let s ← w.run vals s; writeAll vals s ws

/-- A computation of the builder in a parse. -/
def runB (m : BldR α) (s : BState) : Run (α × BState) :=
  match m.run s with
  | .ok (.ok a, s) => .ok (a, s)
  | .ok (.error _, _) => .error .err
  | .error p => .error (.panic p)

/-- One condition. -/
def Guard.check (vals : List PVal) (s : BState) : Guard → Run BState
  | .forward => if s.staticEnv.isForwardArgsDeclared then .ok s else .error .err
  | .anonBlock => if s.staticEnv.isAnonymousBlockargDeclared then .ok s else .error .err
  | .notInDef => if s.context.get .inDef then .error .err else .ok s
  | .canReturn =>
    if s.context.get .inClass && !s.context.get .inDef && !(s.context.get .inBlock || s.context.get .inLambda) then .error .err
    else .ok s
  | .declared n => match nameAt vals n with
    | some name => if s.staticEnv.isDeclared name then .ok s else .error .err
    | none => .error .badTree
  | .value n => match vals[n - 1]? with
    | some ⟨.node x :: _, _⟩ => do let (_, s) ← runB (valueExpr x) s; pure s
    | _ => .error .badTree
/-- The conditions in order. -/
def checkAll (vals : List PVal) (s : BState) : List Guard → Run BState
  | [] => .ok s
  | g :: gs => do let s ← g.check vals s; checkAll vals s gs

/-- Nothing is left open: what the tables of `Run.lean` call a change is done by `Write.run` and by the builder. -/
def noTouch : World := ⟨fun _ => false, fun _ => 0, fun _ _ => []⟩
/-- The operations of an action; also what is stored in `$$`. -/
def opsOn (vals : List PVal) (ops : List Op) (s : BState) : Run (Option Saved × BState) := do
  let (b, reg) ← runOps noTouch (vals.map fun v => ⟨.Token, v.saved⟩) 0 s.book none ops
  pure (reg, s.withBook b)

mutual
/-- The value of an expression. `dedent` is the width by which the lexer says a here document is dedented, at the call with
these arguments. -/
def Ex.parse (ext : BldExt) (dedent : List Atom → Int) (vals : List (List Atom)) : Ex → BState → Run (Atom × BState)
  | .fld n i, s => match (vals[n - 1]?).bind (·[i]?) with
    | some a => .ok (a, s)
    | none => .error .badTree
  | .call f es, s => do
    let (xs, s) ← exParse ext dedent vals es s
    runB (applyFn ext (dedent xs) f xs) s
/-- The same for a list. -/
def exParse (ext : BldExt) (dedent : List Atom → Int) (vals : List (List Atom)) : List Ex → BState → Run (List Atom × BState)
  | [], s => .ok ([], s)
  | e :: es, s => do
    let (x, s) ← e.parse ext dedent vals s
    let (xs, s) ← exParse ext dedent vals es s
    pure (x :: xs, s)
end
/-- The value given to `$$`. -/
def ValOut.parse (ext : BldExt) (dedent : List Atom → Int) (vals : List (List Atom)) : ValOut → BState → Run (List Atom × BState)
  | .copy n, s => match vals[n - 1]? with
    | some v => .ok (v, s)
    | none => .error .badTree
  | .mk es, s => exParse ext dedent vals es s

/-- The context stored in `$$`. -/
def savedOf (vals : List PVal) (reg : Option Saved) : List Out → Option Saved
  | .copy n :: _ => (vals[n - 1]?).bind (·.saved)
  | .new _ :: _ => reg
  | [] => none

/-- Performing an action; the one at the end of a production builds the value `o`. -/
def perform (ext : BldExt) (dedent : List Atom → Int) (act : Act) (o : ValOut) (vals : List PVal) (s : BState) : Run (PVal × BState) := do
  let s ← checkAll vals s (extra act.line).guards
  if act.fails then .error .err else
  let s ← writeAll vals s (extra act.line).writes
  if (extra act.line).opsLast then
    let (atoms, s) ← o.parse ext dedent (vals.map (·.atoms)) s
    let (reg, s) ← opsOn vals act.ops s
    pure (⟨atoms, savedOf vals reg act.outs⟩, s)
  else
    let (reg, s) ← opsOn vals act.ops s
    let (atoms, s) ← o.parse ext dedent (vals.map (·.atoms)) s
    pure (⟨atoms, savedOf vals reg act.outs⟩, s)

/-- The context saved in a value is gone when an action takes the value. -/
def takeSaved (vals : List PVal) : List (Cast × Nat) → List PVal
  | [] => vals
  | (c, n) :: rest =>
    takeSaved (if c = .peekNode then vals else vals.modify (n - 1) fun v => { v with saved := none }) rest

/-- A right-hand side, with the functions that parse its symbols. -/
def parseItems (ext : BldExt) (dedent : List Atom → Int) (o : ValOut) :
    List Item → List (BState → Run (PVal × BState)) → List PVal → BState → Run (PVal × BState)
  | [.a act], [], vals, s => perform ext dedent act o vals s
  | .a act :: is, fs, vals, s => do
    let (v, s) ← perform ext dedent act (.mk []) vals s
    parseItems ext dedent o is fs (takeSaved vals act.uses ++ [v]) s
  | .t _ :: is, f :: fs, vals, s | .n _ :: is, f :: fs, vals, s => do
    let (v, s) ← f s
    parseItems ext dedent o is fs (vals ++ [v]) s
  | _, _, _, _ => .error .badTree

mutual
/-- A derivation tree. -/
def TTree.parse (ext : BldExt) (dedent : List Atom → Int) : TTree → BState → Run (PVal × BState)
  | .leaf t => fun s => .ok (⟨[.tok t], none⟩, s)
  | .node r kids => fun s =>
    match rules[r]?, outs[r]? with
    | some ρ, some o => parseItems ext dedent o.2 ρ.rhs (parseL ext dedent kids) [] s
    | _, _ => .error .badTree
/-- Each tree of a list. -/
def parseL (ext : BldExt) (dedent : List Atom → Int) : List TTree → List (BState → Run (PVal × BState))
  | [] => []
  | t :: ts => t.parse ext dedent :: parseL ext dedent ts
end

end Verif.Grammar
