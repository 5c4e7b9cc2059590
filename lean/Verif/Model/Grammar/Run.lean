import Verif.Model.Grammar.Table
/-!
Running the semantic actions over a derivation tree.

Bison's driver (generated code, not in the repository) performs the actions of a completed parse in the order of a
postorder walk of the derivation tree: the items of a right-hand side from left to right, an action when everything left of
it is done.  What an action does beyond the table is left open: a `World` says, for each action performed, whether it
returns `Err`, which assignment to `$$` is taken and which names/values it declares.

`cond` and `cmdarg` are also changed by the lexer, when it reads a token; they are in the second half of the file.
-/
namespace Verif.Grammar

/-- A context or one of its flags, saved in a semantic value. -/
inductive Saved where
  | ctx (c : Context)
  | bool (f : CtxFlag) (b : Bool)
deriving DecidableEq, Repr

/-- The flag read back from a saved context. -/
def Saved.get (f : CtxFlag) : Saved → Option Bool
  | .ctx c => some (c.get f)
  | .bool g b => if f = g then some b else none

/-- A semantic value: its variant and the context stored in it. -/
structure Val where
  kind : Kind
  saved : Option Saved := none
deriving DecidableEq, Repr

/-- The flag stored in a value. -/
def Val.flag (f : CtxFlag) (v : Val) : Option Bool := v.saved.bind (Saved.get f)

/-- The bookkeeping fields of the parser (src/parser/parse.y:10-53). `clock` counts the actions performed. -/
structure St where
  env : StaticEnv
  arg : CurArgStack
  num : NumStack
  pv : VarStack
  pk : VarStack
  ctx : Context
  clock : Nat
deriving DecidableEq, Repr

/-- src/parser/parse.y:6912-6960 `Parser::new`. -/
def St.new : St := ⟨StaticEnv.new, CurArgStack.new, NumStack.new, VarStack.new, VarStack.new, Context.empty, 0⟩

/-- src/parser/parse.y:7095-7100, the part of `assert_state_is_final` about these fields. -/
def St.isFinal (s : St) : Bool :=
  s.env.isEmpty && s.ctx.isEmpty && s.num.isEmpty && s.arg.isEmpty && s.pv.isEmpty && s.pk.isEmpty

/-- Why running a tree stops. -/
inductive Stop where
  /-- an action returned `Err(())` -/
  | err
  | panic (p : Panic)
  /-- the tree is not a derivation -/
  | badTree
deriving DecidableEq, Repr

/-- Result of running actions. -/
abbrev Run := Except Stop

/-- A panic of a modelled function. -/
def lift {α : Type} : Res α → Run α
  | .ok a => .ok a
  | .error p => .error (.panic p)

/-- A change of the top of one stack. -/
inductive Touch where
  /-- src/static_environment.rs:73-76 `declare` (also `declare_forward_args`, `declare_anonymous_blockarg`) -/
  | declare (name : Text)
  /-- src/current_arg_stack.rs:32-35 `set` -/
  | argSet (v : Option Text)
  /-- src/max_numparam_stack.rs:28-30 `set_has_ordinary_params` -/
  | ordinary
  /-- src/max_numparam_stack.rs:40-42 `register` -/
  | register (n : Int)
  /-- src/builder.rs:3906-3918 `check_duplicate_pattern_variable` -/
  | declPv (name : Text)
  /-- src/builder.rs:3920-3928 `check_duplicate_pattern_key` -/
  | declPk (name : Text)
deriving DecidableEq, Repr

/-- The stack a change is about. -/
def Touch.dim : Touch → Dim
  | .declare _ => .env
  | .argSet _ => .arg
  | .ordinary => .num
  | .register _ => .num
  | .declPv _ => .pv
  | .declPk _ => .pk

/-- Performing one change. -/
def Touch.run (s : St) : Touch → Res St
  | .declare n => .ok { s with env := s.env.declare n }
  | .argSet v => .ok { s with arg := s.arg.set v }
  | .ordinary => do let num ← s.num.setHasOrdinaryParams; pure { s with num }
  | .register n => do let num ← s.num.register n; pure { s with num }
  | .declPv n => do
      let seen ← s.pv.isDeclared n
      if seen then pure s else
      let pv ← s.pv.declare n
      pure { s with pv }
  | .declPk n => do
      let seen ← s.pk.isDeclared n
      if seen then pure s else
      let pk ← s.pk.declare n
      pure { s with pk }

/-- Performing changes in order. -/
def touchAll (s : St) : List Touch → Res St
  | [] => .ok s
  | t :: ts => do let s ← t.run s; touchAll s ts

/-- What the table leaves open, per performed action (numbered by `St.clock`). -/
structure World where
  /-- the action returns `Err(())` before it completes -/
  fails : Nat → Bool
  /-- which of the assignments to `$$` is performed -/
  pick : Nat → Nat
  /-- what the action (its `i`-th table operation) declares -/
  touches : Nat → Nat → List Touch

/-- The value of `$n` (1-based). -/
def valAt (vals : List Val) (n : Nat) : Option Val := vals[n - 1]?

/-- The casts of an action: each takes the value out of its slot (`std::mem::take` leaves `Stolen`,
src/parse_value.rs:697-701); the borrow leaves it. A cast on another variant is `unreachable!`. -/
def castAll (vals : List Val) : List (Cast × Nat) → Run (List Val)
  | [] => .ok vals
  | (c, n) :: rest =>
    match valAt vals n with
    | none => .error (.panic .index)
    | some v =>
      if c.accepts v.kind then
        castAll (if c = .peekNode then vals else vals.set (n - 1) ⟨.Stolen, none⟩) rest
      else .error (.panic .unreachable)

/-- One operation. `vals` are the values before the casts took them, `reg` the context to store in `$$`. -/
def runOp (w : World) (i : Nat) (vals : List Val) (s : St) (reg : Option Saved) : Op → Run (St × Option Saved)
  | .envStatic => .ok ({ s with env := s.env.extendStatic }, reg)
  | .envDynamic => .ok ({ s with env := s.env.extendDynamic }, reg)
  | .envPop => do let env ← lift s.env.unextend; pure ({ s with env }, reg)
  | .argPush => .ok ({ s with arg := s.arg.push none }, reg)
  | .argPop => .ok ({ s with arg := s.arg.pop }, reg)
  | .numPush b => .ok ({ s with num := s.num.push b }, reg)
  | .numPop => .ok ({ s with num := s.num.pop }, reg)
  | .pvPush => .ok ({ s with pv := s.pv.push }, reg)
  | .pvPop => .ok ({ s with pv := s.pv.pop }, reg)
  | .pkPush => .ok ({ s with pk := s.pk.push }, reg)
  | .pkPop => .ok ({ s with pk := s.pk.pop }, reg)
  | .touch ds => do
      let s ← lift (touchAll s ((w.touches s.clock i).filter fun t => t.dim ∈ ds))
      pure (s, reg)
  | .flag f v => .ok ({ s with ctx := s.ctx.set f v }, reg)
  | .restore f n =>
      match (valAt vals n).bind (Val.flag f) with
      | some b => .ok ({ s with ctx := s.ctx.set f b }, reg)
      | none => .error (.panic .unreachable)
  | .dump => .ok (s, some (.ctx s.ctx))
  | .saveBool f => .ok (s, some (.bool f (s.ctx.get f)))
  | .carry n => .ok (s, (valAt vals n).bind Val.saved)
  | .condPush _ | .condPop | .cmdPush _ | .cmdPop | .cmdPushLA | .cmdPopLA => .ok (s, reg)

/-- The operations of an action in order. -/
def runOps (w : World) (vals : List Val) : Nat → St → Option Saved → List Op → Run (St × Option Saved)
  | _, s, reg, [] => .ok (s, reg)
  | i, s, reg, op :: ops => do
      let (s, reg) ← runOp w i vals s reg op
      runOps w vals (i + 1) s reg ops

/-- The value given to `$$`; without an assignment it stays `Uninitialized`. -/
def outVal (vals : List Val) (reg : Option Saved) : Option Out → Val
  | none => ⟨.Uninitialized, none⟩
  | some (.new k) => ⟨k, reg⟩
  | some (.copy n) => (valAt vals n).getD ⟨.Uninitialized, none⟩

/-- Performing an action: casts, operations, assignment. The result has the slots after the casts and the new value. -/
def runAct (w : World) (a : Act) (vals : List Val) (s : St) : Run (St × List Val × Val) := do
  let vals' ← castAll vals a.uses
  if a.fails || w.fails s.clock then .error .err else
  let (s', reg) ← runOps w vals 0 s none a.ops
  let out := match a.outs with
    | [] => none
    | o :: os => some ((o :: os).getD (w.pick s.clock) o)
  pure ({ s' with clock := s.clock + 1 }, vals', outVal vals reg out)

/-- A derivation tree: a token, or a production (by its index in the table) with a tree for each of its symbols. -/
inductive Tree where
  | leaf (t : Tok)
  | node (rule : Nat) (kids : List Tree)

/-- A symbol of the grammar. -/
inductive Sym where
  | t (tok : Tok)
  | n (nt : NT)
deriving DecidableEq, Repr

/-- The symbols of a right-hand side; `none` when it has bison's `error` symbol. -/
def syms : List Item → Option (List Sym)
  | [] => some []
  | .t tok :: is => (syms is).map (.t tok :: ·)
  | .n x :: is => (syms is).map (.n x :: ·)
  | .a _ :: is => syms is
  | .err :: _ => none

/-- The symbol a tree derives from. -/
def Tree.root : Tree → Option Sym
  | .leaf t => some (.t t)
  | .node r _ => (rules[r]?).map fun ρ => .n ρ.lhs

mutual
/-- `t` is a derivation tree of the grammar, without use of `error` productions. -/
def Tree.wf : Tree → Bool
  | .leaf _ => true
  | .node r kids =>
    match rules[r]? with
    | none => false
    | some ρ => (syms ρ.rhs).map (·.map some) = some (rootsL kids) && wfL kids
/-- All of them are derivation trees. -/
def wfL : List Tree → Bool
  | [] => true
  | t :: ts => t.wf && wfL ts
/-- Their symbols. -/
def rootsL : List Tree → List (Option Sym)
  | [] => []
  | t :: ts => t.root :: rootsL ts
end

/-- Running the items of a right-hand side, with the functions that run its symbols. -/
def runItems (w : World) : List Item → List (St → Run (St × Val)) → List Val → St → Run (St × List Val)
  | [], _, vals, s => .ok (s, vals)
  | .a act :: is, fs, vals, s => do
      let (s, vals, v) ← runAct w act vals s
      runItems w is fs (vals ++ [v]) s
  | .err :: _, _, _, _ => .error .badTree
  | .t _ :: is, f :: fs, vals, s | .n _ :: is, f :: fs, vals, s => do
      let (s, v) ← f s
      runItems w is fs (vals ++ [v]) s
  | .t _ :: _, [], _, _ | .n _ :: _, [], _, _ => .error .badTree

/-- Running a production: the value of the left-hand side is the one its last action gave. -/
def runRule (w : World) (r : Nat) (fs : List (St → Run (St × Val))) (s : St) : Run (St × Val) :=
  match rules[r]? with
  | none => .error .badTree
  | some ρ => do
      let (s, vals) ← runItems w ρ.rhs fs [] s
      match vals.getLast? with
      | some v => pure (s, v)
      | none => .error .badTree

mutual
/-- Running the actions of a tree. -/
def exec (w : World) : Tree → St → Run (St × Val)
  | .leaf _ => fun s => .ok (s, ⟨.Token, none⟩)
  | .node r kids => fun s => runRule w r (execL w kids) s
/-- Running each tree of a list. -/
def execL (w : World) : List Tree → List (St → Run (St × Val))
  | [] => []
  | t :: ts => exec w t :: execL w ts
end

/-! ### `cond`, `cmdarg`, `paren_nest`

These are changed both by actions and by the lexer when it reads a token.  When a token is read relative to the actions
depends on the tables bison generates (a token may be read as lookahead before some reductions), so a run is any
interleaving of the tokens of the tree with the operations of its actions. -/

/-- The tokens after which the lexer has done `cond.push(false); cmdarg.push(false); paren_nest += 1`
(src/lexer/main.rs:957-960, 967-994, 1021-1023). -/
def opens : Tok → Bool
  | .tLPAREN | .tLPAREN2 | .tLPAREN_ARG | .tLBRACK | .tLBRACK2 | .tLCURLY | .tLBRACE | .tLBRACE_ARG | .tLAMBEG => true
  | _ => false

/-- The tokens after which the lexer has done `cond.pop(); cmdarg.pop(); paren_nest -= 1`
(src/lexer/main.rs:792-799, 801-808, 816-822). -/
def closes : Tok → Bool
  | .tRPAREN | .tRBRACK | .tRCURLY => true
  | _ => false

mutual
/-- The tokens of a tree, left to right. -/
def Tree.toks : Tree → List Tok
  | .leaf t => [t]
  | .node _ kids => toksL kids
def toksL : List Tree → List Tok
  | [] => []
  | t :: ts => t.toks ++ toksL ts
end

/-- The operations of the actions of a right-hand side, given those of its symbols. -/
def opsItems : List Item → List (List Op) → List Op
  | [], _ => []
  | .a act :: is, os => act.ops ++ opsItems is os
  | .t _ :: is, o :: os | .n _ :: is, o :: os => o ++ opsItems is os
  | .t _ :: _, [] | .n _ :: _, [] => []
  | .err :: _, _ => []

mutual
/-- The operations of the actions of a tree, in the order they are performed. -/
def Tree.ops : Tree → List Op
  | .leaf _ => []
  | .node r kids =>
    match rules[r]? with
    | none => []
    | some ρ => opsItems ρ.rhs (opsL kids)
def opsL : List Tree → List (List Op)
  | [] => []
  | t :: ts => t.ops :: opsL ts
end

/-- The lexer fields concerned, and `last_token_type` (src/parser/parse.y:7012-7023). -/
structure Bits where
  cond : StackState
  cmdarg : StackState
  parenNest : Int
  last : Tok
deriving DecidableEq

/-- src/lexer/main.rs:99-104, src/parser/parse.y:6938. -/
def Bits.new : Bits := ⟨StackState.new, StackState.new, 0, .END_OF_INPUT⟩

/-- src/parser/parse.y:7091-7093, the part of `assert_state_is_final` about these fields. -/
def Bits.isFinal (b : Bits) : Bool := b.cmdarg.isEmpty && b.cond.isEmpty && b.parenNest == 0

/-- Reading a token. -/
def Bits.read (b : Bits) (t : Tok) : Bits :=
  if opens t then ⟨b.cond.push false, b.cmdarg.push false, b.parenNest + 1, t⟩
  else if closes t then ⟨b.cond.pop, b.cmdarg.pop, b.parenNest - 1, t⟩
  else { b with last := t }

/-- src/parser/parse.y:2737-2745. -/
def lookaheadOpen : Tok → Bool
  | .tLPAREN2 | .tLPAREN | .tLPAREN_ARG | .tLBRACK2 | .tLBRACK => true
  | _ => false

/-- Performing an operation. -/
def Bits.op (b : Bits) : Op → Bits
  | .condPush v => { b with cond := b.cond.push v }
  | .condPop => { b with cond := b.cond.pop }
  | .cmdPush v => { b with cmdarg := b.cmdarg.push v }
  | .cmdPop => { b with cmdarg := b.cmdarg.pop }
  | .cmdPushLA =>
    if lookaheadOpen b.last then { b with cmdarg := (b.cmdarg.pop.push true).push false }
    else { b with cmdarg := b.cmdarg.push true }
  | .cmdPopLA =>
    if b.last = .tLBRACE_ARG then { b with cmdarg := b.cmdarg.pop.pop.push false }
    else { b with cmdarg := b.cmdarg.pop }
  | _ => b

/-- An event of a parse. -/
inductive Ev where
  | read (t : Tok)
  | op (o : Op)

/-- A sequence of events. -/
def Bits.run (b : Bits) : List Ev → Bits
  | [] => b
  | .read t :: es => (b.read t).run es
  | .op o :: es => (b.op o).run es

/-- The tokens of a sequence of events. -/
def Ev.toks (es : List Ev) : List Tok := es.filterMap fun | .read t => some t | .op _ => none
/-- The operations of a sequence of events. -/
def Ev.ops (es : List Ev) : List Op := es.filterMap fun | .read _ => none | .op o => some o

end Verif.Grammar
