from bfn import B
CT={'T':'tok','T1':'tok','T2':'tok','O':'otok','N':'node','P':'onode','L':'nodes','A':'args','K':'label','I':'tail','G':'parens','E':'exc'}
TY={'T':'.tok 0','T1':'.tok 1','T2':'.tok 2','O':'.otok','N':'.node','P':'.onode','L':'.nodes','A':'.args','K':'.label','I':'.tail','G':'.parens','E':'.exc'}
def pat(sig): return '['+', '.join(f'.{CT[s]} x{i}' for i,s in enumerate(sig))+']'
o=[]
o.append('''import Verif.Model.Grammar.Run
import Verif.Model.Builder.Build
/-!
The values the semantic actions of `src/parser/parse.y` compute: which builder functions are called, on which parts of which `$n`,
and in what arrangement their results become `$$`.

A semantic value is a list of atoms: the fields of its `Value` variant that are tokens, nodes or lists of nodes
(src/parse_value.rs); contexts, flags, numbers and saved lexer modes are not among them.  What an action does to the tables of
the parser is in `Run.lean`; here each call of a builder function starts from tables that are left open, and each `?` or
`return self.yyerror(..)` is the absence of a value.
-/
namespace Verif.Grammar
open Builder

/-- A component of a semantic value. -/
inductive Atom where
  | tok (t : Token)
  | otok (t : Option Token)
  | node (n : Node)
  | onode (n : Option Node)
  | nodes (ns : List Node)
  | args (a : ArgsType)
  | label (k : PKwLabel)
  /-- `IfTail`, src/parse_value.rs -/
  | tail (t : Option Token × Option Node)
  /-- `OptParenArgs` -/
  | parens (g : Option Token × List Node × Option Token)
  /-- `ExcVar` -/
  | exc (e : Option Token × Option Node)

/-! ### Parts of actions that are not in `src/builder.rs` -/

/-- src/parser/parse.y:7043-7052 `validate_endless_method_name` (the report is left out). -/
def endlessName (t : Token) : BldR Token :=
  let name := cloneValue t
  if name ∈ [lit "==", lit "===", lit ">=", lit "<=", lit "!="] then pure t
  else if name.getLast? = some (asc '=').toNat then err else pure t

/-- src/parser/parse.y:7025-7041 `check_kwarg_name` (the report is left out). -/
def kwargName (ext : BldExt) (t : Token) : BldR Token :=
  match cloneValue t with
  | [] => (Builder.panic .expect : BldM Token)
  | c :: _ => if ext.isLowercase c || c == (asc '_').toNat then pure t else err

/-- src/parser/parse.y:6651-6679: a literal cannot get a singleton method. -/
def singletonExpr (n : Node) : BldR Node :=
  match n with
  | .Int .. | .Float .. | .Rational .. | .Complex .. | .Str .. | .Dstr .. | .Sym .. | .Dsym .. | .Heredoc .. | .XHeredoc ..
  | .Regexp .. | .Array .. | .Hash .. => err
  | n => do valueExpr n; pure n

/-- src/parser/parse.y:4463-4467: the parameters of a block. -/
def argsType (args : Option Node) : BldR ArgsType := do
  let s ← (get : BldM BState)
  if s.numparams.hasNumparams then pure (.Numargs (s.numparams.top % 256).toNat) else pure (.Args args)

/-- src/parser/parse.y:5433-5459: a `rescue` clause. -/
def rescueClause (rescue_t : Token) (list : List Node) (exc : Option Token × Option Node) (then_t : Token) (body : Option Node) :
    Res Node :=
  match list with
  | [] => .ok (rescueBody rescue_t none exc.1 exc.2 (some then_t) body)
  | list => do
    let l ← array none list none
    return rescueBody rescue_t (some l) exc.1 exc.2 (some then_t) body

/-- src/parser/parse.y:829-849: `x rescue y`. -/
def rescueMod (x : Node) (rescue_t : Token) (y : Node) : Res (Option Node) :=
  beginBody (some x) [rescueBody rescue_t none none none none (some y)] none none

/-- src/parser/parse.y:592-611: the same, with `.expect(..)`. -/
def rescueMod! (x : Node) (rescue_t : Token) (y : Node) : Res Node := do
  match ← rescueMod x rescue_t y with
  | some n => return n
  | none => .error .expect

/-- src/parser/parse.y:422-443. -/
def bodystmtElse (body : Option Node) (rescues : List Node) (else_t : Token) (else_ : Option Node) (ensure_t : Option Token)
    (ensure : Option Node) : BldR (Option Node) :=
  if rescues.isEmpty then err
  else (liftR (beginBody body rescues (some (else_t, else_)) (ensure_t.map fun t => (t, ensure))) : BldM (Option Node))

/-- src/parser/parse.y:3917-3937: a lone parameter of a block. -/
def procargs (xs tail : List Node) : Res (List Node) :=
  match xs, tail with
  | [x], [] => do return [← procarg0 x]
  | xs, tail => .ok (xs ++ tail)

/-- src/parser/parse.y:1599-1613. -/
def attrAsgnMasgn (receiver : Node) (dot_t selector_t : Token) : BldR Node :=
  if dot_t.tokenType = .tANDDOT then err else (liftR (attrAsgn receiver dot_t selector_t) : BldM Node)

/-- src/parser/parse.y:1416-1434. -/
def mlhsInner (begin_t : Token) (inner : Node) (end_t : Token) : Res Node :=
  match inner with
  | .Mlhs items _ _ _ => multiLhs (some begin_t) items (some end_t)
  | _ => .error .unreachable

/-- src/parser/parse.y:5547-5558, with the indentation the lexer recorded. -/
def string1 (indent : Int) (begin_t : Token) (parts : List Node) (end_t : Token) : Res Node := do
  heredocDedent (← stringCompose (some begin_t) parts (some end_t)) indent

/-- src/parser/parse.y:4777-4793. -/
def constPatternEmpty (const : Node) (lparen rparen : Token) : Res Node := do
  let pattern ← arrayPattern (some lparen) [] none (some rparen)
  return constPattern const lparen pattern rparen

/-- What an action calls: a function of `src/builder.rs` in one of the ways it is used, one of the above, or plumbing. -/
inductive BFn where''')
for n,sig,res,k,body,pf,doc,param in B:
    o.append(f'  /-- {doc} -/')
    o.append(f'  | {n}'+(f' (p : {param})' if param else ''))
o.append('''deriving DecidableEq, Repr

/-- Embedding a value. -/
def outp (c : α → Atom) (a : α) : BldR Atom := pure (c a)
/-- Embedding what can only panic. -/
def outR (c : α → Atom) (r : Res α) : BldR Atom := do return c (← (liftR r : BldM α))
/-- Embedding what uses the tables. -/
def outM (c : α → Atom) (r : BldM α) : BldR Atom := do return c (← r)
/-- Embedding what can fail. -/
def outB (c : α → Atom) (r : BldR α) : BldR Atom := do return c (← r)
/-- A call that does not occur. -/
def illTyped : BldR Atom := (Builder.panic .unreachable : BldM Atom)
''')
sigs=[]
for x in B:
    if x[1] not in sigs: sigs.append(x[1])
def fname(sig): return 'with'+''.join(s[0] for s in sig) if sig else 'withNone'
seen={}
HT={'tok':'Token','otok':'Option Token','node':'Node','onode':'Option Node','nodes':'List Node','args':'ArgsType','label':'PKwLabel','tail':'Option Token × Option Node','parens':'Option Token × List Node × Option Token','exc':'Option Token × Option Node'}
for sig in sigs:
    f=fname(sig)
    if f in seen: continue
    seen[f]=1
    ty=' → '.join([ (f'({HT[CT[s]]})' if '×' in HT[CT[s]] else HT[CT[s]]) for s in sig]+['BldR Atom'])
    xs=' '.join(f'x{i}' for i in range(len(sig)))
    o.append(f'''/-- Arguments of the kinds {', '.join(CT[s] for s in sig) or 'none'}. -/
def {f} (k : {ty}) : List Atom → BldR Atom
  | {pat(sig)} => k {xs}
  | _ => illTyped''')
o.append('''
/-- Calling it. `indent` is `heredoc_indent` of the lexer when the action runs. -/
def applyFn (ext : BldExt) (indent : Int) (f : BFn) : List Atom → BldR Atom :=
  match f with''')
for n,sig,res,k,body,pf,doc,param in B:
    xs=' '.join(f'x{i}' for i in range(len(sig)))
    lhs=f'.{n} p' if param and 'p' in body.split() else (f'.{n} _' if param else f'.{n}')
    fn=f'fun {xs} => ' if sig else ''
    o.append(f'  | {lhs} => {fname(sig)} ({fn}out{k} .{CT[res]} ({body}))')
o.append('''
/-- How a value is put together from the `$n`. -/
inductive Ex where
  /-- component `i` of `$n` -/
  | fld (n i : Nat)
  | call (f : BFn) (es : List Ex)

/-- The value an action gives to `$$`. -/
inductive ValOut where
  /-- `$$ = $n` -/
  | copy (n : Nat)
  /-- a new value with these components -/
  | mk (es : List Ex)

mutual
/-- `x` is a possible value of the expression, `vals` being the values of `$1, $2, …`. -/
def Ex.Gives (ext : BldExt) (vals : List (List Atom)) : Ex → Atom → Prop
  | .fld n i, x => (vals[n - 1]?).bind (·[i]?) = some x
  | .call f es, x => ∃ xs, exGives ext vals es xs ∧ ∃ indent s s', (applyFn ext indent f xs).run s = .ok (.ok x, s')
/-- The same for a list. -/
def exGives (ext : BldExt) (vals : List (List Atom)) : List Ex → List Atom → Prop
  | [], xs => xs = []
  | e :: es, xs => ∃ y ys, xs = y :: ys ∧ e.Gives ext vals y ∧ exGives ext vals es ys
end

/-- The same for `$$`. -/
def ValOut.Gives (ext : BldExt) (vals : List (List Atom)) : ValOut → List Atom → Prop
  | .copy n, xs => vals[n - 1]? = some xs
  | .mk es, xs => exGives ext vals es xs

/-- The values `$1, $2, …` at the end of a right-hand side: an action in the middle has one as well (without components). -/
def slots : List Item → List (List Atom) → List (List Atom)
  | [], _ => []
  | .a _ :: is, vs => [] :: slots is vs
  | _ :: is, v :: vs => v :: slots is vs
  | _ :: _, [] => []

/-- A right-hand side with an action that always returns `Err(())`. -/
def Item.refuses : Item → Bool
  | .a act => act.fails
  | _ => false

/-- A derivation tree over tokens. -/
inductive TTree where
  | leaf (t : Token)
  | node (rule : Nat) (kids : List TTree)

mutual
/-- The same over token types. -/
def TTree.shape : TTree → Tree
  | .leaf t => .leaf t.tokenType
  | .node r kids => .node r (shapeL kids)
/-- The same for a list. -/
def shapeL : List TTree → List Tree
  | [] => []
  | t :: ts => t.shape :: shapeL ts
end

end Verif.Grammar''')
open('/verif/lean/Verif/Model/Grammar/Values.lean','w').write('\n'.join(o)+'\n')
