from spec import *
o=[]
o.append('''import Verif.Model.Ast
/-!
What a syntax tree looks like: for every field of every kind of node, the kinds of nodes that can stand there, and which lists are
never empty.  Independent of the builder; a consumer that matches on nodes relies on it (and has to invent an answer for everything
else).
-/
namespace Verif

/-- The kinds of nodes: the constructors, with those that come in two forms split up. -/
inductive NKind where''')
docs={'MlhsP':'a destructured parameter: an `Mlhs` of parameters','Send0':'a `Send` without arguments','CSend0':'a `CSend` without arguments','LvasgnT':'an `Lvasgn` without a value','IvasgnT':'an `Ivasgn` without a value','GvasgnT':'a `Gvasgn` without a value','CvasgnT':'a `Cvasgn` without a value','CasgnT':'a `Casgn` without a value','IndexAsgnT':'an `IndexAsgn` without a value','ReturnC':'a `return` whose first argument is a call','BreakC':'the same for `break`','NextC':'the same for `next`'}
line=''
for c,_ in CT:
    if len(line)+len(c)>120: o.append(line); line=''
    line+=(' ' if line else '  ')+'| '+c
o.append(line)
for c in REF: o.append(f'  /-- {docs[c]} -/\n  | {c}')
o.append('''deriving DecidableEq, Repr

/-- A set of kinds, as the bits of a number. -/
abbrev Kinds := Nat
/-- A set given by its elements. -/
def ks : List NKind → Kinds
  | [] => 0
  | k :: l => (1 <<< k.ctorIdx) ||| ks l
/-- Difference of sets. -/
def without (a b : Kinds) : Kinds := a ^^^ (a &&& b)

namespace Node

/-- What `return`, `break` and `next` pass a block on to. -/
def takesBlock : Node → Bool
  | .Send .. | .CSend .. | .Index .. | .Super .. | .ZSuper .. | .Yield .. => true
  | _ => false
/-- The first argument is one of those. -/
def headTakesBlock : List Node → Bool
  | n :: _ => n.takesBlock
  | [] => false

mutual
/-- A parameter that can stand inside of a destructured parameter. -/
def isDestr : Node → Bool
  | .Arg .. => true
  | .Restarg .. => true
  | .Mlhs items _ _ _ => allDestr items
  | _ => false
/-- The same for a list. -/
def allDestr : List Node → Bool
  | [] => true
  | n :: ns => n.isDestr && allDestr ns
end

/-- The kind of a node. -/
def kind : Node → NKind''')
sp={'Mlhs':('items','if allDestr items then .MlhsP else .Mlhs'),'Send':('args','if args.isEmpty then .Send0 else .Send'),'CSend':('args','if args.isEmpty then .CSend0 else .CSend')}
for c in('Lvasgn','Ivasgn','Gvasgn','Cvasgn','Casgn','IndexAsgn'): sp[c]=('value',f'if value.isSome then .{c} else .{c}T')
for c in('Return','Break','Next'): sp[c]=('args',f'if headTakesBlock args then .{c}C else .{c}')
for c,fl in CT:
    if c in sp:
        f,e=sp[c]
        o.append(f"  | .{c} {' '.join(a if a==f else '_' for a,_ in fl)} => {e}")
    else: o.append(f'  | .{c} .. => .{c}')
o.append('''
end Node

/-- The node is of one of these kinds. -/
def Has (m : Kinds) (n : Node) : Prop := m.testBit n.kind.ctorIdx = true

namespace Shape
''')
for n in order:
    st,lean,doc=D[n]
    o.append(f'/-- {doc} -/\ndef {n}K : Kinds := {lean}')
o.append('''
/-- A child and what it may be. -/
def one (m : Kinds) (n : Node) : List (Kinds × Node) := [(m, n)]
/-- A child that may be absent. -/
def opt (m : Kinds) (n : Option Node) : List (Kinds × Node) := n.toList.map fun n => (m, n)
/-- The children in a list. -/
def each (m : Kinds) (l : List Node) : List (Kinds × Node) := l.map fun n => (m, n)

end Shape

namespace Node
open Shape

/-- The children of a node, each with the kinds it may be of. -/
def fields : Node → List (Kinds × Node)''')
GEN={}
for c,fl in CT:
    parts=[];names=[]
    for a,t in fl:
        if t in('Node','Option Node','List Node'):
            v=FS[c,a]; nm=a
            if (c,a)==('Mlhs','items'): s='each (if allDestr items then destrK else mlhsItemK) items'
            else: s={'Node':'one','Option Node':'opt','List Node':'each'}[t]+' '+leanof(v)+' '+a
            parts.append(s); names.append(a)
    if parts: o.append(f"  | .{c} {' '.join(a if a in names else '_' for a,_ in fl)} => {' ++ '.join(parts)}")
o.append('''  | _ => []

/-- Without an opening delimiter there is at least one element. -/
def held (b : Option Loc) (l : List Node) : Bool := b.isSome || !l.isEmpty

/-- Lists that are not empty. -/
def sized : Node → Bool''')
SZ={}
def sz(c,pat,e): SZ[c]=(pat,e)
for c,f in [('Args','args'),('Array','elements'),('ArrayPattern','elements'),('Hash','pairs'),('HashPattern','elements')]: sz(c,[f,'begin_l'],f'held begin_l {f}')
sz('Begin',['statements','begin_l'],'begin_l.isSome || 2 ≤ statements.length')
for c,f in [('ArrayPatternWithTail','elements'),('Case','when_bodies'),('CaseMatch','in_bodies'),('FindPattern','elements'),('Kwargs','pairs'),('Mlhs','items'),('Procarg0','args'),('Rescue','rescue_bodies'),('Undef','names'),('When','patterns')]: sz(c,[f],f'!{f}.isEmpty')
for c,fl in CT:
    if c in SZ:
        pat,e=SZ[c]
        o.append(f"  | .{c} {' '.join(a if a in pat else '_' for a,_ in fl)} => {e}")
o.append('''  | _ => true

end Node

/-- A tree in which every child of every node is of a kind that may stand there. -/
inductive Shaped : Node → Prop where
  | mk (n : Node) (kinds : ∀ p ∈ n.fields, Has p.1 p.2) (kids : ∀ p ∈ n.fields, Shaped p.2) (sized : n.sized = true) : Shaped n

/-- Such a tree with a root of one of the given kinds. -/
def Ok (m : Kinds) (n : Node) : Prop := Has m n ∧ Shaped n

end Verif
''')
def wrap(l,w=132):
    ind='    '
    if l.startswith('  |'): ind='      '
    out=[]
    while len(l)>w and not l.startswith('/--') and not l.startswith('every') :
        k=max(l.rfind(', ',0,w),l.rfind(' ||| ',0,w)+3 if l.rfind(' ||| ',0,w)>0 else -1,l.rfind(' ++ ',0,w)+2 if l.rfind(' ++ ',0,w)>0 else -1)
        if k<=len(ind): break
        out.append(l[:k+1].rstrip()); l=ind+l[k+1:].lstrip()
    return out+[l]
res=[]
for blk in o:
    for l in blk.split('\n'): res+=wrap(l)
if __name__=='__main__': open('/verif/lean/Verif/Spec/Shape.lean','w').write('\n'.join(res))
