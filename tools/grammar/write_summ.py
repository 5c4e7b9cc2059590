from summ import *
rels=[];codes={}
def fmt(r): 
    b=lambda x:'true' if x else 'false'
    s=lambda x:'none' if x is None else f'some {b(x)}'
    return '['+', '.join(f'({b(a)}, {b(c)}, {s(v)})' for a,c,v in sorted(r,key=str))+']'
def code(r):
    k=fmt(r)
    if k not in rels: rels.append(k)
    return rels.index(k)
o=['import Verif.Model.Grammar.Run','/-!','Summaries of the nonterminals (for each: how it moves the stacks, how it moves the context flags, which kinds its value has), in','the order of `NT`. They are only claims here: `Verif.Lemmas.GrammarSound` checks every production against them.','-/','namespace Verif.Grammar','']
def wrap(xs,ind='  '):
    lines=[];cur=ind
    for i,x in enumerate(xs):
        y=x+(', ' if i<len(xs)-1 else '')
        if len(cur)+len(y)>116: lines.append(cur.rstrip()); cur=ind
        cur+=y
    lines.append(cur.rstrip()); return '\n'.join(lines)
ftab={}
for f in FL:
    rel=relf(f); ftab[f]=[code(rel[n]) for n in order]
o.append('/-- The flag relations that occur: (flag before, flag after, flag stored in the value). -/')
o.append('def relTable : List (List (Bool × Bool × Option Bool)) := [\n'+',\n'.join('  '+r for r in rels)+']\n')
for f in FL:
    o.append(f'/-- Relation (index in `relTable`) of each nonterminal for `{f}`. -/')
    o.append(f'def relOf_{f} : List Nat := [\n'+wrap([str(x) for x in ftab[f]])+']\n')
o.append('/-- The relation of a nonterminal for a flag. -/\ndef rel (f : CtxFlag) (x : NT) : List (Bool × Bool × Option Bool) :=\n  relTable.getD (match f with')
for f in FL: o.append(f'    | .{f} => relOf_{f}.getD x 0')
o[-1]+=') []\n'
o.append('/-- A number for each of the five stacks. -/\nstructure D5 where\n  env : Nat\n  arg : Nat\n  num : Nat\n  pv : Nat\n  pk : Nat\nderiving DecidableEq, Repr\n')
sums=[];sc=[]
for n in order:
    a=[need[n][d] for d in DIMS]; b=[need[n][d]+delta[n][d] for d in DIMS]
    k='(⟨'+', '.join(map(str,a))+'⟩, ⟨'+', '.join(map(str,b))+'⟩)'
    if k not in sums: sums.append(k)
    sc.append(str(sums.index(k)))
o.append('/-- Stack summaries that occur: how many entries (from the top) a nonterminal may look at, and how many it puts in their\nplace. `env` counts the current variables as an entry. -/\ndef stackTable : List (D5 × D5) := [\n'+wrap(sums)+']\n')
o.append('/-- Stack summary (index in `stackTable`) of each nonterminal. -/\ndef stackIdx : List Nat := [\n'+wrap(sc)+']\n')
o.append('/-- The stack summary of a nonterminal. -/\ndef stackOf (x : NT) : D5 × D5 := stackTable.getD (stackIdx.getD x 0) (⟨0, 0, 0, 0, 0⟩, ⟨0, 0, 0, 0, 0⟩)\n')
kinds['bvar']={'Node'}
o.append('/-- The kinds of the value of each nonterminal. -/\ndef kindTable : List (List Kind) := [\n'+wrap(['['+', '.join('.'+k for k in sorted(kinds[n]))+']' for n in order])+']\n')
o.append('/-- The kinds of the value of a nonterminal. -/\ndef kindsOf (x : NT) : List Kind := kindTable.getD x []\n')
o.append('end Verif.Grammar')
open('/verif/lean/Verif/Lemmas/GrammarSummary.lean','w').write('\n'.join(o)+'\n')
