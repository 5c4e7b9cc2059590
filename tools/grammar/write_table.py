from gen_lean import *
o=['import Verif.Model.Grammar.Types','/-!','The productions of `src/parser/parse.y:344-6893` (all 730 of them), see `Verif.Model.Grammar.Types`. Each rule carries the line','of its first symbol and each action the line of its opening brace.','-/','namespace Verif.Grammar','','namespace NT']
for i,n in enumerate(order):
    nm=f'«{n}»' if n in kw else n
    o.append(f'def {nm} : NT := {i}')
o.append('end NT\n')
CH=40
names=[]
for c in range(0,len(out),CH):
    nm=f'rules{c//CH}'; names.append(nm)
    part=out[c:c+CH]
    o.append(f'/-- src/parser/parse.y:{part[0][1]}-{part[-1][1]}. -/')
    o.append(f'def {nm} : List Rule := [')
    for k,(l,ln,items) in enumerate(part):
        lh=f'NT.«{l}»' if l in kw else f'NT.{l}'
        o.append(f'  ⟨{lh}, {ln}, ['+', '.join(items)+']⟩'+(',' if k<len(part)-1 else ''))
    o.append(']\n')
o.append('/-- All productions. -/\ndef rules : List Rule :=\n  '+' ++ '.join(names)+'\n')
o.append('end Verif.Grammar')
open('/verif/lean/Verif/Model/Grammar/Table.lean','w').write('\n'.join(o)+'\n')
